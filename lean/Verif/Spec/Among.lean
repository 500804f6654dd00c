import Verif.Spec.Reorder
/-!
# Nearest neighbours among some words
-/

namespace FF

/-- `res` is a list of `k` nearest neighbours of `query` among `words` without `skips`, best first, each with the dot
product of the vector that `e` has for it. -/
structure NearestAmong {K : Type} [NumOps K] [Score K] (e : Embeddings K) (words : List PyStr) (query : List K)
    (skips : List PyStr) (k : Nat) (res : List (PyStr × K)) : Prop where
  length : res.length = k
  nodup : (res.map Prod.fst).Nodup
  sorted : res.Pairwise fun a b => Score.lt a.2 b.2 = false
  scores : ∀ w x, (w, x) ∈ res → w ∈ words ∧ w ∉ skips ∧ ∃ v, e.embedding w = .ok (some v) ∧ x = NumOps.dot v query
  best : ∀ w v, w ∈ words → e.embedding w = .ok (some v) → w ∉ skips → w ∉ res.map Prod.fst →
    ∀ r ∈ res, Score.lt r.2 (NumOps.dot v query) = false

/-- The first `k` answers that are among `words` -/
def firstAmong {K : Type} (k : Nat) (words : List PyStr) (all : List (PyStr × K)) : List (PyStr × K) :=
  (all.filter fun r => decide (r.1 ∈ words)).take k

end FF
