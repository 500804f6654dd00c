import Verif.Model.Similarity
import Verif.Model.Score
import Verif.Spec.Num
/-!
# What numpy and heapq promise
-/

namespace FF

/-- `p` is a permutation of the positions with the element that belongs at position `j` in sorted
order at `j`, no larger ones before and no smaller ones after it.  NaNs are larger than numbers. -/
def Partitioned {K : Type} [Score K] (xs : List K) (j : Nat) (p : List Nat) : Prop :=
  p.Perm (List.range xs.length) ∧
  ∃ pivot, (∃ i, p[j]? = some i ∧ xs[i]? = some pivot) ∧
    ∀ (t i : Nat) x, p[t]? = some i → xs[i]? = some x →
      (t < j → Score.before pivot x = false) ∧ (j ≤ t → Score.before x pivot = false)

/-- Documented behaviour of `argpartition` (`kth` out of bounds is a `ValueError`; releases differ
for empty arrays), of `heappush` (adds the item, in any order) and of `nlargest`:
`sorted(heap, reverse=True)[:k]`, where nothing is promised about the order if there are NaNs. -/
structure Sel.Admissible {K : Type} [Score K] (S : Sel K) : Prop where
  inBounds : ∀ (xs : List K) (kth : Int) (j : Nat), j < xs.length →
    kth = j ∨ kth = j - xs.length → ∃ p, S.argpartition xs kth = .ok p ∧ Partitioned xs j p
  outOfBounds : ∀ (xs : List K) (kth : Int), xs ≠ [] → (kth < -xs.length ∨ (xs.length : Int) ≤ kth) →
    S.argpartition xs kth = .error .valueError
  empty : ∀ kth : Int, S.argpartition [] kth = .ok [] ∨ S.argpartition [] kth = .error .valueError
  push : ∀ heap x, (S.heappush heap x).Perm (x :: heap)
  largest : ∀ k heap, (S.nlargest k heap).length = min k.toNat heap.length ∧
    ∃ rest, (S.nlargest k heap ++ rest).Perm heap ∧
      ((∀ r ∈ heap, Score.nan r.2 = false) →
        (S.nlargest k heap ++ rest).Pairwise fun a b => Score.lt a.2 b.2 = false)

/-- The number of words of the vocabulary that are skipped. -/
def knownSkips (words skips : List PyStr) : Nat := (words.filter fun w => decide (w ∈ skips)).length

/-- No word outside `skips` has a NaN as similarity. -/
def Comparable {K : Type} [NumOps K] [Score K] (e : Embeddings K) (query : List K) (skips : List PyStr) : Prop :=
  ∀ (i : Nat) w row, e.vocab.words[i]? = some w → e.storage.getOne i = .ok row → w ∉ skips →
    Score.nan (NumOps.dot row query) = false

/-- `res` is a list of `k` nearest neighbours of `query` among the words outside `skips`, best
first, each with the dot product of its row. -/
structure IsTopK {K : Type} [NumOps K] [Score K] (e : Embeddings K) (query : List K)
    (skips : List PyStr) (k : Nat) (res : List (PyStr × K)) : Prop where
  length : res.length = k
  nodup : (res.map Prod.fst).Nodup
  sorted : res.Pairwise fun a b => Score.lt a.2 b.2 = false
  scores : ∀ w x, (w, x) ∈ res → w ∉ skips ∧ ∃ (i : Nat) (row : List K),
    e.vocab.words[i]? = some w ∧ e.storage.getOne i = .ok row ∧ x = NumOps.dot row query
  best : ∀ (i : Nat) w row, e.vocab.words[i]? = some w → e.storage.getOne i = .ok row →
    w ∉ skips → w ∉ res.map Prod.fst → ∀ r ∈ res, Score.lt r.2 (NumOps.dot row query) = false

/-- An instance: sort completely. -/
def Sel.sorting (K : Type) [Score K] [Inhabited K] : Sel K where
  argpartition xs kth :=
    if xs ≠ [] ∧ (kth < -xs.length ∨ (xs.length : Int) ≤ kth) then .error .valueError
    else .ok ((List.range xs.length).insertionSort fun a b =>
      Score.before (xs.getD b default) (xs.getD a default) = false)
  heappush heap x := x :: heap
  nlargest k heap := (heap.insertionSort fun a b => Score.before a.2 b.2 = false).take k.toNat

/-- Numbers without NaNs. -/
@[instance_reducible] def Score.ofOrder (K : Type) [LinearOrder K] : Score K where
  lt a b := decide (a < b)
  nan _ := false
  nan_left _ _ h := Bool.noConfusion h
  nan_right _ _ h := Bool.noConfusion h
  asymm a b h := by
    simp only [decide_eq_true_eq, decide_eq_false_iff_not, not_lt] at *
    exact h.le
  trans a b c _ h1 h2 := by
    simp only [decide_eq_false_iff_not, not_lt] at *
    exact le_trans h2 h1

instance : Score Int := .ofOrder Int

end FF
