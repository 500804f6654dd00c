import Verif.Spec.Sel
import Verif.Spec.Built
/-!
# Embeddings with the same words in another order
-/

namespace FF

section
variable {K : Type} [NumOps K]

/-- `w` is a word of the vocabulary and `row` its vector. -/
def HasVector (e : Embeddings K) (w : PyStr) (row : List K) : Prop :=
  ∃ i : Nat, e.vocab.words[i]? = some w ∧ e.storage.getOne i = .ok row

/-- The words come in another order, each with its row and its norm; the rest is the same. -/
structure Reordered (e e' : Embeddings K) : Prop where
  words : e.vocab.words.Perm e'.vocab.words
  rows : ∀ (i j : Nat) w, e.vocab.words[i]? = some w → e'.vocab.words[j]? = some w →
    e.storage.getOne i = e'.storage.getOne j
  norms : (e.norms = none ↔ e'.norms = none) ∧
    ∀ (i j : Nat) w ns ns', e.vocab.words[i]? = some w → e'.vocab.words[j]? = some w →
      e.norms = some ns → e'.norms = some ns' → ns[i]? = ns'[j]?
  sub : e.vocab.sub = e'.vocab.sub
  ngrams : ∀ i : Nat, e.vocab.words.length ≤ i → e.storage.getOne i = e'.storage.getOne i
  cols : e.storage.nCols = e'.storage.nCols

variable [Score K]

/-- Two answers that differ in the order and choice of equally similar words only: the similarities at every position
are equal, and a word that is more similar than another answer is in both. -/
structure SameAnswers (a b : List (PyStr × K)) : Prop where
  scores : List.Forall₂ (fun x y => Score.lt x.2 y.2 = false ∧ Score.lt y.2 x.2 = false) a b
  clear : ∀ r, (∃ s ∈ a, Score.lt s.2 r.2 = true) → (r ∈ a ↔ r ∈ b)

/-- The same exception, no answers or answers that are the same -/
def SameOutcome : Res (Option (List (PyStr × K))) → Res (Option (List (PyStr × K))) → Prop
  | .ok none, .ok none => True
  | .ok (some a), .ok (some b) => SameAnswers a b
  | .error x, .error y => x = y
  | _, _ => False

end

end FF
