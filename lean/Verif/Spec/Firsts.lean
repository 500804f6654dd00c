import Mathlib.Data.List.Basic
import Mathlib.Data.List.Forall2
import Verif.Spec.Ngrams
/-! Distinct elements of a list in the order of their first occurrence. -/

namespace FF

variable {α : Type} [DecidableEq α]

/-- `f` lists the distinct elements of `l` in the order in which they first occur in `l`. -/
def InFirstOrder (l f : List α) : Prop :=
  f.Nodup ∧ (∀ x, x ∈ f ↔ x ∈ l) ∧ f.Pairwise (fun a b => l.idxOf a < l.idxOf b)

/-- `A` lists the n-grams of the bracketed words, word by word. -/
def NgramsOfAll (ws : List PyStr) (lo hi : Nat) (A : List PyStr) : Prop :=
  ∃ gss, List.Forall₂ (fun w gs => NgramsOf (wrap true w) lo hi gs) ws gss ∧ A = gss.flatten

end FF
