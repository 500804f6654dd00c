import Verif.Spec.Damage
/-! # Damaged indices of n-grams -/

namespace FF

/-- The indexer with another index for the n-gram in place `i`. -/
def ExplIndexer.withIndex (ix : ExplIndexer) (i k : Nat) : ExplIndexer :=
  { ix with index := ix.index.modify i fun p => (p.1, (k : Int)) }

/-- Every index below the bound belongs to an n-gram, and no n-gram has another index. -/
def ExplIndexer.Covers (ix : ExplIndexer) : Prop :=
  ∀ j : Int, j ∈ ix.index.map Prod.snd ↔ 0 ≤ j ∧ j < ix.bound

end FF
