import Verif.Spec.Damage
/-! # Damaged n-grams -/

namespace FF

/-- The indexer with another n-gram in place `i`, with the index of the one it replaces. -/
def ExplIndexer.withNgram (ix : ExplIndexer) (i : Nat) (g : PyStr) : ExplIndexer :=
  { ix with ngrams := ix.ngrams.set i g, index := ix.index.modify i fun p => (g, p.2) }

end FF
