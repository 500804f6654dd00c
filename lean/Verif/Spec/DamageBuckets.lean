import Verif.Spec.Damage
/-! # Damaged numbers of buckets -/

namespace FF

/-- The number of buckets is stored as `n`: the exponent of finalfusion, the number itself of fastText.  N-grams of
explicit vocabularies are not in buckets. -/
def Indexer.StoresBuckets : Indexer → Nat → Prop
  | .fifu ix, n => ix.bucketsExp = n
  | .ft ix, n => ix.nBuckets = n
  | .expl _, _ => False

end FF
