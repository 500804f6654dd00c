import Verif.Spec.Damage
/-! # Damaged lengths of n-grams -/

namespace FF

/-- The indexer with other lengths of n-grams. -/
def Indexer.withRange (ix : Indexer) (mn mx : Nat) : Indexer :=
  match ix with
  | .fifu ix => .fifu { ix with minN := mn, maxN := mx }
  | .ft ix => .ft { ix with minN := mn, maxN := mx }
  | .expl ix => .expl { ix with minN := mn, maxN := mx }

/-- The vocabulary with other lengths of n-grams; words, buckets and n-grams are as before. -/
def Vocab.withRange (v : Vocab) (mn mx : Nat) : Vocab :=
  { v with sub := v.sub.map fun ix => ix.withRange mn mx }

end FF
