import Verif.Spec.Damage
import Verif.Spec.FastText
/-! # Damaged fastText files -/

namespace FF

/-- The vector of `u` is computed from row `i` of the matrix: `u` is word `i`, or an n-gram of `u` has its vector in
this row. -/
def FtFile.Uses (f : FtFile) (u : PyStr) (i : Nat) : Prop :=
  (f.words.map Prod.fst)[i]? = some u ∨
    ∃ is, FtSubwords ⟨f.buckets, f.minN, f.maxN⟩ f.words.length u is ∧ i ∈ is

end FF
