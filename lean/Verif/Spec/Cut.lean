import Verif.Spec.Text
/-!
# Texts that are cut short
-/

namespace FF

/-- `v'` is what may be read for `v` if its text is cut: the last number is replaced by what its beginning
stands for (its whole text included), or all numbers are by what the beginning of the first one stands for. -/
def CutVector {K : Type} [NumText K] (v v' : List K) : Prop :=
  ∃ (p t : PyStr) (x y : K), p ≠ [] ∧ NumText.str x = p ++ t ∧ NumText.parse p = .ok y ∧
    ((∃ init, v = init ++ [x] ∧ v' = init ++ [y]) ∨
      (∃ rest, v = x :: rest ∧ v' = List.replicate v.length y))

end FF
