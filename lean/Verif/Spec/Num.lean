import Verif.Model.Storage
import Mathlib.Analysis.Real.Sqrt
/-!
# Scalar instances
`ℤ` for concrete examples, `ℝ` for theorems about exact arithmetic.
-/

namespace FF

/-- Sum of products, over any ring-like type. -/
def sumProd {K : Type} [Add K] [Mul K] [Zero K] : List K → List K → K
  | a :: as, b :: bs => a * b + sumProd as bs
  | _, _ => 0

/-- Integers, with the sum of absolute values as norm; only used in examples. -/
instance intOps : NumOps Int where
  add a b := a + b
  sub a b := a - b
  mul a b := a * b
  div a b := a / b
  zero := 0
  ofNat n := n
  dot := sumProd
  norm v := v.foldr (fun x s => |x| + s) 0
  normAxis v := v.foldr (fun x s => |x| + s) 0

/-- Rationals, with the sum of absolute values as norm; only used in examples. -/
instance ratOps : NumOps Rat where
  add a b := a + b
  sub a b := a - b
  mul a b := a * b
  div a b := a / b
  zero := 0
  ofNat n := n
  dot := sumProd
  norm v := v.foldr (fun x s => (if x < 0 then -x else x) + s) 0
  normAxis v := v.foldr (fun x s => (if x < 0 then -x else x) + s) 0

/-- Exact arithmetic. -/
noncomputable instance realOps : NumOps ℝ where
  add a b := a + b
  sub a b := a - b
  mul a b := a * b
  div a b := a / b
  zero := 0
  ofNat n := n
  dot := sumProd
  norm v := Real.sqrt (sumProd v v)
  normAxis v := Real.sqrt (sumProd v v)

end FF
