import Verif.Model.Float32
import Verif.Spec.Round
/-!
# IEEE 754 binary32

The numbers that bit patterns stand for, correct rounding, and what numpy may compute for sums, dot products
and norms.
-/

namespace FF

namespace F32

/-- Sign, exponent and fraction of a pattern -/
def sgn (b : F32) : Nat := b.toNat / 2 ^ 31

def ex (b : F32) : Nat := b.toNat / 2 ^ 23 % 256

def fr (b : F32) : Nat := b.toNat % 2 ^ 23

/-- Neither infinite nor NaN -/
def Finite (b : F32) : Prop := ex b ≠ 255

def NaN (b : F32) : Prop := ex b = 255 ∧ fr b ≠ 0

/-- The real number of a finite pattern -/
noncomputable def val (b : F32) : ℝ :=
  if ex b = 0 then (-1) ^ sgn b * (fr b * (2 : ℝ) ^ (-149 : ℤ))
  else (-1) ^ sgn b * ((2 ^ 23 + fr b) * (2 : ℝ) ^ ((ex b : ℤ) - 150))

/-- Plus and minus infinity -/
def posInf : F32 := 0x7F800000

def negInf : F32 := 0xFF800000

/-- `b` is the number nearest to `x`; of two nearest ones it is the one with an even fraction. -/
def Nearest (x : ℝ) (b : F32) : Prop :=
  Finite b ∧ ∀ c, Finite c → |val b - x| ≤ |val c - x| ∧
    (|val b - x| = |val c - x| → val b = val c ∨ fr b % 2 = 0)

/-- From here on numbers are rounded to infinity: halfway between the largest finite number and `2¹²⁸`. -/
noncomputable def overflow : ℝ := 2 ^ 128 - 2 ^ 103

/-- `b` is `x`, correctly rounded. -/
def RoundsTo (x : ℝ) (b : F32) : Prop :=
  (|x| < overflow ∧ Nearest x b) ∨ (overflow ≤ x ∧ b = posInf) ∨ (x ≤ -overflow ∧ b = negInf)

/-- The same result, up to the bits of a NaN -/
def Same (a b : F32) : Prop := a = b ∨ (NaN a ∧ NaN b)

/-- A dot product of the pairs: products, rounded or fused with an addition, added up in some order and with
some bracketing. -/
inductive Dot : List (F32 × F32) → F32 → Prop where
  | nil : Dot [] 0
  | mul (x y : F32) : Dot [(x, y)] (B32.mul x y)
  | fma (x y : F32) {ps : List (F32 × F32)} {a : F32} : Dot ps a → Dot ((x, y) :: ps) (B32.fma x y a)
  | add {ps qs : List (F32 × F32)} {a b : F32} : Dot ps a → Dot qs b → Dot (ps ++ qs) (B32.add a b)
  | perm {ps qs : List (F32 × F32)} {a : F32} : ps.Perm qs → Dot ps a → Dot qs a

/-- Vectors that are not too long and not too short -/
structure Moderate (v : List F32) : Prop where
  fin : ∀ x ∈ v, Finite x
  low : (2 : ℝ)⁻¹ ^ 59 ≤ exactLen (v.map val)
  high : exactLen (v.map val) ≤ 2 ^ 62
  length : v.length ≤ 2 ^ 20

/-- Vectors with such a norm `n`, a computed one -/
structure NormInRange (v : List F32) (n : F32) : Prop where
  fin : ∀ x ∈ v, Finite x
  length : v.length ≤ 2 ^ 20
  finite : Finite n
  low : (2 : ℝ)⁻¹ ^ 60 ≤ val n

end F32

/-- The operations on float32 are those of binary32. -/
structure Binary32 [NumOps F32] : Prop where
  zero : (NumOps.zero : F32) = 0
  ofNat : ∀ n : Nat, NumOps.ofNat n = B32.ofNat n
  add : ∀ x y : F32, F32.Same (NumOps.add x y) (B32.add x y)
  sub : ∀ x y : F32, F32.Same (NumOps.sub x y) (B32.sub x y)
  mul : ∀ x y : F32, F32.Same (NumOps.mul x y) (B32.mul x y)
  div : ∀ x y : F32, F32.Same (NumOps.div x y) (B32.div x y)
  dot : ∀ xs ys : List F32, ∃ d, F32.Dot (xs.zip ys) d ∧ F32.Same (NumOps.dot xs ys) d
  norm : ∀ v : List F32, ∃ d, F32.Dot (v.zip v) d ∧ F32.Same (NumOps.norm v) (B32.sqrt d)
  normAxis : ∀ v : List F32, ∃ d, F32.Dot (v.zip v) d ∧ F32.Same (NumOps.normAxis v) (B32.sqrt d)

end FF
