import Verif.Spec.Float32
import Verif.Model.PyText
/-!
# Decimal numbers as text, and binary64
-/

namespace FF

/-- ASCII digits -/
def Digits (s : PyStr) : Prop := ∀ c ∈ s, 48 ≤ c.val ∧ c.val ≤ 57

/-- The number that digits stand for -/
def digitsVal (s : PyStr) : Nat := s.foldl (fun n c => n * 10 + (c.val - 48)) 0

/-- A point and digits after it, or nothing -/
inductive Fraction : PyStr → PyStr → Prop
  | none : Fraction [] []
  | point {ds : PyStr} : Digits ds → Fraction (46 :: ds) ds

/-- The letter e and an integer, or nothing -/
inductive Exponent : PyStr → Int → Prop
  | none : Exponent [] 0
  | pos {c : Code} {sg ds : PyStr} : c = 101 ∨ c = 69 → sg = [] ∨ sg = [43] → Digits ds → ds ≠ [] →
      Exponent (c :: (sg ++ ds)) (digitsVal ds)
  | neg {c : Code} {ds : PyStr} : c = 101 ∨ c = 69 → Digits ds → ds ≠ [] →
      Exponent (c :: 45 :: ds) (-(digitsVal ds : Int))

/-- The text of a decimal number without a sign: `m · 10 ^ x` -/
def Unsigned (s : PyStr) (m : Nat) (x : Int) : Prop :=
  ∃ (i f ft xt : PyStr) (y : Int), Digits i ∧ Fraction ft f ∧ Exponent xt y ∧ i ++ f ≠ [] ∧ s = i ++ (ft ++ xt) ∧
    m = digitsVal (i ++ f) ∧ x = y - f.length

/-- The text of a decimal number: `± m · 10 ^ x` -/
inductive DecimalText : PyStr → Bool → Nat → Int → Prop
  | pos {s sg : PyStr} {m : Nat} {x : Int} : sg = [] ∨ sg = [43] → Unsigned s m x → DecimalText (sg ++ s) false m x
  | neg {s : PyStr} {m : Nat} {x : Int} : Unsigned s m x → DecimalText (45 :: s) true m x

/-- `± m · 10 ^ x` -/
noncomputable def decimalVal (neg : Bool) (m : Nat) (x : Int) : ℝ := (if neg then -1 else 1) * (m * (10 : ℝ) ^ x)

/-- A number with at most `N` significant decimal digits -/
def Significant (N : Nat) (z : ℝ) : Prop := ∃ (D : Nat) (x : Int), D < 10 ^ N ∧ |z| = D * (10 : ℝ) ^ x

namespace F64

/-- The numbers of binary64, and those above its range that have 53 bits, too -/
def Number (y : ℝ) : Prop := ∃ (m : Int) (k : Nat), |m| ≤ 2 ^ 53 ∧ y = m * 2 ^ k / 2 ^ 1074

/-- Those with an even significand -/
def Even (y : ℝ) : Prop :=
  ∃ (m : Int) (k : Nat), m % 2 = 0 ∧ |m| ≤ 2 ^ 53 ∧ (k = 0 ∨ 2 ^ 52 ≤ |m|) ∧ y = m * 2 ^ k / 2 ^ 1074

/-- `y` is the number nearest to `x`; of two nearest ones it is the even one. -/
def Nearest (x y : ℝ) : Prop :=
  Number y ∧ ∀ c, Number c → |y - x| ≤ |c - x| ∧ (|y - x| = |c - x| → y = c ∨ Even y)

end F64

end FF
