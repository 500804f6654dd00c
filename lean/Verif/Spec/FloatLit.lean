import Verif.Spec.PyInt
import Verif.Spec.FloatText
/-!
# Float literals of Python
-/

namespace FF

/-- Whitespace that may stand around numbers -/
def Blank (c : Code) : Prop :=
  c.val ∈ [9, 10, 11, 12, 13, 32, 0x85, 0xA0, 0x1680, 0x2000, 0x2001, 0x2002, 0x2003, 0x2004, 0x2005, 0x2006, 0x2007,
    0x2008, 0x2009, 0x200A, 0x2028, 0x2029, 0x202F, 0x205F, 0x3000]

/-- Decimal digits of any scripts and their values; one underscore is allowed between two of them. -/
inductive Figures : PyStr → List Nat → Prop
  | nil : Figures [] []
  | cons {c : Code} {d : Nat} {s : PyStr} {ds : List Nat} : Digit c d → Figures s ds → Figures (c :: s) (d :: ds)
  | under {c : Code} {d : Nat} {s : PyStr} {ds : List Nat} : Digit c d → Figures s ds → ds ≠ [] →
      Figures (c :: 95 :: s) (d :: ds)

/-- The number that digits stand for -/
def figuresVal (ds : List Nat) : Nat := ds.foldl (fun n d => n * 10 + d) 0

inductive Sign : PyStr → Bool → Prop
  | none : Sign [] false
  | plus : Sign [43] false
  | minus : Sign [45] true

/-- A point and digits after it, or nothing -/
inductive LitFraction : PyStr → List Nat → Prop
  | none : LitFraction [] []
  | point {s : PyStr} {ds : List Nat} : Figures s ds → LitFraction (46 :: s) ds

/-- The letter e and an integer, or nothing -/
inductive LitExponent : PyStr → Int → Prop
  | none : LitExponent [] 0
  | letter {c : Code} {sg s : PyStr} {ds : List Nat} {neg : Bool} : c = 101 ∨ c = 69 → Sign sg neg → Figures s ds →
      ds ≠ [] → LitExponent (c :: (sg ++ s)) (if neg then -(figuresVal ds : Int) else figuresVal ds)

/-- The same ASCII letters, of which those of `l` are small ones -/
def AnyCase (w l : PyStr) : Prop := List.Forall₂ (fun c d => c = d ∨ c.val + 32 = d.val) w l

/-- What literals stand for; `dec neg m x` is `± m · 10 ^ x`. -/
inductive FloatVal
  | nan
  | inf (neg : Bool)
  | dec (neg : Bool) (m : Nat) (x : Int)

/-- Numbers, and the words `nan`, `inf` and `infinity` -/
inductive FloatLit : PyStr → FloatVal → Prop
  | nan {sg w : PyStr} {neg : Bool} : Sign sg neg → AnyCase w [110, 97, 110] → FloatLit (sg ++ w) .nan
  | inf {sg w : PyStr} {neg : Bool} : Sign sg neg →
      AnyCase w [105, 110, 102] ∨ AnyCase w [105, 110, 102, 105, 110, 105, 116, 121] → FloatLit (sg ++ w) (.inf neg)
  | dec {sg i f e : PyStr} {neg : Bool} {ids fds : List Nat} {x : Int} : Sign sg neg → Figures i ids →
      LitFraction f fds → LitExponent e x → ids ++ fds ≠ [] →
      FloatLit (sg ++ (i ++ (f ++ e))) (.dec neg (figuresVal (ids ++ fds)) (x - fds.length))

/-- A literal with whitespace around it -/
def FloatWord (s : PyStr) (v : FloatVal) : Prop :=
  ∃ t0 a t1 : PyStr, s = t0 ++ a ++ t1 ∧ (∀ c ∈ t0 ++ t1, Blank c) ∧ FloatLit a v

/-- The float32 number that a literal is read as: decimal numbers are rounded to binary64 and then to binary32. -/
def FloatVal.Reads (x : F32) : FloatVal → Prop
  | .nan => x = B32.nan
  | .inf neg => x = if neg then F32.negInf else F32.posInf
  | .dec neg m e => (F32.sgn x = 1 ↔ neg = true) ∧ ∃ y, F64.Nearest (decimalVal neg m e) y ∧ F32.RoundsTo y x

end FF
