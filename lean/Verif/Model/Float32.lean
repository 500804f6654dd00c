import Verif.Model.Storage
import Verif.Model.Score
/-!
# float32 arithmetic

The arithmetic that numpy carries out on `float32` arrays: IEEE 754 binary32, rounding to nearest, ties to
even, with subnormal numbers.  `F32` are the bit patterns.  Magnitudes are natural numbers in units of
`2⁻¹⁴⁹`, the smallest positive number.

Not modelled: signs and payloads of NaNs (every NaN is `nan`), floating point exceptions and warnings.
-/

namespace FF

namespace B32

/-- The exponent field filled with ones: infinity. -/
def inf : Nat := 255 * 2 ^ 23

def nan : F32 := 0x7FC00000

/-- Sign bit -/
def sign (b : F32) : Bool := 2 ^ 31 ≤ b.toNat

/-- Exponent and fraction -/
def mant (b : F32) : Nat := b.toNat % 2 ^ 31

def mk (s : Bool) (n : Nat) : F32 := UInt32.ofNat (n + if s then 2 ^ 31 else 0)

def isNaN (b : F32) : Bool := inf < mant b

def isInf (b : F32) : Bool := mant b = inf

def isFin (b : F32) : Bool := mant b < inf

/-- Magnitude of a pattern without sign; patterns with exponent 0 are subnormal. -/
def mag (n : Nat) : Nat := if n < 2 ^ 23 then n else (2 ^ 23 + n % 2 ^ 23) * 2 ^ (n / 2 ^ 23 - 1)

/-- The number of a finite pattern, in units. -/
def int (b : F32) : Int := if sign b then -(mag (mant b) : Int) else mag (mant b)

/-- The integer nearest to `num / den`, ties to even. -/
def halfEven (num den : Nat) : Nat :=
  if 2 * (num % den) < den then num / den
  else if den < 2 * (num % den) then num / den + 1
  else num / den + num / den % 2

/-- The pattern nearest to `num / den` units.  24 bits are kept; a carry out of the fraction increments the
exponent, a carry out of the largest exponent gives infinity. -/
def round (num den : Nat) : Nat :=
  let k := Nat.log2 (num / den) - 23
  min inf (k * 2 ^ 23 + halfEven num (den * 2 ^ k))

/-- The pattern nearest to `√m` units. -/
def roundSqrt (m : Nat) : Nat :=
  let k := Nat.log2 (Nat.sqrt m) - 23
  let q := Nat.sqrt m / 2 ^ k
  let h := ((2 * q + 1) * 2 ^ k) ^ 2
  min inf (k * 2 ^ 23 + if 4 * m < h then q else if h < 4 * m then q + 1 else q + q % 2)

def neg (a : F32) : F32 := mk (!sign a) (mant a)

def add (a b : F32) : F32 :=
  if isNaN a || isNaN b then nan
  else if isInf a then if isInf b && sign a != sign b then nan else a
  else if isInf b then b
  else
    let t := int a + int b
    mk (if t = 0 then sign a && sign b else decide (t < 0)) (round t.natAbs 1)

def sub (a b : F32) : F32 := add a (neg b)

def mul (a b : F32) : F32 :=
  if isNaN a || isNaN b then nan
  else if isInf a || isInf b then
    if mant a = 0 || mant b = 0 then nan else mk (sign a != sign b) inf
  else mk (sign a != sign b) (round (mag (mant a) * mag (mant b)) (2 ^ 149))

/-- `a * b + c` with one rounding -/
def fma (a b c : F32) : F32 :=
  if isNaN a || isNaN b || isNaN c then nan
  else if isInf a || isInf b then
    if mant a = 0 || mant b = 0 then nan
    else if isInf c && sign c != (sign a != sign b) then nan
    else mk (sign a != sign b) inf
  else if isInf c then c
  else
    let t := int a * int b + int c * 2 ^ 149
    mk (if t = 0 then (sign a != sign b) && sign c else decide (t < 0)) (round t.natAbs (2 ^ 149))

def div (a b : F32) : F32 :=
  if isNaN a || isNaN b then nan
  else if isInf a then if isInf b then nan else mk (sign a != sign b) inf
  else if isInf b then mk (sign a != sign b) 0
  else if mant b = 0 then if mant a = 0 then nan else mk (sign a != sign b) inf
  else mk (sign a != sign b) (round (mag (mant a) * 2 ^ 149) (mag (mant b)))

def sqrt (a : F32) : F32 :=
  if isNaN a then nan
  else if mant a = 0 then a
  else if sign a then nan
  else if isInf a then a
  else mk false (roundSqrt (mag (mant a) * 2 ^ 149))

/-- Conversion of a Python integer -/
def ofNat (n : Nat) : F32 := mk false (round (n * 2 ^ 149) 1)

/-! ### Vectors

One possible order of the operations. -/

/-- `add.reduce` from left to right -/
def sum : List F32 → F32
  | [] => 0
  | x :: xs => xs.foldl add x

/-- Products, then their sum -/
def dot (xs ys : List F32) : F32 := sum (List.zipWith mul xs ys)

def norm (v : List F32) : F32 := sqrt (dot v v)

end B32

/-- float32 with sums from left to right -/
@[instance_reducible] def b32Ops : NumOps F32 where
  add := B32.add
  sub := B32.sub
  mul := B32.mul
  div := B32.div
  zero := 0
  ofNat := B32.ofNat
  dot := B32.dot
  norm := B32.norm
  normAxis := B32.norm

/-- `a < b`: false if one is NaN; `-0` and `0` are equal.  The magnitude of the pattern of infinity is larger
than all others. -/
def B32.lt (a b : F32) : Bool := !B32.isNaN a && !B32.isNaN b && decide (B32.int a < B32.int b)

/-- Comparisons of float32 -/
instance b32Score : Score F32 where
  lt := B32.lt
  nan := B32.isNaN
  nan_left a b h := by simp [B32.lt, h]
  nan_right a b h := by simp [B32.lt, h]
  asymm a b h := by
    simp only [B32.lt, Bool.and_eq_true, decide_eq_true_eq] at h
    simp only [B32.lt, Bool.and_eq_false_iff, decide_eq_false_iff_not]
    omega
  trans a b c hb h1 h2 := by
    simp only [B32.lt, Bool.and_eq_false_iff, decide_eq_false_iff_not, hb, Bool.not_false, Bool.true_eq_false,
      or_false, false_or] at *
    rcases h1 with h1 | h1
    · exact Or.inl (Or.inl h1)
    · rcases h2 with h2 | h2
      · exact Or.inl (Or.inr h2)
      · omega

end FF
