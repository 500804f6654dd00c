import Verif.Model.Float32
import Verif.Model.Text
import Mathlib.Data.Nat.Log
/-!
# float32 as text

What `str` of a `numpy.float32` writes (text.py:170) and what the assignment of strings to a float32 row reads
(text.py:149).  numpy writes the shortest digits that determine the number (Dragon4, `unique=True`).  For every
string it reads, it calls `float`, which gives the nearest binary64 number, and rounds that to binary32.

Not modelled: numbers of digits beyond the limits of `strtod` (10⁹), signs of NaNs.
-/

namespace FF

namespace B32

/-! ### Writing

Numbers are compared in units of `2⁻¹⁵⁰ · 10⁻⁵⁴`: midpoints between floats are multiples of `2⁻¹⁵⁰`, the digits
that are written are multiples of `10⁻⁵⁴`. -/

/-- The midpoint between the numbers with the patterns `n` and `n + 1`, in units of `2⁻¹⁵⁰` -/
def mid (n : Nat) : Nat := mag n + mag (n + 1)

/-- Number of decimal digits of the number with pattern `n` down to the digit for `10⁻⁵⁴` -/
def places (n : Nat) : Nat := Nat.log 10 (mag n * 10 ^ 54 / 2 ^ 149) + 1

/-- The step of Dragon4 that decides about ending with the digit for the unit `u`.  The digits so far, `D`, are
those of the number `v`, cut off.  They can be taken if they are above `lo`, the midpoint to the preceding float,
the next ones, `D + 1`, if they are below `hi`, the midpoint to the following float; the midpoints belong to floats
with even fraction.  If both can be taken, the closer ones are. -/
def pick (even : Bool) (lo v hi u : Nat) : Option Nat :=
  let D := v / u
  let low := decide (lo < D * u) || (even && lo == D * u)
  let high := decide ((D + 1) * u < hi) || (even && (D + 1) * u == hi)
  let down := if low && high then decide (2 * (v % u) < u) || (2 * (v % u) == u && D % 2 == 0) else low
  if low || high then some (if down then D else D + 1) else none

/-- The step for the `N`th digit; the result is `(D, E)` for `D · 10 ^ (E - 54)`. -/
def candidate (n N : Nat) : Option (Nat × Nat) :=
  let E := places n - N
  (pick (n % 2 == 0) (mid (n - 1) * 10 ^ 54) (2 * mag n * 10 ^ 54) (mid n * 10 ^ 54) (10 ^ E * 2 ^ 150)).map
    fun D => (D, E)

/-- The first step at which Dragon4 can end.  Nine digits are always enough (`candidate_nine`). -/
def shortest (n : Nat) : Nat × Nat := ((List.range' 1 9).findSome? (candidate n)).getD (0, 0)

/-- Without zeros at the end -/
def trimZeros (s : PyStr) : PyStr := (s.reverse.dropWhile fun c => c == 48).reverse

/-- At least `w` digits -/
def zeroPad (w : Nat) (s : PyStr) : PyStr := List.replicate (w - s.length) 48 ++ s

/-- Positional notation, with at least one digit after the point -/
def positional (D E : Nat) : PyStr :=
  if 54 ≤ E then decimal (D * 10 ^ (E - 54)) ++ [46, 48]
  else
    let f := trimZeros (zeroPad (54 - E) (decimal (D % 10 ^ (54 - E))))
    decimal (D / 10 ^ (54 - E)) ++ 46 :: if f = [] then [48] else f

/-- Scientific notation, without a point after a single digit and with at least two digits in the exponent -/
def scientific (D E : Nat) : PyStr :=
  let x : Int := (E : Int) + (decimal D).length - 1 - 54
  let m :=
    match trimZeros (decimal D) with
    | [] => []
    | [c] => [c]
    | c :: cs => c :: 46 :: cs
  m ++ 101 :: (if x < 0 then 45 else 43) :: zeroPad 2 (decimal x.natAbs)

/-- `str(x)`: numbers from `10⁻⁴` up to below `10¹⁶` are written in positional notation. -/
def str (b : F32) : PyStr :=
  if isNaN b then [110, 97, 110]
  else
    let n := mant b
    (if sign b then [45] else []) ++
    if n = inf then [105, 110, 102]
    else if n = 0 then [48, 46, 48]
    else if 2 ^ 149 ≤ mag n * 10 ^ 4 ∧ mag n < 10 ^ 16 * 2 ^ 149 then positional (shortest n).1 (shortest n).2
    else scientific (shortest n).1 (shortest n).2

/-! ### Reading -/

/-- The magnitude of the number with 53 bits nearest to `num / den`, in units of `2⁻ᵉ`; `none` stands for infinity. -/
def roundDouble (e num den : Nat) : Option Nat :=
  let k := Nat.log2 (num * 2 ^ e / den) - 52
  let v := halfEven (num * 2 ^ e) (den * 2 ^ k) * 2 ^ k
  if v < 2 ^ (1024 + e) then some v else none

/-- The pattern for the magnitude `num / den` that results from rounding to 53 bits and then to binary32 -/
def roundTwice (e num den : Nat) : Nat :=
  match roundDouble e num den with
  | none => inf
  | some v => round v (2 ^ (e - 149))

/-- Binary64 numbers are multiples of `2⁻¹⁰⁷⁴`. -/
def viaDouble (num den : Nat) : Nat := roundTwice 1074 num den

/-- The ASCII character that `float` sees in place of a character: decimal digits of all scripts become ASCII
digits and all whitespace becomes a blank. -/
def asciiForm (c : Code) : Code :=
  if c.val < 127 then c
  else if isSpace c then 32
  else
    match digitVal c with
    | some d => toCode (48 + d)
    | none => 63

def isDigit (c : Code) : Bool := 48 ≤ c.val && c.val ≤ 57

/-- Underscores are allowed between digits. -/
def dropUnderscores : Bool → PyStr → Option PyStr
  | _, [] => some []
  | prev, c :: cs =>
    if c = 95 then
      if prev && cs.head?.any isDigit then dropUnderscores false cs else none
    else (dropUnderscores (isDigit c) cs).map (c :: ·)

/-- Leading digits: their value after `acc`, their number after `cnt`, and the rest -/
def takeDigits : Nat → Nat → PyStr → Nat × Nat × PyStr
  | acc, cnt, [] => (acc, cnt, [])
  | acc, cnt, c :: cs => if isDigit c then takeDigits (acc * 10 + (c.val - 48)) (cnt + 1) cs else (acc, cnt, c :: cs)

/-- A sign, if there is one -/
def takeSign : PyStr → Bool × PyStr
  | [] => (false, [])
  | c :: cs => if c = 45 then (true, cs) else if c = 43 then (false, cs) else (false, c :: cs)

/-- What follows the letter `e` -/
def exponent (s : PyStr) : Option Int :=
  let (neg, r) := takeSign s
  let (x, cnt, r) := takeDigits 0 0 r
  if cnt = 0 ∨ r ≠ [] then none else some (if neg then -(x : Int) else x)

/-- The digits after a point, if there is one, to be read after those for `i`: value, number and rest -/
def fraction (i : Nat) : PyStr → Nat × Nat × PyStr
  | [] => (i, 0, [])
  | c :: r => if c = 46 then takeDigits i 0 r else (i, 0, c :: r)

/-- An optional exponent, after digits for `m` of which `nf` are behind the point -/
def withExponent (m nf : Nat) : PyStr → Option (Nat × Int)
  | [] => some (m, -(nf : Int))
  | c :: r => if c = 101 ∨ c = 69 then (exponent r).map fun x => (m, x - nf) else none

/-- Digits with an optional point and an optional exponent: `(m, x)` for `m · 10 ^ x` -/
def number (s : PyStr) : Option (Nat × Int) :=
  let (i, ni, r) := takeDigits 0 0 s
  let (m, nf, r) := fraction i r
  if ni + nf = 0 then none else withExponent m nf r

def lower (c : Code) : Code := if 65 ≤ c.val ∧ c.val ≤ 90 then toCode (c.val + 32) else c

/-- `float(s)` as float32; `none` if `s` is no number. -/
def read (s : PyStr) : Option F32 := do
  let t ← dropUnderscores false (trimBy isAsciiSpace (s.map asciiForm))
  let (neg, r) := takeSign t
  let l := r.map lower
  if l = [110, 97, 110] then return nan
  if l = [105, 110, 102] ∨ l = [105, 110, 102, 105, 110, 105, 116, 121] then return mk neg inf
  let (m, x) ← number r
  return mk neg (if x < 0 then viaDouble m (10 ^ x.natAbs) else viaDouble (m * 10 ^ x.natAbs) 1)

end B32

/-- Text of float32 numbers -/
@[instance_reducible] def b32Text : NumText F32 where
  str := B32.str
  parse s := match B32.read s with
    | some x => .ok x
    | none => .error .valueError

end FF
