import Verif.Model.Utf8
import Mathlib.Data.Nat.Digits.Defs
/-!
# Python text primitives used by the compat formats
`str.strip`, `str.split`, `int(str)`, `str(int)`, `re.split`, text-mode lines.
-/

namespace FF

/-- Characters `str.strip()` and `str.split()` treat as whitespace
(`_PyUnicode_IsWhitespace`). -/
def isSpace (c : Code) : Bool :=
  let n := c.val
  (9 ≤ n && n ≤ 13) || (28 ≤ n && n ≤ 32) || n == 0x85 || n == 0xA0 || n == 0x1680 ||
  (0x2000 ≤ n && n ≤ 0x200A) || n == 0x2028 || n == 0x2029 || n == 0x202F || n == 0x205F ||
  n == 0x3000

/-- Characters matched by `(?a)\s`: `[ \t\n\r\f\v]` -/
def isAsciiSpace (c : Code) : Bool := (9 ≤ c.val && c.val ≤ 13) || c.val == 32

/-- `s.lstrip()` -/
def lstrip : PyStr → PyStr
  | [] => []
  | c :: cs => if isSpace c then lstrip cs else c :: cs

/-- `s.rstrip()` -/
def rstrip : PyStr → PyStr
  | [] => []
  | c :: cs =>
    match rstrip cs with
    | [] => if isSpace c then [] else [c]
    | d :: ds => c :: d :: ds

/-- `s.strip()` -/
def strip (s : PyStr) : PyStr := rstrip (lstrip s)

/-- Pieces between separator characters; always at least one. -/
def pieces (sep : Code → Bool) : PyStr → List PyStr
  | [] => [[]]
  | c :: cs =>
    match pieces sep cs with
    | [] => [[c]]
    | p :: ps => if sep c then [] :: p :: ps else (c :: p) :: ps

/-- `s.split()`: maximal runs of non-whitespace -/
def splitWs (s : PyStr) : List PyStr := (pieces isSpace s).filter fun p => p ≠ []

/-- The rest of the pieces after a separator run: leading empty pieces that come from
consecutive separators disappear, except that a trailing separator leaves one empty piece. -/
def squeeze : List PyStr → List PyStr
  | [] => []
  | [p] => [p]
  | p :: q :: ps => if p = [] then squeeze (q :: ps) else p :: squeeze (q :: ps)

/-- text.py:16 `_ASCII_WHITESPACE_PAT.split(s)`: pieces between maximal runs of ASCII
whitespace; a run at the start or at the end leaves an empty piece. -/
def reSplit (s : PyStr) : List PyStr :=
  match pieces isAsciiSpace s with
  | [] => []
  | p :: ps => p :: squeeze ps

/-- `str(n)` for a natural number -/
def decimal (n : Nat) : PyStr :=
  if n = 0 then [48] else (Nat.digits 10 n).reverse.map fun d => toCode (48 + d)

/-- The characters with the decimal digit value 0 (category Nd, Unicode 14.0).  Each of them is followed by
those with the values 1 to 9. -/
def decimalZeros : List Nat :=
  [0x30, 0x660, 0x6F0, 0x7C0, 0x966, 0x9E6, 0xA66, 0xAE6, 0xB66, 0xBE6, 0xC66, 0xCE6, 0xD66, 0xDE6,
   0xE50, 0xED0, 0xF20, 0x1040, 0x1090, 0x17E0, 0x1810, 0x1946, 0x19D0, 0x1A80, 0x1A90, 0x1B50, 0x1BB0,
   0x1C40, 0x1C50, 0xA620, 0xA8D0, 0xA900, 0xA9D0, 0xA9F0, 0xAA50, 0xABF0, 0xFF10, 0x104A0, 0x10D30,
   0x11066, 0x110F0, 0x11136, 0x111D0, 0x112F0, 0x11450, 0x114D0, 0x11650, 0x116C0, 0x11730, 0x118E0,
   0x11950, 0x11C50, 0x11D50, 0x11DA0, 0x16A60, 0x16AC0, 0x16B50, 0x1D7CE, 0x1D7D8, 0x1D7E2, 0x1D7EC,
   0x1D7F6, 0x1E140, 0x1E2F0, 0x1E950, 0x1FBF0]

/-- Value of a decimal digit: `int` and `float` accept those of all scripts. -/
def digitVal (c : Code) : Option Nat :=
  (decimalZeros.find? fun z => z ≤ c.val && c.val < z + 10).map fun z => c.val - z

/-- Whitespace that `int` and `float` ignore at the ends: that of `isSpace` without the separators `\x1c` to
`\x1f`. -/
def isNumSpace (c : Code) : Bool := isSpace c && !(28 ≤ c.val && c.val ≤ 31)

/-- Removal of characters from both ends -/
def trimBy (p : Code → Bool) (s : PyStr) : PyStr := ((s.dropWhile p).reverse.dropWhile p).reverse

/-- The digits of an `int` literal, single underscores allowed between digits; `prev` tells
whether the preceding character was a digit. -/
def parseDigits : Bool → Nat → PyStr → Option Nat
  | prev, acc, [] => if prev then some acc else none
  | prev, acc, c :: cs =>
    match digitVal c with
    | some d => parseDigits true (acc * 10 + d) cs
    | none => if c = 95 ∧ prev then parseDigits false acc cs else none

/-- `int(s)`: `ValueError` if `s` is no integer literal. -/
def pyInt (s : PyStr) : Res Int :=
  let go (neg : Bool) (cs : PyStr) : Res Int :=
    match parseDigits false 0 cs with
    | some n => .ok (if neg then -(n : Int) else n)
    | none => .error .valueError
  match trimBy isNumSpace s with
  | [] => .error .valueError
  | c :: cs => if c = 45 then go true cs else if c = 43 then go false cs else go false (c :: cs)

/-- `bs.decode("ascii")` -/
def decodeAscii : Bytes → Res PyStr
  | [] => .ok []
  | b :: bs =>
    if b.toNat < 128 then
      match decodeAscii bs with
      | .ok s => .ok (toCode b.toNat :: s)
      | .error e => .error e
    else .error .unicodeDecodeError

/-- Universal newlines of text mode: `\r\n` and `\r` become `\n`. -/
def newlines : PyStr → PyStr
  | [] => []
  | c :: cs =>
    if c = 13 then
      match cs with
      | [] => [10]
      | d :: ds => if d = 10 then 10 :: newlines ds else 10 :: newlines (d :: ds)
    else c :: newlines cs

/-- The lines a text file yields, with their newline characters. -/
def linesOf : PyStr → List PyStr
  | [] => []
  | c :: cs =>
    if c = 10 then [c] :: linesOf cs
    else
      match linesOf cs with
      | [] => [[c]]
      | l :: ls => (c :: l) :: ls

/-- `rows, cols = map(int, s.split())` -/
def twoInts (s : PyStr) : Res (Int × Int) := do
  match splitWs s with
  | [a, b] => do
    let r ← pyInt a
    let c ← pyInt b
    return (r, c)
  | _ => .error .valueError

end FF
