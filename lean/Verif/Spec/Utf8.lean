import Verif.Model.Utf8
/-!
# UTF-8

The byte sequences of RFC 3629, and what decoding with `errors="replace"` makes of any byte string: a
maximal subpart of an ill-formed sequence becomes one U+FFFD (Unicode standard, section 3.9, "U+FFFD
Substitution of Maximal Subparts").
-/

namespace FF

/-- The code points that have a byte sequence: all but the surrogates. -/
def Scalar (n : Nat) : Prop := n < 0xD800 ∨ (0xDFFF < n ∧ n < 0x110000)

/-- RFC 3629, section 3: lead bytes `0xxxxxxx`, `110xxxxx`, `1110xxxx`, `11110xxx`, continuation bytes
`10xxxxxx`; the shortest form only. -/
inductive Utf8Char : Nat → Bytes → Prop
  | one (b : UInt8) (h : b.toNat < 0x80) : Utf8Char b.toNat [b]
  | two (b c : UInt8) (x y : Nat) (hx : x < 32) (hy : y < 64) (hb : b.toNat = 0xC0 + x)
      (hc : c.toNat = 0x80 + y) (h : 0x80 ≤ 64 * x + y) : Utf8Char (64 * x + y) [b, c]
  | three (b c d : UInt8) (x y z : Nat) (hx : x < 16) (hy : y < 64) (hz : z < 64)
      (hb : b.toNat = 0xE0 + x) (hc : c.toNat = 0x80 + y) (hd : d.toNat = 0x80 + z)
      (h : 0x800 ≤ 64 * (64 * x + y) + z) (hs : Scalar (64 * (64 * x + y) + z)) :
      Utf8Char (64 * (64 * x + y) + z) [b, c, d]
  | four (b c d e : UInt8) (w x y z : Nat) (hw : w < 8) (hx : x < 64) (hy : y < 64) (hz : z < 64)
      (hb : b.toNat = 0xF0 + w) (hc : c.toNat = 0x80 + x) (hd : d.toNat = 0x80 + y)
      (he : e.toNat = 0x80 + z) (h : 0x10000 ≤ 64 * (64 * (64 * w + x) + y) + z)
      (hs : Scalar (64 * (64 * (64 * w + x) + y) + z)) :
      Utf8Char (64 * (64 * (64 * w + x) + y) + z) [b, c, d, e]

/-- The bytes of a string. -/
inductive Utf8Text : PyStr → Bytes → Prop
  | nil : Utf8Text [] []
  | cons {c : Code} {enc : Bytes} {s : PyStr} {bs : Bytes} (hc : Utf8Char c.val enc) (hs : Utf8Text s bs) :
      Utf8Text (c :: s) (enc ++ bs)

/-- A well-formed sequence begins like this. -/
def Utf8Initial (p : Bytes) : Prop := ∃ n enc, Utf8Char n enc ∧ p <+: enc

/-- At the beginning of `bs` there is no well-formed sequence, and `sub` is the longest prefix that begins
like one, or the first byte if that cannot begin one. -/
structure IllFormed (bs sub : Bytes) : Prop where
  none : ∀ n enc, Utf8Char n enc → ¬ enc <+: bs
  start : sub <+: bs
  ne : sub ≠ []
  initial : sub.length = 1 ∨ Utf8Initial sub
  longest : ∀ p, p <+: bs → Utf8Initial p → p.length ≤ sub.length

/-- Decoding with replacement. -/
inductive Replaced : Bytes → PyStr → Prop
  | nil : Replaced [] []
  | good {c : Code} {enc bs : Bytes} {s : PyStr} (hc : Utf8Char c.val enc) (h : Replaced bs s) :
      Replaced (enc ++ bs) (c :: s)
  | bad {sub bs : Bytes} {s : PyStr} (hb : IllFormed (sub ++ bs) sub) (h : Replaced bs s) :
      Replaced (sub ++ bs) (⟨0xFFFD, by decide⟩ :: s)

/-- What the loaders with a `lossy` flag make of the bytes of a word or a line. -/
def DecodesTo (lossy : Bool) (bs : Bytes) (s : PyStr) : Prop :=
  if lossy then Replaced bs s else Utf8Text s bs

end FF
