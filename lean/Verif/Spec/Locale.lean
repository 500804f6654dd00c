import Verif.Model.Locale
import Verif.Spec.TextIO
/-!
# Texts in the encoding of a locale
-/

namespace FF

/-- `bs` is how `text` is spelled in the encoding. -/
def Locale.Spells (l : Locale) (text : PyStr) (bs : Bytes) : Prop :=
  match l with
  | .utf8 => Utf8Text text bs
  | .table t => List.Forall₂ (fun c b => t b = some c) text bs

/-- The encoding has the characters of ASCII where ASCII has them. -/
def Locale.ExtendsAscii (l : Locale) : Prop :=
  match l with
  | .utf8 => True
  | .table t => ∀ b : UInt8, b.toNat < 128 → ∃ c : Code, c.val = b.toNat ∧ t b = some c

/-- The byte `b` is read as the character `c`: U+FFFD if the table lacks it and reading is lossy. -/
def TableReads (t : UInt8 → Option Code) (lossy : Bool) (c : Code) (b : UInt8) : Prop :=
  t b = some c ∨ lossy = true ∧ t b = none ∧ c.val = 0xFFFD

/-- Iterating over the text file with the content `bs` yields the lines `ls` (here without their ends) and then ends, or raises
`stop`.  A file with bytes that the encoding lacks yields the complete lines of the pieces before the first piece with such a
byte. -/
def Locale.Yields [TextIO] (l : Locale) (lossy : Bool) (bs : Bytes) (ls : List PyStr) (stop : Option PyErr) : Prop :=
  match l with
  | .utf8 => FF.Yields lossy bs ls stop
  | .table t =>
    (∃ text, List.Forall₂ (TableReads t lossy) text bs ∧ SplitLines text ls ∧ stop = none) ∨
    (lossy = false ∧ stop = some .unicodeDecodeError ∧ ∃ before piece after text,
      TextIO.cut bs = before ++ piece :: after ∧ List.Forall₂ (TableReads t false) text before.flatten ∧
      (∃ b ∈ piece, t b = none) ∧ LinesSoFar text ls)

namespace Sample

/-- ISO 8859-1: every byte is the character with its number. -/
def latin1 : Locale := .table fun b => some ⟨b.toNat, by have := b.toNat_lt; omega⟩

/-- ASCII -/
def asciiLocale : Locale := .table fun b => if b.toNat < 128 then some ⟨b.toNat, by have := b.toNat_lt; omega⟩ else none

/-- ISO 8859-15 has the euro sign at 0xA4. -/
def latin9 : Locale := .table fun b =>
  if b = 0xA4 then some 0x20AC
  else if b = 0xA6 then some 0x160 else if b = 0xA8 then some 0x161 else if b = 0xB4 then some 0x17D
  else if b = 0xB8 then some 0x17E else if b = 0xBC then some 0x152 else if b = 0xBD then some 0x153
  else if b = 0xBE then some 0x178
  else some ⟨b.toNat, by have := b.toNat_lt; omega⟩

end Sample

end FF
