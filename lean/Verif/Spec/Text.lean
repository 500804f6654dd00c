import Verif.Model.Text
import Verif.Spec.Compat
/-!
# The text formats
-/

namespace FF

/-- The fields of a line: a first field, and further fields each preceded by a run of ASCII
whitespace.  None of them contains ASCII whitespace; only the first may be empty. -/
structure Fields (w : PyStr) (sp : List (PyStr × PyStr)) : Prop where
  word : ∀ c ∈ w, isAsciiSpace c = false
  seps : ∀ x ∈ sp, x.1 ≠ [] ∧ ∀ c ∈ x.1, isAsciiSpace c = true
  parts : ∀ x ∈ sp, x.2 ≠ [] ∧ ∀ c ∈ x.2, isAsciiSpace c = false

/-- `line` has the fields `w` and `ps`, up to whitespace at its end. -/
def HasFields (line w : PyStr) (ps : List PyStr) : Prop :=
  ∃ sp : List (PyStr × PyStr), sp.map Prod.snd = ps ∧ Fields w sp ∧
    ∃ t : PyStr, (∀ c ∈ t, isSpace c = true) ∧
      line = w ++ (sp.flatMap fun x => x.1 ++ x.2) ++ t ∧
      ∀ c, (w ++ sp.flatMap fun x => x.1 ++ x.2).getLast? = some c → isSpace c = false

/-- A text file: optionally the dimensions, then per word the word, the separator and the
components separated by single spaces. -/
def textFile (dims : Bool) (sep : PyStr) (cols : Nat) (rows : List (PyStr × List PyStr)) : PyStr :=
  (if dims then decimal rows.length ++ [32] ++ decimal cols ++ [10] else []) ++
  rows.flatMap fun p => p.1 ++ sep ++ List.intercalate [32] p.2 ++ [10]

/-- Words that survive the text formats: no ASCII whitespace, no lone surrogates. -/
def TextWord (w : PyStr) : Prop :=
  (∀ c ∈ w, isAsciiSpace c = false) ∧ (∀ c ∈ w, c.val < 0xD800 ∨ 0xDFFF < c.val)

/-- Separators: one or more blanks, tabs, form feeds or vertical tabs. -/
def TextSep (sep : PyStr) : Prop :=
  sep ≠ [] ∧ ∀ c ∈ sep, c.val = 32 ∨ c.val = 9 ∨ c.val = 11 ∨ c.val = 12

/-- How numbers look: visible ASCII characters. -/
def NumberText (s : PyStr) : Prop := s ≠ [] ∧ ∀ c ∈ s, 32 < c.val ∧ c.val < 127

/-- The printer and the parser are inverse on `x`. -/
def Printable {K : Type} [NumText K] (x : K) : Prop :=
  NumberText (NumText.str x) ∧ NumText.parse (NumText.str x) = .ok x

section
variable {K : Type} [NumText K]

/-- The rows as text. -/
def strRows (rows : List (PyStr × List K)) : List (PyStr × List PyStr) :=
  rows.map fun p => (p.1, p.2.map NumText.str)

/-- Conditions under which the rows survive the text formats. -/
structure TextRows (cols : Nat) (rows : List (PyStr × List K)) : Prop where
  words : ∀ p ∈ rows, TextWord p.1
  zero : cols = 0 → ∀ p ∈ rows, ∀ c, p.1.getLast? = some c → isSpace c = false
  nums : ∀ p ∈ rows, ∀ x ∈ p.2, Printable x
  len : ∀ p ∈ rows, p.2.length = cols
  nodup : (rows.map Prod.fst).Nodup
  shape : ShapeOk rows.length cols

end

end FF
