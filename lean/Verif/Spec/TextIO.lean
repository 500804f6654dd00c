import Verif.Spec.Utf8
import Verif.Model.TextIO
import Verif.Spec.TextFile
/-!
# Reading text files in pieces

What can be known of a text file when only a part of it has been read.
-/

namespace FF

/-- The beginning of a character that is not complete, or nothing. -/
def Unfinished (p : Bytes) : Prop := p = [] ∨ ∃ n enc, Utf8Char n enc ∧ p <+: enc ∧ p.length < enc.length

/-- `bs` is a text of which the last character may be incomplete. -/
def BeginsText (bs : Bytes) (text : PyStr) : Prop :=
  ∃ b tail, bs = b ++ tail ∧ Utf8Text text b ∧ Unfinished tail

/-- The lines at the beginning of a text, without their ends, that are there however the text goes on. -/
inductive LinesSoFar : PyStr → List PyStr → Prop
  | rest {l : PyStr} : NoBreak l → LinesSoFar l []
  | pending {l : PyStr} : NoBreak l → LinesSoFar (l ++ [13]) []
  | lf {l rest : PyStr} {ls : List PyStr} : NoBreak l → LinesSoFar rest ls →
      LinesSoFar (l ++ 10 :: rest) (l :: ls)
  | crlf {l rest : PyStr} {ls : List PyStr} : NoBreak l → LinesSoFar rest ls →
      LinesSoFar (l ++ 13 :: 10 :: rest) (l :: ls)
  | cr {l rest : PyStr} {ls : List PyStr} : NoBreak l → rest ≠ [] → rest.head? ≠ some 10 →
      LinesSoFar rest ls → LinesSoFar (l ++ 13 :: rest) (l :: ls)

/-- Iterating over the text file with the content `bs` yields the lines `ls` (here without their ends) and
then ends, or raises `stop`.  A file that is not UTF-8 yields the lines in the pieces before the first one
that makes it certain. -/
def Yields [TextIO] (lossy : Bool) (bs : Bytes) (ls : List PyStr) (stop : Option PyErr) : Prop :=
  (∃ text, DecodesTo lossy bs text ∧ SplitLines text ls ∧ stop = none) ∨
  (lossy = false ∧ (¬ ∃ text, Utf8Text text bs) ∧ stop = some .unicodeDecodeError ∧
    ∃ k text, k ≤ (TextIO.cut bs).length ∧ BeginsText ((TextIO.cut bs).take k).flatten text ∧
      (∀ j text', k < j → j ≤ (TextIO.cut bs).length →
        ¬ BeginsText ((TextIO.cut bs).take j).flatten text') ∧
      LinesSoFar text ls)

/-- Iterating yields `ls` to begin with. -/
def YieldsFirst [TextIO] (lossy : Bool) (bs : Bytes) (ls : List PyStr) : Prop :=
  (∃ text rest, DecodesTo lossy bs text ∧ SplitLines text (ls ++ rest)) ∨
  (lossy = false ∧ ∃ k text rest, BeginsText ((TextIO.cut bs).take k).flatten text ∧
    LinesSoFar text (ls ++ rest))

/-! ### Examples -/

namespace Sample

/-- Blocks of `n + 1` bytes; the second argument bounds their number. -/
def blocks (n : Nat) : Nat → Bytes → List Bytes
  | _, [] => []
  | 0, b :: bs => [b :: bs]
  | k + 1, b :: bs => (b :: bs.take n) :: blocks n k (bs.drop n)

theorem blocks_flatten (n k : Nat) (bs : Bytes) : (blocks n k bs).flatten = bs := by
  induction k generalizing bs with
  | zero => cases bs <;> simp [blocks]
  | succ k ih =>
    cases bs with
    | nil => rfl
    | cons b bs => rw [blocks, List.flatten_cons, ih]; simp

theorem blocks_ne (n k : Nat) (bs : Bytes) : ∀ p ∈ blocks n k bs, p ≠ [] := by
  induction k generalizing bs with
  | zero => cases bs <;> simp [blocks]
  | succ k ih =>
    cases bs with
    | nil => intro p hp; cases hp
    | cons b bs =>
      intro p hp
      rw [blocks] at hp
      rcases List.mem_cons.mp hp with rfl | hp
      · simp
      · exact ih _ p hp

/-- Reading in blocks of `n + 1` bytes. -/
@[instance_reducible] def blockIO (n : Nat) : TextIO where
  cut bs := blocks n bs.length bs
  flatten_cut bs := blocks_flatten n bs.length bs
  cut_ne bs := blocks_ne n bs.length bs

/-- Reading in blocks of four bytes. -/
@[instance_reducible] def textIO : TextIO := blockIO 3

end Sample

end FF
