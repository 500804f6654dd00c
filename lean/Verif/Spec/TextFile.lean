import Verif.Spec.Text
import Verif.Spec.PyInt
/-!
# Reading text files of any layout

Line ends are `\n`, `\r\n` or `\r`; the last line need not be terminated.
-/

namespace FF

/-- No line break inside. -/
def NoBreak (l : PyStr) : Prop := ∀ c ∈ l, c.val ≠ 10 ∧ c.val ≠ 13

/-- The lines of a text, without their ends. -/
inductive SplitLines : PyStr → List PyStr → Prop
  | nil : SplitLines [] []
  | last {l : PyStr} : NoBreak l → l ≠ [] → SplitLines l [l]
  | lf {l rest : PyStr} {ls : List PyStr} : NoBreak l → SplitLines rest ls →
      SplitLines (l ++ 10 :: rest) (l :: ls)
  | crlf {l rest : PyStr} {ls : List PyStr} : NoBreak l → SplitLines rest ls →
      SplitLines (l ++ 13 :: 10 :: rest) (l :: ls)
  | cr {l rest : PyStr} {ls : List PyStr} : NoBreak l → rest.head? ≠ some 10 →
      SplitLines rest ls → SplitLines (l ++ 13 :: rest) (l :: ls)

/-- `line` stands for the word `r.1` with the vector `r.2` of length `cols`: it has the word and
the components of the vector as its fields, or one component that the whole vector repeats. -/
def ReadsAs {K : Type} [NumText K] (cols : Nat) (line : PyStr) (r : PyStr × List K) : Prop :=
  ∃ (ps : List PyStr) (xs : List K), HasFields line r.1 ps ∧
    List.Forall₂ (fun p x => NumText.parse p = .ok x) ps xs ∧
    r.2.length = cols ∧ (r.2 = xs ∨ ∃ x, xs = [x] ∧ r.2 = List.replicate cols x)

/-- `first` consists of two integers and whitespace. -/
def DimsAre (first : PyStr) (rows cols : Int) : Prop :=
  ∃ t0 a t1 b t2 : PyStr, first = t0 ++ a ++ t1 ++ b ++ t2 ∧
    (∀ c ∈ t0, isSpace c = true) ∧ (∀ c ∈ t1, isSpace c = true) ∧ (∀ c ∈ t2, isSpace c = true) ∧
    (∀ c ∈ a, isSpace c = false) ∧ (∀ c ∈ b, isSpace c = false) ∧ a ≠ [] ∧ b ≠ [] ∧ t1 ≠ [] ∧
    IntText a rows ∧ IntText b cols

end FF
