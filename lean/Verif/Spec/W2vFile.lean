import Verif.Spec.TextFile
import Verif.Spec.Utf8
/-!
# Reading word2vec files of any layout
-/

namespace FF

/-- `w'` is `w` without the whitespace at its ends. -/
def Stripped (w w' : PyStr) : Prop :=
  ∃ a b : PyStr, w = a ++ w' ++ b ∧ (∀ c ∈ a, isSpace c = true) ∧ (∀ c ∈ b, isSpace c = true) ∧
    (∀ c, w'.head? = some c → isSpace c = false) ∧ (∀ c, w'.getLast? = some c → isSpace c = false)

/-- The bytes `k`, stored before a space, stand for the word `w`. -/
def W2vKey (lossy : Bool) (k : Bytes) (w : PyStr) : Prop :=
  (32 : UInt8) ∉ k ∧ ∃ s, DecodesTo lossy k s ∧ Stripped s w

/-- Bytes that begin with these words and vectors.  The last vector may be cut off after its first
component, which the whole vector then repeats. -/
inductive W2vBody (lossy : Bool) (cols : Nat) : Bytes → List (PyStr × List F32) → Prop
  | nil (rest : Bytes) : W2vBody lossy cols rest []
  | row {k : Bytes} {w : PyStr} {v : List F32} {rest : Bytes} {rs : List (PyStr × List F32)} :
      W2vKey lossy k w → v.length = cols → W2vBody lossy cols rest rs →
      W2vBody lossy cols (k ++ 32 :: (f32sLE v ++ rest)) ((w, v) :: rs)
  | one {k : Bytes} {w : PyStr} {x : F32} {t : Bytes} : W2vKey lossy k w → 2 ≤ cols → t.length < 4 →
      W2vBody lossy cols (k ++ 32 :: (f32sLE [x] ++ t)) [(w, List.replicate cols x)]

/-- The first line: two integers in ASCII. -/
def W2vHeader (bs : Bytes) (rows cols : Int) (body : Bytes) : Prop :=
  ∃ line : PyStr, (∀ c ∈ line, c.val < 128 ∧ c.val ≠ 10) ∧ DimsAre line rows cols ∧
    (bs = utf8 line ++ 10 :: body ∨ bs = utf8 line ∧ body = [])

end FF
