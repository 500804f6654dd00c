import Verif.Spec.Args
/-!
# What holds of any command line that is accepted
-/

namespace FF

/-- Before `--`, every word that begins with a dash and a letter, or with two dashes, and has no space sets options of the
parser. -/
def AllKnown (acts : List Act) (argv : List PyStr) : Prop :=
  ∀ (pre post : List PyStr) (c : Code) (rest : PyStr), argv = pre ++ (45 :: c :: rest) :: post → [45, 45] ∉ pre →
    (45 :: c :: rest : PyStr) ≠ [45, 45] → 32 ∉ (45 :: c :: rest : PyStr) →
    (c = 45 ∨ (65 ≤ c.val ∧ c.val ≤ 90) ∨ (97 ≤ c.val ∧ c.val ≤ 122)) → ∃ os p, OptWord acts (45 :: c :: rest) os p

end FF
