import Verif.Spec.FfFile
/-!
# Files and the number of norms they announce
-/

namespace FF.Fifu

/-- The norms chunk, if there is one, says that it has `n` norms. -/
def Announced (bs : Bytes) (pos : Nat) (norms : Option (List F32)) (n : Nat) : Prop :=
  match norms with
  | none => n = 0
  | some _ => HasAt bs (pos + 12) (uint 8 n) ∧ n < 2 ^ 64

/-- `File`, and what the norms chunk says about the number of norms. -/
def FileWith (T : Toml) (mmap : Bool) (bs : Bytes) (e : Embeddings F32) (n : Nat) : Prop :=
  ∃ p1 p2 p3 p4, HeaderAt bs p1 ∧ MetaAt T bs p1 e.metadata p2 ∧
    VocabAt bs p2 e.vocab e.storage.nRows p3 ∧ StorageAt bs p3 e.storage p4 ∧
    NormsAt bs p4 e.vocab.words.length e.norms ∧ (mmap → Mappable bs e.storage p4) ∧ Announced bs p4 e.norms n

end FF.Fifu
