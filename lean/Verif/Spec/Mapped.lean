import Verif.Model.Scripts
import Verif.Spec.Built
/-!
# Memory-mapped input
-/

namespace FF

/-- The output is not the file that the storage of the input is mapped from. -/
def NotOnto (src : Format) (mmap : Bool) (input output : PyStr) : Prop :=
  ¬ (src = .finalfusion ∧ mmap = true ∧ input = output)

instance (src : Format) (mmap : Bool) (input output : PyStr) : Decidable (NotOnto src mmap input output) :=
  inferInstanceAs (Decidable (¬ _))

/-- Storages that differ in nothing but what a memory-mapped storage leaves in its file: the numbers of the matrix or the
codes -/
inductive Twins : Storage F32 → Storage F32 → Prop where
  | nd {a b : Mat F32} : a.cols = b.cols → a.rows.map List.length = b.rows.map List.length → Twins (.nd a) (.nd b)
  | quant {a b : QArr F32} : a.pq = b.pq → a.qlen = b.qlen → a.norms = b.norms →
      a.codes.map List.length = b.codes.map List.length → Twins (.quant a) (.quant b)

/-- The conversion of the file ends without an exception and the file still holds the embeddings. -/
def Survives [NumOps F32] [NumText F32] [TextIO] [Remap] (T : Toml) (path : PyStr) (lossy mmap : Bool) (fs : FS)
    (e : Embeddings F32) : Prop :=
  ∃ fs' e', convertMain T .finalfusion .finalfusion path path lossy mmap fs = (.ok (), fs') ∧
    readFile path (Format.load T .finalfusion lossy false) fs' = .ok e' ∧ SameEmb e e'

end FF
