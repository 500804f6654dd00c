import Verif.Spec.Damage
/-! # Damaged fields of a matrix -/

namespace FF
open Fifu

/-- The type identifiers in the chunk of a matrix: float32, or uint8 codes of float32 vectors. -/
def Storage.types : Storage F32 → Bytes
  | .nd _ => uint 4 10
  | .quant _ => uint 4 1 ++ uint 4 10

/-- With any other `len` bytes at `pos`, `load` fails. -/
def Notices (load : Rd (Embeddings F32)) (bs : Bytes) (pos len : Nat) : Prop :=
  ∀ bs', DiffersWithin bs bs' pos (pos + len) → bs' ≠ bs → ∃ x, Rd.run load bs' = .error x

end FF
