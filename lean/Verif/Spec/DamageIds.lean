import Verif.Spec.Damage
/-! # Damaged identifiers of chunks -/

namespace FF

/-- The identifier of the chunk of a vocabulary. -/
def Vocab.number (v : Vocab) : Nat :=
  match v.sub with
  | none => 1
  | some (.fifu _) => 3
  | some (.ft _) => 7
  | some (.expl _) => 8

/-- The identifier of the chunk of a matrix. -/
def Storage.number : Storage F32 → Nat
  | .nd _ => 2
  | .quant _ => 4

/-- The exception for an unexpected identifier: `FinalfusionFormatError` if there are such chunks, `ValueError`
otherwise. -/
def idError (n : Nat) : PyErr := if n ≤ 8 then .formatError else .valueError

/-- With any bytes in the place of the identifier at `pos` that are not an identifier in `but`, `load` fails with the
exception for the identifier that they are. -/
def NoticesId (load : Rd (Embeddings F32)) (bs : Bytes) (pos : Nat) (but : List Nat) : Prop :=
  ∀ bs' n, DiffersWithin bs bs' pos (pos + 4) → n < 2 ^ 32 → Fifu.HasAt bs' pos (Fifu.uint 4 n) → n ∉ but →
    Rd.run load bs' = .error (idError n)

end FF
