import Verif.Model.Embeddings
/-!
# Assignments to `norms` and `metadata`
embeddings.py:342-377

A setter returns its outcome together with the state of the object afterwards, so that a setter
that changed the object before raising could be expressed.
-/

namespace FF

/-- What a caller may assign to `norms`: `None`, a `Norms` array, or any other object. -/
inductive NormsArg (K : Type) where
  | none
  | norms (n : List K)
  | other

/-- What a caller may assign to `metadata`. -/
inductive MetaArg where
  | none
  | metadata (m : Meta)
  | other

/-- embeddings.py:657-663 `_norms_compat` with the `isinstance` check -/
def normsCompatArg {K : Type} (storage : Storage K) (vocab : Vocab) (arg : NormsArg K) :
    Res Unit :=
  match arg with
  | .norms n => normsCompat storage vocab n
  | _ => pyAssert false

/-- embeddings.py:342-348 setter of `norms` -/
def Embeddings.setNorms {K : Type} (e : Embeddings K) (arg : NormsArg K) :
    Res Unit × Embeddings K :=
  match arg with
  | .none => (.ok (), { e with norms := none })
  | arg =>
    match normsCompatArg e.storage e.vocab arg with
    | .error x => (.error x, e)
    | .ok () =>
      match arg with
      | .norms n => (.ok (), { e with norms := some n })
      | _ => (.ok (), e)  -- unreachable: rejected by the check

/-- embeddings.py:370-377 setter of `metadata` -/
def Embeddings.setMetadata {K : Type} (e : Embeddings K) (arg : MetaArg) :
    Res Unit × Embeddings K :=
  match arg with
  | .none => (.ok (), { e with metadata := none })
  | .metadata m => (.ok (), { e with metadata := some m })
  | .other => (.error .typeError, e)

/-- One assignment by the caller. -/
inductive Assign (K : Type) where
  | norms (arg : NormsArg K)
  | metadata (arg : MetaArg)

def Embeddings.assign {K : Type} (e : Embeddings K) : Assign K → Res Unit × Embeddings K
  | .norms a => e.setNorms a
  | .metadata a => e.setMetadata a

/-- A history of assignments; exceptions are caught by the caller.  The outcomes and the final
state. -/
def Embeddings.run {K : Type} (e : Embeddings K) : List (Assign K) → List (Res Unit) × Embeddings K
  | [] => ([], e)
  | a :: as =>
    let (r, e1) := e.assign a
    let (rs, e2) := e1.run as
    (r :: rs, e2)

end FF
