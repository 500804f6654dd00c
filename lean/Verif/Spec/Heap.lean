import Verif.Model.Heap
import Verif.Spec.Built
/-!
# Memory
What it means that a call changes no array, or only a given one.
-/

namespace FF

section
variable {K : Type}

/-- The view lies inside its buffer. -/
def View.Valid (h : Heap K) (v : View) : Prop :=
  ∃ b, h[v.loc]? = some b ∧ ∀ i ∈ v.idxs, i < b.data.length

/-- `h'` comes from `h` by allocating buffers and changing cells in `P`. -/
structure Heap.Le (P : Nat → Nat → Prop) (h h' : Heap K) : Prop where
  len : h.length ≤ h'.length
  buf : ∀ l b, h[l]? = some b → ∃ b', h'[l]? = some b' ∧ b'.writable = b.writable ∧
    b'.data.length = b.data.length ∧ (b.writable = false → b' = b) ∧
    ∀ i, ¬ P l i → b'.data[i]? = b.data[i]?

/-- The arrays of an object. -/
def HMat.views (m : HMat) : List View := m.rows.map fun r => ⟨m.loc, r⟩

def HPQ.views (pq : HPQ) : List View :=
  pq.quantizers.flatMap HMat.views ++ (pq.projection.map HMat.views).getD []

def HQArr.views (q : HQArr) : List View := q.pq.views ++ q.norms.toList

def HStorage.views : HStorage → List View
  | .nd m => m.views
  | .quant q => q.views

def HEmb.views (E : HEmb) : List View := E.storage.views ++ E.norms.toList

/-- No existing cell changes. -/
def Never : Nat → Nat → Prop := fun _ _ => False

/-- All views lie inside their buffers. -/
def Valids (h : Heap K) (vs : List View) : Prop := ∀ v ∈ vs, v.Valid h

/-- The cells of an array. -/
def View.cells (v : View) : Nat → Nat → Prop := fun l i => l = v.loc ∧ i ∈ v.idxs

/-- A writable array of `n` elements without repeated positions. -/
structure Buffer (h : Heap K) (o : View) (n : Nat) : Prop where
  valid : o.Valid h
  nodup : o.idxs.Nodup
  writable : ∀ b, h[o.loc]? = some b → b.writable = true
  len : o.idxs.length = n

/-- The array shares no element with the views. -/
def Apart (o : View) (vs : List View) : Prop := ∀ v ∈ vs, v.loc = o.loc → ∀ i ∈ v.idxs, i ∉ o.idxs

/-- The arrays of the embeddings exist and have the shapes they claim to have. -/
structure HEmb.OK (h : Heap K) (E : HEmb) : Prop where
  valid : Valids h E.views
  shape : StorageWF (E.val h).storage

end

end FF
