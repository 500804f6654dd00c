import Verif.Model.Quantized
import Verif.Model.Scripts
/-!
# Construction and indexing of `NdArray` and `Norms`
storage/ndarray.py, norms.py

Keys are those of `Model/Quantized.lean`.  Tuples, arrays with several dimensions of booleans and other objects are not
modelled.
-/

namespace FF

/-- ndarray.py:41-59 `NdArray.__new__`: `not np.issubdtype(..) or ndim != 2` -/
def ndArrayNew (a : NormArray) : Res NormArray :=
  if issubdtypeF32 a.dtype = .bool false ∨ a.ndim ≠ 2 then .error .typeError
  else .ok a

section
variable {K : Type}

/-- ndarray.py:137-140 `NdArray.__getitem__`; `none` is the key `None`.  Numpy returns a view for integers, slices and
`None` and copies for arrays.  Only slices keep the class. -/
def HMat.getItem (m : HMat) (key : Option Key) : HM K Item :=
  match key with
  | none => return .array ⟨[1, m.rows.length, m.cols], ⟨m.loc, m.rows.flatten⟩⟩
  | some (.slice s) => do
    let rs ← HM.lift (npSlice m.rows s)
    return .storage (.nd ⟨m.loc, m.cols, rs⟩)
  | some (.int i) => do
    let r ← HM.lift (npGet m.rows i)
    return .array ⟨[m.cols], ⟨m.loc, r⟩⟩
  | some key => do
    let rs ← HM.lift (key.take m.rows)
    let rows ← HM.look fun h => rs.2.map fun r => h.read ⟨m.loc, r⟩
    let v ← HM.alloc rows.flatten
    return .array ⟨rs.1 ++ [m.cols], v⟩

/-- What indexing `Norms` returns: a number or an object of class `Norms` -/
inductive NormItem (K : Type) where
  | number (x : K)
  | norms (a : HArr)

/-- norms.py:75-80 `Norms.__getitem__`: the constructor of the class checks the result of a slice. -/
def normsGetItem (v : View) (key : Option Key) : HM K (NormItem K) :=
  match key with
  | none => return .norms ⟨[1, v.idxs.length], v⟩
  | some (.slice s) => do
    let is ← HM.lift (npSlice v.idxs s)
    let _ ← HM.lift (normsNew ⟨.float32, 1, []⟩)
    return .norms ⟨[is.length], ⟨v.loc, is⟩⟩
  | some (.int i) => do
    let x ← HM.lift (npGet (← HM.read v) i)
    return .number x
  | some key => do
    let xs ← HM.lift (key.take (← HM.read v))
    let w ← HM.alloc xs.2
    return .norms ⟨xs.1, w⟩

end

end FF
