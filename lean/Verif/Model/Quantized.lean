import Verif.Model.Heap
/-!
# `QuantizedArray.embedding` for every kind of key and output array
storage/quantized.py

`Model/Lookup.lean` and `Model/Heap.lean` have the cases that the rest of the package uses: integers, lists of
integers and slices, and an output array for integers.  Here keys and output arrays have any number of dimensions, and
the shapes of codes, quantizers and norms need not fit together.

Arrays used as keys are C-contiguous: for others numpy does not say how the memory of `a[key]` is laid out.  Output
arrays are float32.
-/

namespace FF

/-- A float array of any dimension: its shape and the positions of its elements in row-major order -/
structure HArr where
  shape : List Nat
  view : View
  deriving DecidableEq, Repr

/-- The key of `embedding`: an integer, an array of integers (or nested lists) with its shape and its elements in
row-major order, a boolean array, or a slice -/
inductive Key where
  | int (i : Int)
  | arr (shape : List Nat) (is : List Int)
  | mask (bs : List Bool)
  | slice (s : PySlice)
  deriving DecidableEq, Repr

/-- The items at the positions that are marked -/
def maskTake {α : Type} : List Bool → List α → List α
  | true :: bs, x :: xs => x :: maskTake bs xs
  | false :: bs, _ :: xs => maskTake bs xs
  | _, _ => []

/-- `xs[key]`: the shape of the result (without the dimensions of the items) and its items -/
def Key.take {α : Type} (key : Key) (xs : List α) : Res (List Nat × List α) :=
  match key with
  | .int i => do
    let x ← npGet xs i
    return ([], [x])
  | .arr shape is => do
    let ys ← npTake xs is
    return (shape, ys)
  | .mask bs => do
    if bs.length ≠ xs.length then .error .indexError
    let ys := maskTake bs xs
    return ([ys.length], ys)
  | .slice s => do
    let ys ← npSlice xs s
    return ([ys.length], ys)

section
variable {K : Type}

/-- quantized.py:143-144, 148-149: `quantizers[arange(M), codes].reshape(shape)` for codes with `qlen` columns.  The
indices are broadcast: a single column of codes is used for all quantizers, a single quantizer for all columns, which
then do not fit into the result; other differences are an `IndexError`. -/
def PQ.gatherAll (pq : PQ K) (qlen : Nat) (codes : List (List UInt8)) : Res (List K) := do
  let m := pq.quantizers.length
  let pairs : List UInt8 → List (List (List K) × UInt8) := fun row =>
    if qlen = m then pq.quantizers.zip row
    else pq.quantizers.flatMap fun q => row.map fun c => (q, c)
  if qlen ≠ m ∧ qlen ≠ 1 ∧ m ≠ 1 then .error .indexError
  let parts ← mapRes (fun row => mapRes (fun qc : List (List K) × UInt8 => npGet qc.1 (qc.2.toNat : Int)) (pairs row))
    codes
  let xs := (parts.map List.flatten).flatten
  if xs.length ≠ codes.length * pq.reconstructedLen then .error .valueError
  return xs

variable [NumOps K]

/-- quantized.py:151-152 `out.dot(projection.T, out=out)` for `n` rows.  The output array has to be C-contiguous. -/
def HPQ.projectAll (pq : HPQ) (n : Nat) (out : HArr) : HM K HArr :=
  match pq.projection with
  | none => return out
  | some p => do
    if out.view.contiguous = false then HM.fail .valueError
    let proj ← HM.look p.val
    let rows := splitRows n pq.reconstructedLen (← HM.read out.view)
    HM.write out.view (rows.map (projectRow proj)).flatten
    return out

/-- quantized.py:112-153 `PQ.reconstruct` of codes with the shape `shape + (qlen,)` -/
def HPQ.reconstructAll (pq : HPQ) (qlen : Nat) (shape : List Nat) (codes : List (List UInt8)) (out : Option HArr) :
    HM K HArr :=
  match out with
  | none => do
    let xs ← HM.lift (← HM.look fun h => (pq.val h).gatherAll qlen codes)
    let v ← HM.alloc xs
    pq.projectAll codes.length ⟨shape ++ [pq.reconstructedLen], v⟩
  | some o => do
    if o.shape.dropLast ≠ shape then HM.fail .assertionError
    match o.shape.getLast? with
    | none => HM.fail .indexError
    | some d => do
      if d ≠ pq.reconstructedLen then HM.fail .assertionError
      let xs ← HM.lift (← HM.look fun h => (pq.val h).gatherAll qlen codes)
      let tmp ← HM.alloc xs
      HM.write o.view (← HM.read tmp)
      pq.projectAll codes.length o

/-- The factors of `n` vectors of shape `shape` in quantized.py:234: `norms[key, None]`, broadcast.  Only slices give
norms of another shape. -/
def normFactors (shape : List Nat) (n : Nat) (norms : List Nat × List K) : Res (List K) :=
  if norms.1 = shape then .ok norms.2
  else
    match norms.2 with
    | [x] => .ok (List.replicate n x)
    | _ => .error .valueError

/-- quantized.py:205-234 `QuantizedArray.embedding` -/
def HQArr.embeddingAll (q : HQArr) (key : Key) (out : Option HArr) : HM K HArr := do
  let quantized ← HM.lift (key.take q.codes)
  let out ← q.pq.reconstructAll q.qlen quantized.1 quantized.2 out
  match q.norms with
  | none => return out
  | some norms => do
    let ns ← HM.lift (key.take (← HM.read norms))
    let fs ← HM.lift (normFactors quantized.1 quantized.2.length ns)
    let rows := splitRows quantized.2.length q.pq.reconstructedLen (← HM.read out.view)
    HM.write out.view (List.zipWith scale fs rows).flatten
    return out

/-- What indexing a `QuantizedArray` returns -/
inductive Item where
  | array (a : HArr)
  | storage (s : HStorage)

/-- quantized.py:261-271 `QuantizedArray.__getitem__`; `none` is the key `None` -/
def HQArr.getItem (q : HQArr) (key : Option Key) : HM K Item :=
  match key with
  | none => HM.fail .typeError
  | some (.slice s) => do
    let s ← HStorage.slice (.quant q) s
    return .storage s
  | some key => do
    let a ← q.embeddingAll key none
    return .array a

end

end FF
