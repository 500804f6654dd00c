import Verif.Model.Embeddings
/-!
# numpy indexing, quantized reconstruction, embedding lookup
storage/ndarray.py, storage/quantized.py, norms.py, embeddings.py

Arrays are values here; sharing and in-place updates are modelled in `Model/Heap.lean`.
-/

namespace FF

/-! ### Indexing -/

/-- `map` with a function that may raise. -/
def mapRes {α β : Type} (f : α → Res β) : List α → Res (List β)
  | [] => .ok []
  | x :: xs => do
    let y ← f x
    let ys ← mapRes f xs
    return y :: ys

/-- numpy/Python integer index along an axis of length `n`: negative indices count from the
end, `IndexError` outside. -/
def npIndex (n : Nat) (i : Int) : Res Nat :=
  if 0 ≤ i ∧ i < n then .ok i.toNat
  else if i < 0 ∧ -(n : Int) ≤ i then .ok (i + n).toNat
  else .error .indexError

/-- `xs[i]` for an integer `i` -/
def npGet {α : Type} (xs : List α) (i : Int) : Res α := do
  let j ← npIndex xs.length i
  match xs[j]? with
  | some x => return x
  | none => .error .indexError

/-- `xs[is]` for a list of integers -/
def npTake {α : Type} (xs : List α) (is : List Int) : Res (List α) := mapRes (npGet xs) is

/-- A Python `slice` object. -/
structure PySlice where
  start : Option Int
  stop : Option Int
  step : Option Int
  deriving DecidableEq, Repr

/-- `PySlice_AdjustIndices`: clamp a bound into `[lower, upper]` after wrapping. -/
def clampBound (n : Nat) (lower upper : Int) (b : Int) : Int :=
  if b < 0 then max (b + n) lower else min b upper

/-- `slice.indices(n)`: `ValueError` for a zero step. -/
def PySlice.indices (s : PySlice) (n : Nat) : Res (Int × Int × Int) :=
  let step := s.step.getD 1
  if step = 0 then .error .valueError
  else
    let lower : Int := if step < 0 then -1 else 0
    let upper : Int := if step < 0 then (n : Int) - 1 else n
    let start := match s.start with
      | none => if step < 0 then upper else lower
      | some b => clampBound n lower upper b
    let stop := match s.stop with
      | none => if step < 0 then lower else upper
      | some b => clampBound n lower upper b
    .ok (start, stop, step)

/-- `len(range(start, stop, step))` -/
def rangeLen (start stop step : Int) : Nat :=
  if 0 < step then
    if start < stop then ((stop - start - 1) / step + 1).toNat else 0
  else
    if stop < start then ((start - stop - 1) / (-step) + 1).toNat else 0

/-- `list(range(start, stop, step))` -/
def pyRange (start stop step : Int) : List Int :=
  (List.range (rangeLen start stop step)).map fun k : Nat => start + (k : Int) * step

/-- `xs[s]` for a slice `s`: the elements at `range(*s.indices(len(xs)))`. -/
def npSlice {α : Type} (xs : List α) (s : PySlice) : Res (List α) := do
  let (start, stop, step) ← s.indices xs.length
  mapRes (fun i => match xs[i.toNat]? with
    | some x => .ok x
    | none => .error .indexError) (pyRange start stop step)

/-- `[:n]` -/
def PySlice.upTo (n : Nat) : PySlice := ⟨none, some n, none⟩

/-! ### Product quantization -/

section
variable {K : Type} [NumOps K]

/-- `v.dot(P.T)` for a vector: entry `j` is the product of `v` with row `j` of `P`. -/
def projectRow (p : Mat K) (v : List K) : List K := p.rows.map fun r => NumOps.dot v r

/-- quantized.py:112-153 `PQ.reconstruct` for one quantized vector without `out`:
`quantizers[arange(M), codes]`, reshaped to a vector, then projected in place.  A code that is
not smaller than the number of centroids is an `IndexError`.  If the number of codes differs
from the number of quantizers numpy raises `IndexError`, too, unless one of them is 1; that
broadcast is not modelled. -/
def PQ.reconstruct (pq : PQ K) (codes : List UInt8) : Res (List K) := do
  if codes.length ≠ pq.quantizers.length then .error .indexError
  let parts ← mapRes (fun qc : List (List K) × UInt8 => npGet qc.1 (qc.2.toNat : Int))
    (pq.quantizers.zip codes)
  let out := parts.flatten
  match pq.projection with
  | none => return out
  | some p => return projectRow p out

/-- `np.multiply(n, v)` for a scalar -/
def scale (n : K) (v : List K) : List K := v.map fun x => NumOps.mul n x

/-- quantized.py:205-234 `QuantizedArray.embedding` for an integer key -/
def QArr.getOne (q : QArr K) (i : Int) : Res (List K) := do
  let quantized ← npGet q.codes i
  let out ← q.pq.reconstruct quantized
  match q.norms with
  | none => return out
  | some norms => do
    let n ← npGet norms i
    return scale n out

/-- quantized.py:205-234 `QuantizedArray.embedding` for a list of integers -/
def QArr.getMany (q : QArr K) (is : List Int) : Res (List (List K)) := do
  let quantized ← npTake q.codes is
  let out ← mapRes q.pq.reconstruct quantized
  match q.norms with
  | none => return out
  | some norms => do
    let ns ← npTake norms is
    return List.zipWith scale ns out

/-- quantized.py:205-234 `QuantizedArray.embedding` for a slice -/
def QArr.embeddingSlice (q : QArr K) (s : PySlice) : Res (List (List K)) := do
  let quantized ← npSlice q.codes s
  let out ← mapRes q.pq.reconstruct quantized
  match q.norms with
  | none => return out
  | some norms => do
    let ns ← npSlice norms s
    return List.zipWith scale ns out

/-- quantized.py:261-271 `__getitem__` for a slice -/
def QArr.slice (q : QArr K) (s : PySlice) : Res (QArr K) := do
  let sliced ← npSlice q.codes s
  match q.norms with
  | none => return ⟨q.pq, q.qlen, sliced, none⟩
  | some norms => do
    let ns ← npSlice norms s
    return ⟨q.pq, q.qlen, sliced, some ns⟩

/-- quantized.py:273-274 `list(storage)` -/
def QArr.iter (q : QArr K) : Res (List (List K)) := mapRes q.pq.reconstruct q.codes

/-- quantized.py:279-283 `__array__`.  Norms and codes of different lengths do not broadcast
(`ValueError`) unless one of them is 1; that broadcast is not modelled. -/
def QArr.toArray (q : QArr K) : Res (List (List K)) :=
  match q.norms with
  | none => mapRes q.pq.reconstruct q.codes
  | some norms => do
    let out ← mapRes q.pq.reconstruct q.codes
    if norms.length ≠ out.length then .error .valueError
    return List.zipWith scale norms out

/-! ### Storages -/

/-- `storage[i]`; ndarray.py:137-140, quantized.py:261-271 -/
def Storage.getOne (s : Storage K) (i : Int) : Res (List K) :=
  match s with
  | .nd m => npGet m.rows i
  | .quant q => q.getOne i

/-- `storage[is]` for a list of integers -/
def Storage.getMany (s : Storage K) (is : List Int) : Res (List (List K)) :=
  match s with
  | .nd m => npTake m.rows is
  | .quant q => q.getMany is

/-- `storage[start:stop:step]` -/
def Storage.slice (s : Storage K) (sl : PySlice) : Res (Storage K) :=
  match s with
  | .nd m => do
    let rs ← npSlice m.rows sl
    return .nd ⟨m.cols, rs⟩
  | .quant q => do
    let q' ← q.slice sl
    return .quant q'

/-- `list(storage)`; ndarray.py:142-143, quantized.py:273-274 -/
def Storage.iter (s : Storage K) : Res (List (List K)) :=
  match s with
  | .nd m => .ok m.rows
  | .quant q => q.iter

/-- `numpy.asarray(storage)` -/
def Storage.toArray (s : Storage K) : Res (List (List K)) :=
  match s with
  | .nd m => .ok m.rows
  | .quant q => q.toArray

/-! ### Lookup -/

/-- Elementwise sum of two vectors -/
def vadd (a b : List K) : List K := List.zipWith NumOps.add a b

/-- Elementwise difference -/
def vsub (a b : List K) : List K := List.zipWith NumOps.sub a b

/-- `v / n` for a scalar -/
def vdiv (v : List K) (n : K) : List K := v.map fun x => NumOps.div x n

/-- `np.add.reduce(m, 0)`: the rows are added from the first to the last; zeros if there are
none. -/
def addReduce (cols : Nat) : List (List K) → List K
  | [] => List.replicate cols NumOps.zero
  | r :: rs => rs.foldl vadd r

/-- embeddings.py:623-641 `_embedding` without `out`: vector and norm -/
def Embeddings.embed (e : Embeddings K) (idx : Idx) : Res (List K × Option K) :=
  match idx with
  | .one i => do
    let res ← e.storage.getOne i
    match e.norms with
    | some norms => do
      let n ← npGet norms i
      return (res, some n)
    | none => return (res, none)
  | .many is => do
    let res ← e.storage.getMany is
    let out := addReduce e.storage.nCols res
    let norm := NumOps.norm out
    return (vdiv out norm, some norm)

/-- embeddings.py:123-149 `__getitem__` -/
def Embeddings.getItem (e : Embeddings K) (word : PyStr) : Res (List K) := do
  let idx ← e.vocab.getItem word
  let r ← e.embed idx
  return r.1

/-- embeddings.py:151-218 `embedding(word)` without `out` and `default` -/
def Embeddings.embedding (e : Embeddings K) (word : PyStr) : Res (Option (List K)) := do
  match ← e.vocab.idx word with
  | none => return none
  | some idx => do
    let r ← e.embed idx
    return some r.1

/-- embeddings.py:220-269 `embedding_with_norm(word)` without `out` and `default` -/
def Embeddings.embeddingWithNorm (e : Embeddings K) (word : PyStr) :
    Res (Option (List K × Option K)) :=
  match e.norms with
  | none => .error .typeError
  | some _ => do
    match ← e.vocab.idx word with
    | none => return none
    | some idx => do
      let r ← e.embed idx
      return some r

/-! ### Conversion to explicit embeddings -/

/-- `rows[i] = row` for a row of matching length -/
def npSet {α : Type} (xs : List α) (i : Int) (x : α) : Res (List α) := do
  let j ← npIndex xs.length i
  return xs.set j x

/-- embeddings.py:462-465, the loop body of `bucket_to_explicit` -/
def b2eRow (e : Embeddings K) (ix : Indexer) (eix : ExplIndexer) (n : Nat)
    (rows : List (List K)) (g : PyStr) : Res (List (List K)) :=
  match Dict.get? eix.index g with
  | none => .error .keyError
  | some k => do
    match ← ix.call g with
    | none => .error .typeError
    | some h => do
      let row ← e.storage.getOne (n + h)
      npSet rows (n + k) row

/-- embeddings.py:434-469 `bucket_to_explicit` -/
def Embeddings.bucketToExplicit (e : Embeddings K) : Res (Embeddings K) :=
  match e.vocab.sub with
  | none => .error .typeError
  | some (.expl _) => .error .typeError
  | some ix => do
    let vocab ← e.vocab.toExplicit
    match vocab.sub with
    | some (.expl eix) => do
      let cols := e.storage.nCols
      let n := vocab.len
      let _ ← zerosShape vocab.upperBound cols
      let zero := List.replicate vocab.upperBound.toNat (List.replicate cols NumOps.zero)
      let known ← e.storage.slice (.upTo n)
      let known ← known.toArray
      if known.length ≠ n then .error .valueError
      let rows := known ++ zero.drop n
      let rows ← foldRes (b2eRow e ix eix n) rows eix.ngrams
      Embeddings.new (.nd ⟨cols, rows⟩) vocab e.norms none
    | _ => .error .attributeError

end

end FF
