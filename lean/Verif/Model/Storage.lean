import Verif.Model.Vocab
/-!
# Storages and norms
storage/ndarray.py, storage/quantized.py, storage/__init__.py, norms.py

The types are polymorphic in the scalar type `K`; files contain `K = F32` (bit patterns).
-/

namespace FF

/-- Arithmetic of the scalar type, uninterpreted.  `dot` and `norm` are BLAS
operations, their summation order is left open. -/
class NumOps (K : Type) where
  add : K → K → K
  sub : K → K → K
  mul : K → K → K
  div : K → K → K
  zero : K
  ofNat : Nat → K
  /-- `numpy.dot` of two vectors of equal length -/
  dot : List K → List K → K
  /-- `numpy.linalg.norm` of a vector -/
  norm : List K → K
  /-- `numpy.linalg.norm(m, axis=1)` for one row of `m`, computed by a different routine -/
  normAxis : List K → K

/-- A 2-d array: number of columns and the list of rows (its length is `shape[0]`). -/
structure Mat (K : Type) where
  cols : Nat
  rows : List (List K)
  deriving DecidableEq, Repr

/-- All rows have the declared length. -/
def Mat.WF {K : Type} (m : Mat K) : Prop := ∀ r ∈ m.rows, r.length = m.cols

/-- Row-major elements. -/
def Mat.flat {K : Type} (m : Mat K) : List K := m.rows.flatten

/-- `m.size` -/
def Mat.size {K : Type} (m : Mat K) : Nat := m.rows.length * m.cols

/-- Cut a flat list into `r` rows of length `c`. -/
def splitRows {K : Type} : Nat → Nat → List K → List (List K)
  | 0, _, _ => []
  | r + 1, c, xs => xs.take c :: splitRows r c (xs.drop c)

/-- Whether numpy has arrays with these dimensions and items of `size` bytes.  Dimensions that are zero are left out
when the number of bytes is computed. -/
def arrayFits (size : Nat) (dims : List Nat) : Bool :=
  size * (dims.map (max 1)).prod < maxSize

/-- `array.reshape((r, c))` of a 1-d array with items of `size` bytes; `ValueError` on size mismatch. -/
def reshape2 {K : Type} (size r c : Nat) (xs : List K) : Res (Mat K) :=
  if xs.length = r * c ∧ arrayFits size [r, c] then .ok ⟨c, splitRows r c xs⟩ else .error .valueError

/-- `array.reshape((a, b, c))` of a 1-d array. -/
def reshape3 {K : Type} (size a b c : Nat) (xs : List K) : Res (List (List (List K))) :=
  if xs.length = a * (b * c) ∧ arrayFits size [a, b, c] then .ok ((splitRows a (b * c) xs).map (splitRows b c))
  else .error .valueError

/-- `np.zeros((rows, cols), dtype=np.float32)`: negative or unrepresentable sizes are a
`ValueError`; numpy leaves out dimensions that are zero when it computes the number of bytes.
Memory exhaustion is not modelled. -/
def zerosShape (rows cols : Int) : Res (Nat × Nat) :=
  if rows < 0 ∨ cols < 0 ∨ (maxSize : Int) ≤ 4 * (max 1 rows * max 1 cols) then .error .valueError
  else .ok (rows.toNat, cols.toNat)

/-- quantized.py:21-57 `PQ`; `quantizers` has shape
`(len quantizers, nCentroids, sub)`. -/
structure PQ (K : Type) where
  nCentroids : Nat
  sub : Nat
  quantizers : List (List (List K))
  projection : Option (Mat K)
  deriving DecidableEq, Repr

/-- quantized.py:52-53 `_reconstructed_len` -/
def PQ.reconstructedLen {K : Type} (pq : PQ K) : Nat := pq.quantizers.length * pq.sub

/-- quantized.py:33-57 `PQ.__init__` -/
def PQ.new {K : Type} (nCentroids sub : Nat) (quantizers : List (List (List K)))
    (projection : Option (Mat K)) : Res (PQ K) := do
  let recLen := quantizers.length * sub
  match projection with
  | none => return ⟨nCentroids, sub, quantizers, none⟩
  | some p =>
    pyAssert (p.rows.length = recLen ∧ recLen = p.cols)
    return ⟨nCentroids, sub, quantizers, some p⟩

/-- quantized.py:156-199 `QuantizedArray`; `codes` has shape `(len codes, qlen)`. -/
structure QArr (K : Type) where
  pq : PQ K
  qlen : Nat
  codes : List (List UInt8)
  norms : Option (List K)
  deriving DecidableEq, Repr

/-- A storage chunk. -/
inductive Storage (K : Type) where
  | nd (m : Mat K)
  | quant (q : QArr K)
  deriving DecidableEq, Repr

/-- `storage.shape[0]` -/
def Storage.nRows {K : Type} : Storage K → Nat
  | .nd m => m.rows.length
  | .quant q => q.codes.length

/-- `storage.shape[1]`; ndarray.py:76-78, quantized.py:200-203 -/
def Storage.nCols {K : Type} : Storage K → Nat
  | .nd m => m.cols
  | .quant q => q.pq.reconstructedLen

/-! ### Serialisation (float32) -/

/-- ndarray.py:126-135 `NdArray.write_chunk` -/
def writeNdArray (m : Mat F32) : Wr Unit := do
  writeBinary [(4, ChunkId.ndArray.toNat)]
  let padding := padFloat32 (← Wr.tell)
  let chunkLen := calcsize [8, 4, 4] + padding + 4 * m.size
  writeBinary [(8, chunkLen), (8, m.rows.length), (4, m.cols), (4, TypeId.f32.toNat)]
  Wr.bytes (zeros padding)
  Wr.bytes (f32sLE m.flat)

/-- ndarray.py:95-124 `_read_array_header` -/
def readArrayHeader : Rd (Nat × Nat) := do
  match ← readRequired [8, 4] with
  | [rows, cols] => do
    let t ← readOne 4
    let typeId ← Rd.lift (TypeId.fromNat t)
    if typeId ≠ .f32 then Rd.fail .formatError
    let pos ← tell
    seekCur (padFloat32 pos)
    return (rows, cols)
  | _ => Rd.fail .valueError

/-- ndarray.py:69-74 `NdArray.read_chunk` -/
def readNdArray : Rd (Mat F32) := do
  let (rows, cols) ← readArrayHeader
  let array ← fromFileF32 (rows * cols)
  Rd.lift (reshape2 4 rows cols array)

/-- `mmap.ALLOCATIONGRANULARITY` -/
def granularity : Nat := 4096

/-- Whether `np.memmap(..., mode='r', offset, shape)` with `n` bytes of content succeeds on
a file of length `len`: the region must lie inside the file.  For an empty region numpy
maps the bytes from the preceding page boundary; if there are none, `mmap` is called with
length zero, which maps the rest of the file and fails only at its end. -/
def memmapOk (len offset n : Nat) : Bool :=
  offset + n ≤ len && (0 < n || offset % granularity ≠ 0 || offset < len)

/-- `np.memmap(file.name, dtype='<f4', mode='r', offset=offset, shape=(rows, cols))` -/
def memmapF32 (offset rows cols : Nat) : Rd (Mat F32) := fun s =>
  let n := 4 * (rows * cols)
  if memmapOk s.data.length offset n && arrayFits 4 [rows, cols] then
    .ok (⟨cols, splitRows rows cols (f32sOf ((s.data.drop offset).take n))⟩, s)
  else .error .valueError

/-- ndarray.py:80-93 `NdArray.mmap_chunk` (little-endian platform) -/
def mmapNdArray : Rd (Mat F32) := do
  let (rows, cols) ← readArrayHeader
  let offset ← tell
  seekCur (rows * cols * 4)
  memmapF32 offset rows cols

/-- quantized.py:316-339 `QuantizedArray.write_chunk` -/
def writeQuantized (q : QArr F32) : Wr Unit := do
  writeBinary [(4, ChunkId.quantizedArray.toNat)]
  let padding := padFloat32 (← Wr.tell)
  let recLen := q.pq.reconstructedLen
  let projLen := match q.pq.projection with
    | some _ => 4 * recLen ^ 2
    | none => 0
  let quantSize := q.pq.quantizers.length * q.pq.nCentroids * q.pq.sub
  let normsLen := match q.norms with
    | some n => 4 * n.length
    | none => 0
  let chunkLen := calcsize [4, 4, 4, 4, 4, 8, 4, 4] + padding + projLen + 4 * quantSize
    + normsLen + q.codes.length * q.qlen
  writeBinary [(8, chunkLen), (4, if q.pq.projection.isSome then 1 else 0),
    (4, if q.norms.isSome then 1 else 0), (4, q.qlen), (4, recLen), (4, q.pq.nCentroids),
    (8, q.codes.length), (4, TypeId.u8.toNat), (4, TypeId.f32.toNat)]
  Wr.bytes (zeros padding)
  match q.pq.projection with
  | some p => Wr.bytes (f32sLE p.flat)
  | none => pure ()
  Wr.bytes (f32sLE (q.pq.quantizers.map List.flatten).flatten)
  match q.norms with
  | some n => Wr.bytes (f32sLE n)
  | none => pure ()
  Wr.bytes q.codes.flatten

/-- quantized.py:368-374: the optional projection matrix -/
def readProjection (flag recLen : Nat) : Rd (Option (Mat F32)) :=
  if flag ≠ 0 then do
    let xs ← fromFileF32 (recLen ^ 2)
    let m ← Rd.lift (reshape2 4 recLen recLen xs)
    return some m
  else return none

/-- quantized.py:381-384: the optional norms -/
def readQNorms (flag n : Nat) : Rd (Option (List F32)) :=
  if flag ≠ 0 then do
    let xs ← fromFileF32 n
    return some xs
  else return none

/-- quantized.py:367-386: the part of `_read_quantized_header` after the type ids -/
def readQuantizedTail (projection readNorms quantizedLen recLen nCentroids nEmbeddings : Nat) :
    Rd (PQ F32 × Nat × Nat × Option (List F32)) := do
  let pos ← tell
  seekCur (padFloat32 pos)
  let proj ← readProjection projection recLen
  let sub := recLen / quantizedLen
  let xs ← fromFileF32 (quantizedLen * nCentroids * sub)
  let quantizers ← Rd.lift (reshape3 4 quantizedLen nCentroids sub xs)
  let norms ← readQNorms readNorms nEmbeddings
  let pq ← Rd.lift (PQ.new nCentroids sub quantizers proj)
  return (pq, nEmbeddings, quantizedLen, norms)

/-- quantized.py:345-387 `_read_quantized_header`: quantizer, n_embeddings,
quantized_len, norms -/
def readQuantizedHeader : Rd (PQ F32 × Nat × Nat × Option (List F32)) := do
  let projection ← readOne 4
  let readNorms ← readOne 4
  let quantizedLen ← readOne 4
  let recLen ← readOne 4
  let nCentroids ← readOne 4
  let nEmbeddings ← readOne 8
  if quantizedLen = 0 then Rd.fail .zeroDivisionError
  Rd.lift (pyAssert (recLen % quantizedLen = 0))
  let t ← readOne 4
  if t ≠ TypeId.u8.toNat then Rd.fail .formatError
  let t ← readOne 4
  if t ≠ TypeId.f32.toNat then Rd.fail .formatError
  readQuantizedTail projection readNorms quantizedLen recLen nCentroids nEmbeddings

/-- quantized.py:289-297 `QuantizedArray.read_chunk` -/
def readQuantized : Rd (QArr F32) := do
  let (pq, n, qlen, norms) ← readQuantizedHeader
  let xs ← fromFileU8 (n * qlen)
  let m ← Rd.lift (reshape2 1 n qlen xs)
  return ⟨pq, qlen, m.rows, norms⟩

/-- `np.memmap` of a uint8 matrix -/
def memmapU8 (offset rows cols : Nat) : Rd (Mat UInt8) := fun s =>
  let n := rows * cols
  if memmapOk s.data.length offset n && arrayFits 1 [rows, cols] then
    .ok (⟨cols, splitRows rows cols ((s.data.drop offset).take n)⟩, s)
  else .error .valueError

/-- quantized.py:299-314 `QuantizedArray.mmap_chunk` (little-endian platform) -/
def mmapQuantized : Rd (QArr F32) := do
  let (pq, n, qlen, norms) ← readQuantizedHeader
  let offset ← tell
  seekCur (n * qlen)
  let m ← memmapU8 offset n qlen
  return ⟨pq, qlen, m.rows, norms⟩

/-- `storage.write_chunk` -/
def Storage.writeChunk : Storage F32 → Wr Unit
  | .nd m => writeNdArray m
  | .quant q => writeQuantized q

/-- `storage.chunk_identifier()` -/
def Storage.chunkId {K : Type} : Storage K → ChunkId
  | .nd _ => .ndArray
  | .quant _ => .quantizedArray

/-- `NdArray.load(file, mmap)` ndarray.py:61-63 -/
def loadNd (mmap : Bool) : Rd (Storage F32) := do
  let m ← if mmap then mmapNdArray else readNdArray
  return .nd m

/-- `QuantizedArray.load(file, mmap)` quantized.py:285-287 -/
def loadQuant (mmap : Bool) : Rd (Storage F32) := do
  let q ← if mmap then mmapQuantized else readQuantized
  return .quant q

/-- storage/__init__.py:13-50 `load_storage` -/
def loadStorage (mmap : Bool) : Rd (Storage F32) := do
  match ← findChunk [.ndArray, .quantizedArray] with
  | none => Rd.fail .valueError
  | some .ndArray => loadNd mmap
  | some .quantizedArray => loadQuant mmap
  | some _ => Rd.fail .notImplementedError

/-- ndarray.py:146-176 `load_ndarray` -/
def loadNdArray (mmap : Bool) : Rd (Storage F32) := do
  match ← findChunk [.ndArray] with
  | none => Rd.fail .valueError
  | some .ndArray => loadNd mmap
  | some _ => Rd.fail .valueError

/-- quantized.py:390-418 `load_quantized_array` -/
def loadQuantizedArray (mmap : Bool) : Rd (Storage F32) := do
  match ← findChunk [.quantizedArray] with
  | none => Rd.fail .valueError
  | some .quantizedArray => loadQuant mmap
  | some _ => Rd.fail .valueError

/-! ### Norms -/

/-- norms.py:66-73 `Norms.write_chunk`, with the item count `n` and the bytes that
`tofile` produces for the array. -/
def writeNormsRaw (n : Nat) (payload : Bytes) : Wr Unit := do
  writeBinary [(4, ChunkId.ndNorms.toNat)]
  let padding := padFloat32 (← Wr.tell)
  let chunkLen := calcsize [8, 4] + padding + 4 * n
  writeBinary [(8, chunkLen), (8, n), (4, TypeId.f32.toNat)]
  Wr.bytes (zeros padding)
  Wr.bytes payload

/-- `Norms.write_chunk` of a float32 array. -/
def writeNorms (norms : List F32) : Wr Unit := writeNormsRaw norms.length (f32sLE norms)

/-- norms.py:52-64 `Norms.read_chunk` -/
def readNorms : Rd (List F32) := do
  match ← readRequired [8, 4] with
  | [n, t] => do
    let typeId ← Rd.lift (TypeId.fromNat t)
    if typeId ≠ .f32 then Rd.fail .formatError
    let pos ← tell
    seekCur (padFloat32 pos)
    fromFileF32 n
  | _ => Rd.fail .valueError

/-- norms.py:83-110 `load_norms` -/
def loadNorms : Rd (List F32) := do
  match ← findChunk [.ndNorms] with
  | none => Rd.fail .valueError
  | some .ndNorms => readNorms
  | some _ => Rd.fail .valueError

end FF
