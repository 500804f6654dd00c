import Verif.Model.Embeddings
/-!
# Memory requested while loading

The readers of finalfusion files, with a budget of memory.  `file.read(n)` of CPython allocates `n` bytes before it reads
anything (`_bufferedreader_read_generic`), `np.fromfile(count=n)` an array of `n` items (`array_fromfile_binary`), no
matter how much the file contains.  Each such request is taken off the budget, and raises `MemoryError` if that is too small.
Nothing is given back, so that the budget used up bounds the memory in use at any time.  Only these
buffers count; strings, lists and dictionaries that are built from them do not.  Memory maps cost nothing.  Otherwise the
readers are those of `Verif.Model.Io`, `Verif.Model.Vocab`, `Verif.Model.Storage` and `Verif.Model.Embeddings`.
-/

namespace FF

/-- Why loading stops: an exception of the reader, or `MemoryError` -/
inductive Stop where
  | py (e : PyErr)
  | memory
  deriving DecidableEq, Repr

/-- A reader with a budget: the state is what is left of it, and the open file. -/
abbrev MRd (α : Type) := StateT (Nat × RFile) (Except Stop) α

/-- Something that requests no buffer -/
def MRd.of {α : Type} (m : Rd α) : MRd α := fun s =>
  match m s.2 with
  | .ok (a, f) => .ok (a, (s.1, f))
  | .error e => .error (.py e)

/-- Something that first requests `n` bytes -/
def MRd.request {α : Type} (n : Nat) (m : Rd α) : MRd α := fun s =>
  if n ≤ s.1 then MRd.of m (s.1 - n, s.2) else .error .memory

/-- Load freshly opened content with a budget of `n` bytes. -/
def MRd.run {α : Type} (m : MRd α) (n : Nat) (data : Bytes) : Except Stop α :=
  match m (n, ⟨data, 0⟩) with
  | .ok (a, _) => .ok a
  | .error e => .error e

instance {α : Type} [DecidableEq α] : DecidableEq (Except Stop α) := fun a b =>
  match a, b with
  | .ok x, .ok y => if h : x = y then isTrue (h ▸ rfl) else isFalse (fun e => by cases e; exact h rfl)
  | .error x, .error y => if h : x = y then isTrue (h ▸ rfl) else isFalse (fun e => by cases e; exact h rfl)
  | .ok _, .error _ => isFalse (fun e => by cases e)
  | .error _, .ok _ => isFalse (fun e => by cases e)

namespace Mem

/-- `file.read(n)`; a size that is no `Py_ssize_t` is rejected first. -/
def read (n : Nat) : MRd Bytes := if n < maxSize then MRd.request n (FF.read n) else MRd.of (FF.read n)

/-- `np.fromfile(file, dtype='<f4', count=n)`; sizes that are no `npy_intp` are rejected first. -/
def fromFileF32 (n : Nat) : MRd (List F32) :=
  if 4 * n < maxSize then MRd.request (4 * n) (FF.fromFileF32 n) else MRd.of (FF.fromFileF32 n)

/-- `np.fromfile(file, dtype=np.uint8, count=n)` -/
def fromFileU8 (n : Nat) : MRd (List UInt8) :=
  if n < maxSize then MRd.request n (FF.fromFileU8 n) else MRd.of (FF.fromFileU8 n)

/-- io.py:238-267 `_read_binary` -/
def readBinary (ws : List Nat) : MRd (Option (List Nat)) := do
  let buf ← read (calcsize ws)
  if buf.length = 0 then return none
  if buf.length ≠ calcsize ws then MRd.of (Rd.fail .formatError)
  return some (unpack ws buf)

/-- io.py:270-275 `_read_required_binary` -/
def readRequired (ws : List Nat) : MRd (List Nat) := do
  match ← readBinary ws with
  | none => MRd.of (Rd.fail .formatError)
  | some v => return v

/-- `_read_required_binary(file, fmt)[0]` -/
def readOne (w : Nat) : MRd Nat := do
  match ← readRequired [w] with
  | [v] => return v
  | _ => MRd.of (Rd.fail .valueError)

/-- io.py:120-132 `Header.read_chunk` -/
def readHeader : MRd (List Nat) := do
  let m ← read 4
  if m ≠ magic then MRd.of (Rd.fail .formatError)
  let v ← readOne 4
  if v ≠ version then MRd.of (Rd.fail .formatError)
  let n ← readOne 4
  readRequired (List.replicate n 4)

/-- io.py:278-305 `_read_chunk_header` -/
def readChunkHeader : MRd (Option (ChunkId × Nat)) := do
  match ← readBinary [4, 8] with
  | none => return none
  | some [i, n] => do
    let c ← MRd.of (Rd.lift (ChunkId.fromNat i))
    return some (c, n)
  | some _ => MRd.of (Rd.fail .valueError)

/-- io.py:308-312 `_read_required_chunk_header` -/
def readRequiredChunkHeader : MRd (ChunkId × Nat) := do
  match ← readChunkHeader with
  | none => MRd.of (Rd.fail .formatError)
  | some h => return h

/-- io.py:169-178, the loop of `find_chunk` -/
def findChunkLoop (ids : List ChunkId) : Nat → MRd (Option ChunkId)
  | 0 => MRd.of (Rd.fail .outOfFuel)
  | fuel + 1 => do
    match ← readChunkHeader with
    | none => return none
    | some (c, size) =>
      if c ∈ ids then return some c
      MRd.of (seekCur size)
      findChunkLoop ids fuel

/-- io.py:141-178 `find_chunk` -/
def findChunk (ids : List ChunkId) : MRd (Option ChunkId) := fun s =>
  (do
    MRd.of (seekSet 0)
    let _ ← readHeader
    findChunkLoop ids (s.2.data.length + 1)) s

/-- vocab.py:113-135 `_read_items` -/
def readItems : Nat → MRd (List PyStr)
  | 0 => pure []
  | n + 1 => do
    let itemLength ← readOne 4
    let buf ← read itemLength
    let word ← MRd.of (Rd.lift (decode buf))
    let rest ← readItems n
    return word :: rest

/-- vocab.py:138-163 `_read_items_with_indices` -/
def readItemsIdx : Nat → MRd (List (PyStr × Nat))
  | 0 => pure []
  | n + 1 => do
    let itemLength ← readOne 4
    let buf ← read itemLength
    let item ← MRd.of (Rd.lift (decode buf))
    let idx ← readOne 8
    let rest ← readItemsIdx n
    return (item, idx) :: rest

/-- simple_vocab.py:58-62 `SimpleVocab.read_chunk` -/
def readSimpleVocab : MRd Vocab := do
  let length ← readOne 8
  let words ← readItems length
  MRd.of (Rd.lift (Vocab.new words none))

/-- subword.py:218-223 `FinalfusionBucketVocab.read_chunk` -/
def readBucketVocab : MRd Vocab := do
  match ← readRequired [8, 4, 4, 4] with
  | [length, minN, maxN, buckets] => do
    let words ← readItems length
    let ix ← MRd.of (Rd.lift (FifuIndexer.new buckets minN maxN))
    MRd.of (Rd.lift (Vocab.new words (some (.fifu ix))))
  | _ => MRd.of (Rd.fail .valueError)

/-- subword.py:298-303 `FastTextVocab.read_chunk` -/
def readFastTextVocab : MRd Vocab := do
  match ← readRequired [8, 4, 4, 4] with
  | [length, minN, maxN, buckets] => do
    let words ← readItems length
    let ix ← MRd.of (Rd.lift (FtIndexer.new buckets minN maxN))
    MRd.of (Rd.lift (Vocab.new words (some (.ft ix))))
  | _ => MRd.of (Rd.fail .valueError)

/-- subword.py:363-370 `ExplicitVocab.read_chunk` -/
def readExplicitVocab : MRd Vocab := do
  match ← readRequired [8, 8, 4, 4] with
  | [length, ngramLength, minN, maxN] => do
    let words ← readItems length
    let items ← readItemsIdx ngramLength
    let index : Dict PyStr Int := Dict.ofPairs (items.map fun p => (p.1, (p.2 : Int)))
    let ix ← MRd.of (Rd.lift (ExplIndexer.new (items.map Prod.fst) minN maxN (some index)))
    MRd.of (Rd.lift (Vocab.new words (some (.expl ix))))
  | _ => MRd.of (Rd.fail .valueError)

/-- vocab/__init__.py:49-57 -/
def readVocabChunk (c : ChunkId) : MRd Vocab :=
  match c with
  | .simpleVocab => readSimpleVocab
  | .bucketVocab => readBucketVocab
  | .fastTextVocab => readFastTextVocab
  | .explicitVocab => readExplicitVocab
  | _ => MRd.of (Rd.fail .valueError)

/-- vocab/__init__.py:14-57 `load_vocab` -/
def loadVocab : MRd Vocab := do
  match ← findChunk [.simpleVocab, .fastTextVocab, .explicitVocab, .bucketVocab] with
  | none => MRd.of (Rd.fail .valueError)
  | some c => readVocabChunk c

/-- metadata.py:37-49 `Metadata.read_chunk` -/
def readMetadata (T : Toml) : MRd Meta := do
  MRd.of (seekBack (calcsize [4, 8]))
  match ← readRequired [4, 8] with
  | [chunkId, chunkLen] => do
    let c ← MRd.of (Rd.lift (ChunkId.fromNat chunkId))
    MRd.of (Rd.lift (pyAssert (c = .metadata)))
    let buf ← read chunkLen
    if buf.length ≠ chunkLen then MRd.of (Rd.fail .formatError)
    let s ← MRd.of (Rd.lift (decode buf))
    MRd.of (Rd.lift (T.loads s))
  | _ => MRd.of (Rd.fail .valueError)

/-- metadata.py:57-82 `load_metadata` -/
def loadMetadata (T : Toml) : MRd Meta := do
  match ← findChunk [.metadata] with
  | none => MRd.of (Rd.fail .valueError)
  | some .metadata => readMetadata T
  | some _ => MRd.of (Rd.fail .valueError)

/-- ndarray.py:95-124 `_read_array_header` -/
def readArrayHeader : MRd (Nat × Nat) := do
  match ← readRequired [8, 4] with
  | [rows, cols] => do
    let t ← readOne 4
    let typeId ← MRd.of (Rd.lift (TypeId.fromNat t))
    if typeId ≠ .f32 then MRd.of (Rd.fail .formatError)
    let pos ← MRd.of tell
    MRd.of (seekCur (padFloat32 pos))
    return (rows, cols)
  | _ => MRd.of (Rd.fail .valueError)

/-- ndarray.py:69-74 `NdArray.read_chunk` -/
def readNdArray : MRd (Mat F32) := do
  let (rows, cols) ← readArrayHeader
  let array ← fromFileF32 (rows * cols)
  MRd.of (Rd.lift (reshape2 4 rows cols array))

/-- ndarray.py:80-93 `NdArray.mmap_chunk` -/
def mmapNdArray : MRd (Mat F32) := do
  let (rows, cols) ← readArrayHeader
  let offset ← MRd.of tell
  MRd.of (seekCur (rows * cols * 4))
  MRd.of (memmapF32 offset rows cols)

/-- quantized.py:368-374 -/
def readProjection (flag recLen : Nat) : MRd (Option (Mat F32)) :=
  if flag ≠ 0 then do
    let xs ← fromFileF32 (recLen ^ 2)
    let m ← MRd.of (Rd.lift (reshape2 4 recLen recLen xs))
    return some m
  else return none

/-- quantized.py:381-384 -/
def readQNorms (flag n : Nat) : MRd (Option (List F32)) :=
  if flag ≠ 0 then do
    let xs ← fromFileF32 n
    return some xs
  else return none

/-- quantized.py:367-386: the part of `_read_quantized_header` after the type ids -/
def readQuantizedTail (projection readNorms quantizedLen recLen nCentroids nEmbeddings : Nat) :
    MRd (PQ F32 × Nat × Nat × Option (List F32)) := do
  let pos ← MRd.of tell
  MRd.of (seekCur (padFloat32 pos))
  let proj ← readProjection projection recLen
  let sub := recLen / quantizedLen
  let xs ← fromFileF32 (quantizedLen * nCentroids * sub)
  let quantizers ← MRd.of (Rd.lift (reshape3 4 quantizedLen nCentroids sub xs))
  let norms ← readQNorms readNorms nEmbeddings
  let pq ← MRd.of (Rd.lift (PQ.new nCentroids sub quantizers proj))
  return (pq, nEmbeddings, quantizedLen, norms)

/-- quantized.py:345-387 `_read_quantized_header` -/
def readQuantizedHeader : MRd (PQ F32 × Nat × Nat × Option (List F32)) := do
  let projection ← readOne 4
  let readNorms ← readOne 4
  let quantizedLen ← readOne 4
  let recLen ← readOne 4
  let nCentroids ← readOne 4
  let nEmbeddings ← readOne 8
  if quantizedLen = 0 then MRd.of (Rd.fail .zeroDivisionError)
  MRd.of (Rd.lift (pyAssert (recLen % quantizedLen = 0)))
  let t ← readOne 4
  if t ≠ TypeId.u8.toNat then MRd.of (Rd.fail .formatError)
  let t ← readOne 4
  if t ≠ TypeId.f32.toNat then MRd.of (Rd.fail .formatError)
  readQuantizedTail projection readNorms quantizedLen recLen nCentroids nEmbeddings

/-- quantized.py:289-297 `QuantizedArray.read_chunk` -/
def readQuantized : MRd (QArr F32) := do
  let (pq, n, qlen, norms) ← readQuantizedHeader
  let xs ← fromFileU8 (n * qlen)
  let m ← MRd.of (Rd.lift (reshape2 1 n qlen xs))
  return ⟨pq, qlen, m.rows, norms⟩

/-- quantized.py:299-314 `QuantizedArray.mmap_chunk` -/
def mmapQuantized : MRd (QArr F32) := do
  let (pq, n, qlen, norms) ← readQuantizedHeader
  let offset ← MRd.of tell
  MRd.of (seekCur (n * qlen))
  let m ← MRd.of (memmapU8 offset n qlen)
  return ⟨pq, qlen, m.rows, norms⟩

/-- ndarray.py:61-63 `NdArray.load` -/
def loadNd (mmap : Bool) : MRd (Storage F32) := do
  let m ← if mmap then mmapNdArray else readNdArray
  return .nd m

/-- quantized.py:285-287 `QuantizedArray.load` -/
def loadQuant (mmap : Bool) : MRd (Storage F32) := do
  let q ← if mmap then mmapQuantized else readQuantized
  return .quant q

/-- storage/__init__.py:13-50 `load_storage` -/
def loadStorage (mmap : Bool) : MRd (Storage F32) := do
  match ← findChunk [.ndArray, .quantizedArray] with
  | none => MRd.of (Rd.fail .valueError)
  | some .ndArray => loadNd mmap
  | some .quantizedArray => loadQuant mmap
  | some _ => MRd.of (Rd.fail .notImplementedError)

/-- norms.py:52-64 `Norms.read_chunk` -/
def readNorms : MRd (List F32) := do
  match ← readRequired [8, 4] with
  | [n, t] => do
    let typeId ← MRd.of (Rd.lift (TypeId.fromNat t))
    if typeId ≠ .f32 then MRd.of (Rd.fail .formatError)
    let pos ← MRd.of tell
    MRd.of (seekCur (padFloat32 pos))
    fromFileF32 n
  | _ => MRd.of (Rd.fail .valueError)

/-- norms.py:83-110 `load_norms` -/
def loadNorms : MRd (List F32) := do
  match ← findChunk [.ndNorms] with
  | none => MRd.of (Rd.fail .valueError)
  | some .ndNorms => readNorms
  | some _ => MRd.of (Rd.fail .valueError)

/-- embeddings.py:689-698 -/
def loadMetaPart (T : Toml) : MRd (ChunkId × Option Meta) := do
  let (c, _) ← readRequiredChunkHeader
  if c = .metadata then do
    let m ← readMetadata T
    let (c, _) ← readRequiredChunkHeader
    return (c, some m)
  else return (c, none)

/-- embeddings.py:696-706 -/
def loadVocabPart (c : ChunkId) : MRd Vocab :=
  match c with
  | .simpleVocab => readSimpleVocab
  | .bucketVocab => readBucketVocab
  | .fastTextVocab => readFastTextVocab
  | .explicitVocab => readExplicitVocab
  | _ => MRd.of (Rd.fail .formatError)

/-- embeddings.py:708-715 -/
def loadStoragePart (mmap : Bool) : MRd (Storage F32) := do
  let (c, _) ← readRequiredChunkHeader
  match c with
  | .ndArray => loadNd mmap
  | .quantizedArray => loadQuant mmap
  | _ => MRd.of (Rd.fail .formatError)

/-- embeddings.py:716-722 -/
def loadNormsPart : MRd (Option (List F32)) := do
  match ← readChunkHeader with
  | none => return none
  | some (.ndNorms, _) => do
    let n ← readNorms
    return some n
  | some _ => MRd.of (Rd.fail .formatError)

/-- embeddings.py:666-721 `load_finalfusion` -/
def loadFinalfusion (T : Toml) (mmap : Bool) : MRd (Embeddings F32) := do
  let _ ← readHeader
  let (c, metadata) ← loadMetaPart T
  let vocab ← loadVocabPart c
  let storage ← loadStoragePart mmap
  let norms ← loadNormsPart
  MRd.of (Rd.lift (Embeddings.new storage vocab norms metadata))

end Mem

end FF
