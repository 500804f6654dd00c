import Verif.Model.Embeddings
import Verif.Model.Text
import Verif.Model.FastText
import Verif.Model.Compiled
/-!
# Assertions switched off

`python -O` skips `assert`, also in the modules compiled by Cython.  These are the constructors and readers that contain
assertions, without them.  What they do otherwise is the same, see `Verif.Model.Vocab`, `Verif.Model.Indexers`,
`Verif.Model.Storage` and `Verif.Model.Embeddings`.  Indexers may have fields that the constructors reject otherwise, so
n-grams are looked up by the code of `Verif.Model.Compiled`, which may fault.
-/

namespace FF

namespace Opt

/-- vocab.py:173-180 `_validate_items_and_create_index` -/
def validateItems (items : List PyStr) : Res (Dict PyStr Nat) := .ok (Dict.ofPairs (enumItems items))

/-- simple_vocab.py:20-40, subword.py:149-182, 234-265, 317-341 -/
def vocab (words : List PyStr) (sub : Option Indexer) : Res Vocab := do
  let index ← validateItems words
  return ⟨words, index, sub⟩

/-- hash_indexers.pyx:32-40 `FinalfusionHashIndexer.__init__`; the mask has to fit into a `uint64_t`. -/
def fifu (bucketExp minN maxN : Int) : Res FifuIndexer := do
  let mn ← toU32 minN
  let mx ← toU32 maxN
  if bucketExp < 0 then .error .overflowError
  else if 64 < bucketExp then .error .overflowError
  else return ⟨bucketExp.toNat, mn, mx⟩

/-- hash_indexers.pyx:169-176 `FastTextIndexer.__init__`; `_n_buckets` is a `uint64_t`. -/
def ft (nBuckets minN maxN : Int) : Res FtIndexer := do
  let mn ← toU32 minN
  let mx ← toU32 maxN
  if nBuckets < 0 ∨ 2 ^ 64 ≤ nBuckets then .error .overflowError
  else return ⟨nBuckets.toNat, mn, mx⟩

/-- explicit_indexer.pyx:31-59 `ExplicitIndexer.__init__` with an index -/
def expl (ngrams : List PyStr) (minN maxN : Int) (index : Dict PyStr Int) : Res ExplIndexer := do
  let mn ← toU32 minN
  let mx ← toU32 maxN
  let maxIdx ← pyMax (index.map Prod.snd)
  return ⟨ngrams, mn, mx, index, maxIdx + 1⟩

/-- simple_vocab.py:58-62 `SimpleVocab.read_chunk` -/
def readSimpleVocab : Rd Vocab := do
  let length ← readOne 8
  let words ← readItems length
  Rd.lift (vocab words none)

/-- subword.py:218-223 `FinalfusionBucketVocab.read_chunk` -/
def readBucketVocab : Rd Vocab := do
  match ← readRequired [8, 4, 4, 4] with
  | [length, minN, maxN, buckets] => do
    let words ← readItems length
    let ix ← Rd.lift (fifu buckets minN maxN)
    Rd.lift (vocab words (some (.fifu ix)))
  | _ => Rd.fail .valueError

/-- subword.py:298-303 `FastTextVocab.read_chunk` -/
def readFastTextVocab : Rd Vocab := do
  match ← readRequired [8, 4, 4, 4] with
  | [length, minN, maxN, buckets] => do
    let words ← readItems length
    let ix ← Rd.lift (ft buckets minN maxN)
    Rd.lift (vocab words (some (.ft ix)))
  | _ => Rd.fail .valueError

/-- subword.py:363-370 `ExplicitVocab.read_chunk` -/
def readExplicitVocab : Rd Vocab := do
  match ← readRequired [8, 8, 4, 4] with
  | [length, ngramLength, minN, maxN] => do
    let words ← readItems length
    let items ← readItemsIdx ngramLength
    let index : Dict PyStr Int := Dict.ofPairs (items.map fun p => (p.1, (p.2 : Int)))
    let ix ← Rd.lift (expl (items.map Prod.fst) minN maxN index)
    Rd.lift (vocab words (some (.expl ix)))
  | _ => Rd.fail .valueError

/-- vocab/__init__.py:49-57 -/
def readVocabChunk (c : ChunkId) : Rd Vocab :=
  match c with
  | .simpleVocab => readSimpleVocab
  | .bucketVocab => readBucketVocab
  | .fastTextVocab => readFastTextVocab
  | .explicitVocab => readExplicitVocab
  | _ => Rd.fail .valueError

/-- vocab/__init__.py:14-57 `load_vocab` -/
def loadVocab : Rd Vocab := do
  match ← findChunk [.simpleVocab, .fastTextVocab, .explicitVocab, .bucketVocab] with
  | none => Rd.fail .valueError
  | some c => readVocabChunk c

/-- metadata.py:37-49 `Metadata.read_chunk`; `ChunkIdentifier(chunk_id)` is part of the assertion. -/
def readMetadata (T : Toml) : Rd Meta := do
  seekBack (calcsize [4, 8])
  match ← readRequired [4, 8] with
  | [_, chunkLen] => do
    let buf ← read chunkLen
    if buf.length ≠ chunkLen then Rd.fail .formatError
    let s ← Rd.lift (decode buf)
    Rd.lift (T.loads s)
  | _ => Rd.fail .valueError

/-- quantized.py:33-57 `PQ.__init__` -/
def pq {K : Type} (nCentroids sub : Nat) (quantizers : List (List (List K))) (projection : Option (Mat K)) :
    Res (PQ K) := .ok ⟨nCentroids, sub, quantizers, projection⟩

/-- quantized.py:367-386: the part of `_read_quantized_header` after the type ids.  Only line 376 divides now. -/
def readQuantizedTail (projection readNorms quantizedLen recLen nCentroids nEmbeddings : Nat) :
    Rd (PQ F32 × Nat × Nat × Option (List F32)) := do
  let pos ← tell
  seekCur (padFloat32 pos)
  let proj ← readProjection projection recLen
  if quantizedLen = 0 then Rd.fail .zeroDivisionError
  let sub := recLen / quantizedLen
  let xs ← fromFileF32 (quantizedLen * nCentroids * sub)
  let quantizers ← Rd.lift (reshape3 4 quantizedLen nCentroids sub xs)
  let norms ← readQNorms readNorms nEmbeddings
  let pq ← Rd.lift (pq nCentroids sub quantizers proj)
  return (pq, nEmbeddings, quantizedLen, norms)

/-- quantized.py:345-387 `_read_quantized_header` -/
def readQuantizedHeader : Rd (PQ F32 × Nat × Nat × Option (List F32)) := do
  let projection ← readOne 4
  let readNorms ← readOne 4
  let quantizedLen ← readOne 4
  let recLen ← readOne 4
  let nCentroids ← readOne 4
  let nEmbeddings ← readOne 8
  let t ← readOne 4
  if t ≠ TypeId.u8.toNat then Rd.fail .formatError
  let t ← readOne 4
  if t ≠ TypeId.f32.toNat then Rd.fail .formatError
  readQuantizedTail projection readNorms quantizedLen recLen nCentroids nEmbeddings

/-- quantized.py:289-297 `QuantizedArray.read_chunk` -/
def readQuantized : Rd (QArr F32) := do
  let (pq, n, qlen, norms) ← readQuantizedHeader
  let xs ← fromFileU8 (n * qlen)
  let m ← Rd.lift (reshape2 1 n qlen xs)
  return ⟨pq, qlen, m.rows, norms⟩

/-- quantized.py:299-314 `QuantizedArray.mmap_chunk` -/
def mmapQuantized : Rd (QArr F32) := do
  let (pq, n, qlen, norms) ← readQuantizedHeader
  let offset ← tell
  seekCur (n * qlen)
  let m ← memmapU8 offset n qlen
  return ⟨pq, qlen, m.rows, norms⟩

/-- quantized.py:285-287 `QuantizedArray.load` -/
def loadQuant (mmap : Bool) : Rd (Storage F32) := do
  let q ← if mmap then mmapQuantized else readQuantized
  return .quant q

/-- storage/__init__.py:13-50 `load_storage` -/
def loadStorage (mmap : Bool) : Rd (Storage F32) := do
  match ← findChunk [.ndArray, .quantizedArray] with
  | none => Rd.fail .valueError
  | some .ndArray => loadNd mmap
  | some .quantizedArray => loadQuant mmap
  | some _ => Rd.fail .notImplementedError

/-- embeddings.py:77-121 `Embeddings.__init__` -/
def embeddings {K : Type} (storage : Storage K) (vocab : Vocab) (norms : Option (List K)) (metadata : Option Meta) :
    Res (Embeddings K) := .ok ⟨storage, vocab, norms, metadata⟩

/-- embeddings.py:689-698 -/
def loadMetaPart (T : Toml) : Rd (ChunkId × Option Meta) := do
  let (c, _) ← readRequiredChunkHeader
  if c = .metadata then do
    let m ← readMetadata T
    let (c, _) ← readRequiredChunkHeader
    return (c, some m)
  else return (c, none)

/-- embeddings.py:696-706 -/
def loadVocabPart (c : ChunkId) : Rd Vocab :=
  match c with
  | .simpleVocab => readSimpleVocab
  | .bucketVocab => readBucketVocab
  | .fastTextVocab => readFastTextVocab
  | .explicitVocab => readExplicitVocab
  | _ => Rd.fail .formatError

/-- embeddings.py:708-715 -/
def loadStoragePart (mmap : Bool) : Rd (Storage F32) := do
  let (c, _) ← readRequiredChunkHeader
  match c with
  | .ndArray => loadNd mmap
  | .quantizedArray => loadQuant mmap
  | _ => Rd.fail .formatError

/-- embeddings.py:666-721 `load_finalfusion` -/
def loadFinalfusion (T : Toml) (mmap : Bool) : Rd (Embeddings F32) := do
  let _ ← readHeader
  let (c, metadata) ← loadMetaPart T
  let vocab ← loadVocabPart c
  let storage ← loadStoragePart mmap
  let norms ← loadNormsPart
  Rd.lift (embeddings storage vocab norms metadata)

section
variable {K : Type} [NumOps K]

/-- word2vec.py:18-57 `load_word2vec` -/
def loadWord2vec [Codec K] (lossy : Bool) : Rd (Embeddings K) := do
  let line ← readLine
  let header ← Rd.lift (decodeAscii line)
  let dims ← Rd.lift (twoInts header)
  let shape ← Rd.lift (zerosShape dims.1 dims.2)
  let rows ← w2vRows lossy shape.2 shape.1
  let (matrix, norms) := normalizeMatrix (rows.map Prod.snd)
  let vocab ← Rd.lift (vocab (rows.map Prod.fst) none)
  Rd.lift (embeddings (.nd ⟨shape.2, matrix⟩) vocab (some norms) none)

variable [NumText K]

/-- text.py:143-154 `_load_text` -/
def loadTextLines (file : Lines) (rows cols : Int) : Res (Embeddings K) := do
  let shape ← zerosShape rows cols
  let rs ← textRows shape.2 file.stop shape.1 file.lines
  let raw := rs.map Prod.snd ++
    List.replicate (shape.1 - rs.length) (List.replicate shape.2 NumOps.zero)
  let (matrix, norms) := normalizeMatrix raw
  let vocab ← vocab (rs.map Prod.fst) none
  embeddings (.nd ⟨shape.2, matrix⟩) vocab (some norms) none

/-- text.py:19-46 `load_text_dims` -/
def loadTextDims [TextIO] (lossy : Bool) (bs : Bytes) : Res (Embeddings K) := do
  match ← (textLines lossy bs).next with
  | none => .error .stopIteration
  | some (first, file) => do
    let dims ← twoInts first
    loadTextLines file dims.1 dims.2

/-- text.py:49-87 `load_text` -/
def loadText [TextIO] (lossy : Bool) (bs : Bytes) : Res (Embeddings K) := do
  match ← (textLines lossy bs).next with
  | none => .error .valueError
  | some (first, file) => do
    let cols := (reSplit (rstrip first)).length - 1
    let lines ← file.all
    let rows := lines.length + 1
    loadTextLines (textLines lossy bs) rows cols

end

/-- fasttext.py:138-159 `_read_ft_vocab` -/
def readFtVocab (buckets minN maxN : Int) (lossy : Bool) : Rd (Vocab × FtIndexer) := do
  match ← readSigned [4, 4, 4] with
  | [vocabSize, _, nLabels] => do
    if nLabels ≠ 0 then Rd.fail .notImplementedError
    let _ ← readOne 8
    let prune ← readOne 8
    if toSigned 8 prune ≥ 0 then Rd.fail .notImplementedError
    let words ← readFtWords lossy vocabSize.toNat
    let ix ← Rd.lift (ft buckets minN maxN)
    let v ← Rd.lift (vocab words (some (.ft ix)))
    return (v, ix)
  | _ => Rd.fail .valueError

section
variable {K : Type} [NumOps K] [Codec K]

/-- fasttext.py:183-201, `_read_ft_storage` up to the computation of the vectors of the words -/
def readFtMatrix : Rd (Mat K) := do
  let quantized ← readOne 1
  if quantized ≠ 0 then Rd.fail .notImplementedError
  match ← readSigned [8, 8] with
  | [rows, cols] => do
    let xs ← fromFileInt (rows * cols)
    Rd.lift (reshapeInt rows cols (xs.map Codec.ofBits))
  | _ => Rd.fail .valueError

omit [NumOps K] in
/-- fasttext.py:47-53, what `load_fasttext` reads -/
def readFt (lossy : Bool) : Rd (FtCfg × Vocab × FtIndexer × Mat K) := do
  readFtHeader
  let cfg ← readFtCfg
  let (v, ix) ← readFtVocab cfg.buckets cfg.minN cfg.maxN lossy
  let m ← readFtMatrix
  return (cfg, v, ix, m)

omit [Codec K] in
/-- fasttext.py:214-218, one word -/
def precomputeRow (cols i : Nat) (rows : List (List K)) (sub : List Nat) : Res (List (List K)) := do
  let sel ← npTake rows ((i : Int) :: sub.map Int.ofNat)
  let mean := vdiv (addReduce cols sel) (NumOps.ofNat sel.length)
  npSet rows i mean

omit [Codec K] in
/-- fasttext.py:205-218 `_precompute_word_vecs`, which calls compiled code -/
def precomputeWords (offset : Nat) (ix : FtIndexer) (cols : Nat) :
    Nat → List PyStr → List (List K) → CM (Res (List (List K)))
  | _, [], rows => .ok (.ok rows)
  | i, w :: ws, rows => do
    match ← cFtSubwords (fun _ h => h) (UInt32.ofNat ix.minN) (UInt32.ofNat ix.maxN) (UInt64.ofNat ix.nBuckets) w
      (UInt64.ofNat offset) true with
    | .error x => return .error x
    | .ok sub =>
      match precomputeRow cols i rows sub with
      | .error x => return .error x
      | .ok rows => precomputeWords offset ix cols (i + 1) ws rows

/-- fasttext.py:22-58 `load_fasttext` -/
def loadFasttext (lossy : Bool) (bs : Bytes) : CM (Res (Embeddings K)) :=
  match (Rd.run (readFt lossy) bs : Res (FtCfg × Vocab × FtIndexer × Mat K)) with
  | .error x => .ok (.error x)
  | .ok (cfg, v, ix, m) => do
    match ← precomputeWords v.words.length ix m.cols 0 v.words m.rows with
    | .error x => return .error x
    | .ok rs =>
      let (words, norms) := normalizeMatrix (rs.take v.len)
      return embeddings (.nd ⟨m.cols, words ++ rs.drop v.len⟩) v (some norms) (some cfg.toMeta)

end

end Opt

end FF
