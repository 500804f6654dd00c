import Verif.Model.Storage
/-!
# Metadata and embeddings: construction, serialisation
metadata.py, embeddings.py
-/

namespace FF

/-- Values that may occur in TOML metadata. -/
inductive MVal where
  | int (i : Int)
  | float (bits : UInt64)
  | bool (b : Bool)
  | str (s : PyStr)
  | list (l : List MVal)
  | table (l : List (PyStr × MVal))

/-- A metadata dictionary. -/
abbrev Meta := List (PyStr × MVal)

/-- The `toml` package: `toml.dumps` and `toml.loads`.  A parameter of the model. -/
structure Toml where
  dumps : Meta → Res PyStr
  loads : PyStr → Res Meta

/-- metadata.py:51-54 `Metadata.write_chunk` -/
def writeMetadata (T : Toml) (m : Meta) : Wr Unit := do
  let s ← Wr.lift (T.dumps m)
  let b ← Wr.lift (encode s)
  writeBinary [(4, ChunkId.metadata.toNat), (8, b.length)]
  Wr.bytes b

/-- metadata.py:37-49 `Metadata.read_chunk` -/
def readMetadata (T : Toml) : Rd Meta := do
  seekBack (calcsize [4, 8])
  match ← readRequired [4, 8] with
  | [chunkId, chunkLen] => do
    let c ← Rd.lift (ChunkId.fromNat chunkId)
    Rd.lift (pyAssert (c = .metadata))
    let buf ← read chunkLen
    if buf.length ≠ chunkLen then Rd.fail .formatError
    let s ← Rd.lift (decode buf)
    Rd.lift (T.loads s)
  | _ => Rd.fail .valueError

/-- metadata.py:57-82 `load_metadata` -/
def loadMetadata (T : Toml) : Rd Meta := do
  match ← findChunk [.metadata] with
  | none => Rd.fail .valueError
  | some .metadata => readMetadata T
  | some _ => Rd.fail .valueError

/-- embeddings.py:20-121 `Embeddings` (the `origin` attribute is not modelled) -/
structure Embeddings (K : Type) where
  storage : Storage K
  vocab : Vocab
  norms : Option (List K)
  metadata : Option Meta

/-- embeddings.py:657-663 `_norms_compat` -/
def normsCompat {K : Type} (storage : Storage K) (vocab : Vocab) (norms : List K) : Res Unit := do
  pyAssert (storage.nRows ≥ norms.length)
  pyAssert (vocab.len = norms.length)

/-- embeddings.py:643-655 `_check_requirements`; the `isinstance` checks hold by typing. -/
def checkRequirements {K : Type} (storage : Storage K) (vocab : Vocab) (norms : Option (List K)) :
    Res Unit := do
  pyAssert ((storage.nRows : Int) = vocab.upperBound)
  match norms with
  | none => return ()
  | some n => normsCompat storage vocab n

/-- embeddings.py:77-121 `Embeddings.__init__` -/
def Embeddings.new {K : Type} (storage : Storage K) (vocab : Vocab) (norms : Option (List K))
    (metadata : Option Meta) : Res (Embeddings K) := do
  checkRequirements storage vocab norms
  return ⟨storage, vocab, norms, metadata⟩

/-- `[chunk.chunk_identifier() for chunk in self.chunks()]`, embeddings.py:391-414 -/
def Embeddings.chunkIds {K : Type} (e : Embeddings K) : List ChunkId :=
  (match e.metadata with | some _ => [ChunkId.metadata] | none => [])
    ++ [e.vocab.chunkId, e.storage.chunkId]
    ++ (match e.norms with | some _ => [ChunkId.ndNorms] | none => [])

/-- embeddings.py:416-432 `Embeddings.write` -/
def Embeddings.write (T : Toml) (e : Embeddings F32) : Wr Unit := do
  writeHeader (e.chunkIds.map ChunkId.toNat)
  match e.metadata with
  | some m => writeMetadata T m
  | none => pure ()
  e.vocab.writeChunk
  e.storage.writeChunk
  match e.norms with
  | some n => writeNorms n
  | none => pure ()

/-- embeddings.py:689-698: the metadata part of `load_finalfusion` and the header of the
following chunk -/
def loadMetaPart (T : Toml) : Rd (ChunkId × Option Meta) := do
  let (c, _) ← readRequiredChunkHeader
  if c = .metadata then do
    let m ← readMetadata T
    let (c, _) ← readRequiredChunkHeader
    return (c, some m)
  else return (c, none)

/-- embeddings.py:696-706: vocabulary part -/
def loadVocabPart (c : ChunkId) : Rd Vocab :=
  match c with
  | .simpleVocab => readSimpleVocab
  | .bucketVocab => readBucketVocab
  | .fastTextVocab => readFastTextVocab
  | .explicitVocab => readExplicitVocab
  | _ => Rd.fail .formatError

/-- embeddings.py:708-715: storage part -/
def loadStoragePart (mmap : Bool) : Rd (Storage F32) := do
  let (c, _) ← readRequiredChunkHeader
  match c with
  | .ndArray => loadNd mmap
  | .quantizedArray => loadQuant mmap
  | _ => Rd.fail .formatError

/-- embeddings.py:716-722: norms part -/
def loadNormsPart : Rd (Option (List F32)) := do
  match ← readChunkHeader with
  | none => return none
  | some (.ndNorms, _) => do
    let n ← readNorms
    return some n
  | some _ => Rd.fail .formatError

/-- embeddings.py:666-721 `load_finalfusion` -/
def loadFinalfusion (T : Toml) (mmap : Bool) : Rd (Embeddings F32) := do
  let _ ← readHeader
  let (c, metadata) ← loadMetaPart T
  let vocab ← loadVocabPart c
  let storage ← loadStoragePart mmap
  let norms ← loadNormsPart
  Rd.lift (Embeddings.new storage vocab norms metadata)

end FF
