import Verif.Model.Embeddings
/-! Chunks whose length field is correct. -/

namespace FF

/-- A chunk as the format describes it: identifier, number of bytes that follow, content. -/
def chunkBytes (c : ChunkId) (body : Bytes) : Bytes :=
  le 4 c.toNat ++ (le 8 body.length ++ body)

/-- `out` is `pre` followed by one chunk of type `c` with a correct length field. -/
def GoodChunk (pre out : Bytes) (c : ChunkId) : Prop :=
  ∃ body, out = pre ++ chunkBytes c body ∧ body.length < 256 ^ 8

/-- A sequence of chunks. -/
def chunksBytes : List (ChunkId × Bytes) → Bytes
  | [] => []
  | (c, body) :: cs => chunkBytes c body ++ chunksBytes cs

/-- The specific vocabulary loader for the class of `v`. -/
def loadVocabAs (v : Vocab) : Rd Vocab :=
  match v.sub with
  | none => loadSimpleVocab
  | some (.fifu _) => loadBucketVocab
  | some (.ft _) => loadFastTextVocab
  | some (.expl _) => loadExplicitVocab

/-- The specific storage loader for the class of `st`. -/
def loadStorageAs : Storage F32 → Bool → Rd (Storage F32)
  | .nd _ => loadNdArray
  | .quant _ => loadQuantizedArray

end FF
