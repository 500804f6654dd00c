import Verif.Model.Word2Vec
/-!
# fastText format
compat/fasttext.py

`_write_ft_storage_simple` (301-313) is unreachable: `write_fasttext` has rejected simple
vocabularies before.
-/

namespace FF

/-! ### Signed `struct` fields -/

/-- Whether `i` fits into a signed field of `w` bytes -/
def signedOk (w : Nat) (i : Int) : Bool := -(2 ^ (8 * w - 1) : Int) ≤ i && i < 2 ^ (8 * w - 1)

/-- Two's complement -/
def ofSigned (w : Nat) (i : Int) : Nat := (i % (2 ^ (8 * w) : Int)).toNat

/-- `struct.pack(fmt, *args)` for signed fields, given as (width, value) pairs -/
def packS (fs : List (Nat × Int)) : Res Bytes :=
  if fs.all (fun f => signedOk f.1 f.2) then
    .ok (packRaw (fs.map fun f => (f.1, ofSigned f.1 f.2)))
  else .error .structError

/-- io.py:230-235 `_write_binary` with signed fields, followed by `rest` -/
def writeSigned (fs : List (Nat × Int)) (rest : Bytes := []) : Wr Unit := do
  let data ← Wr.lift (packS fs)
  Wr.bytes (data ++ rest)

/-- io.py:270-275 `_read_required_binary` with signed fields -/
def readSigned (ws : List Nat) : Rd (List Int) := do
  let vs ← readRequired ws
  return List.zipWith toSigned ws vs

/-! ### Configuration -/

/-- fasttext.py:19 `_FT_MAGIC` -/
def ftMagic : Int := 793712314

/-- The configuration of a fastText model -/
structure FtCfg where
  dims : Int
  windowSize : Int
  epoch : Int
  minCount : Int
  ns : Int
  wordNgrams : Int
  loss : PyStr
  model : PyStr
  buckets : Int
  minN : Int
  maxN : Int
  lrUpdateRate : Int
  samplingThreshold : UInt64

/-- A string of ASCII characters -/
def ascii (cs : List Char) : PyStr := cs.map fun c => toCode c.toNat

/-- fasttext.py:131 -/
def ftLosses : List PyStr :=
  [ascii ['H', 'i', 'e', 'r', 'a', 'r', 'c', 'h', 'i', 'c', 'a', 'l', 'S', 'o', 'f', 't', 'm', 'a', 'x'],
   ascii ['N', 'e', 'g', 'a', 't', 'i', 'v', 'e', 'S', 'a', 'm', 'p', 'l', 'i', 'n', 'g'],
   ascii ['S', 'o', 'f', 't', 'm', 'a', 'x']]

/-- fasttext.py:133 -/
def ftModels : List PyStr :=
  [ascii ['C', 'B', 'O', 'W'], ascii ['S', 'k', 'i', 'p', 'G', 'r', 'a', 'm'],
   ascii ['S', 'u', 'p', 'e', 'r', 'v', 'i', 's', 'e', 'd']]

/-- fasttext.py:126-135 with `_FT_REQUIRED_CFG_KEYS` (316-320) -/
def FtCfg.toMeta (c : FtCfg) : Meta :=
  [(ascii ['d', 'i', 'm', 's'], .int c.dims),
   (ascii ['w', 'i', 'n', 'd', 'o', 'w', '_', 's', 'i', 'z', 'e'], .int c.windowSize),
   (ascii ['e', 'p', 'o', 'c', 'h'], .int c.epoch),
   (ascii ['m', 'i', 'n', '_', 'c', 'o', 'u', 'n', 't'], .int c.minCount),
   (ascii ['n', 's'], .int c.ns),
   (ascii ['w', 'o', 'r', 'd', '_', 'n', 'g', 'r', 'a', 'm', 's'], .int c.wordNgrams),
   (ascii ['l', 'o', 's', 's'], .str c.loss),
   (ascii ['m', 'o', 'd', 'e', 'l'], .str c.model),
   (ascii ['b', 'u', 'c', 'k', 'e', 't', 's'], .int c.buckets),
   (ascii ['m', 'i', 'n', '_', 'n'], .int c.minN),
   (ascii ['m', 'a', 'x', '_', 'n'], .int c.maxN),
   (ascii ['l', 'r', '_', 'u', 'p', 'd', 'a', 't', 'e', '_', 'r', 'a', 't', 'e'], .int c.lrUpdateRate),
   (ascii ['s', 'a', 'm', 'p', 'l', 'i', 'n', 'g', '_', 't', 'h', 'r', 'e', 's', 'h', 'o', 'l', 'd'],
     .float c.samplingThreshold)]

/-- fasttext.py:115-123 `_read_ft_header` -/
def readFtHeader : Rd Unit := do
  match ← readSigned [4, 4] with
  | [magic, version] =>
    if magic ≠ ftMagic then Rd.fail .valueError
    if version ≠ 12 then Rd.fail .valueError
  | _ => Rd.fail .valueError

/-- fasttext.py:126-135 `_read_ft_cfg`; the lists are indexed with `cfg[6] - 1` and `cfg[7] - 1`,
which may be negative. -/
def readFtCfg : Rd FtCfg := do
  match ← readRequired [4, 4, 4, 4, 4, 4, 4, 4, 4, 4, 4, 4, 8] with
  | [a0, a1, a2, a3, a4, a5, a6, a7, a8, a9, a10, a11, a12] => do
    let loss ← Rd.lift (npGet ftLosses (toSigned 4 a6 - 1))
    let model ← Rd.lift (npGet ftModels (toSigned 4 a7 - 1))
    return ⟨toSigned 4 a0, toSigned 4 a1, toSigned 4 a2, toSigned 4 a3, toSigned 4 a4,
      toSigned 4 a5, loss, model, toSigned 4 a8, toSigned 4 a9, toSigned 4 a10, toSigned 4 a11,
      UInt64.ofNat a12⟩
  | _ => Rd.fail .valueError

/-! ### Vocabulary -/

/-- fasttext.py:162-180 `_read_binary_word` -/
def readFtWord (lossy : Bool) : Rd PyStr := do
  let word ← readDelim 0
  let _ ← readOne 8
  let entryType ← readOne 1
  if entryType ≠ 0 then Rd.fail .valueError
  Rd.lift (decodeLossy lossy word)

/-- fasttext.py:157 -/
def readFtWords (lossy : Bool) : Nat → Rd (List PyStr)
  | 0 => pure []
  | n + 1 => do
    let w ← readFtWord lossy
    let ws ← readFtWords lossy n
    return w :: ws

/-- fasttext.py:138-159 `_read_ft_vocab` -/
def readFtVocab (buckets minN maxN : Int) (lossy : Bool) : Rd (Vocab × FtIndexer) := do
  match ← readSigned [4, 4, 4] with
  | [vocabSize, _, nLabels] => do
    if nLabels ≠ 0 then Rd.fail .notImplementedError
    let _ ← readOne 8
    let prune ← readOne 8
    if toSigned 8 prune ≥ 0 then Rd.fail .notImplementedError
    let words ← readFtWords lossy vocabSize.toNat
    let ix ← Rd.lift (FtIndexer.new buckets minN maxN)
    let v ← Rd.lift (Vocab.new words (some (.ft ix)))
    return (v, ix)
  | _ => Rd.fail .valueError

/-! ### Storage -/

section
variable {K : Type}

/-- `np.fromfile(file, count=n, dtype=np.float32)`; a negative count reads the rest of the file. -/
def fromFileInt (n : Int) : Rd (List F32) := fun s =>
  if 0 ≤ n then fromFileF32 n.toNat s
  else if -(maxSize : Int) ≤ n then
    .ok (f32sOf (s.data.drop s.pos), ⟨s.data, max s.pos s.data.length⟩)
  else .error .overflowError

/-- `array.reshape((r, c))` of a 1-d array for integers; one negative dimension is inferred. -/
def reshapeInt (r c : Int) (xs : List K) : Res (Mat K) :=
  if r < 0 then
    if c ≤ 0 ∨ xs.length % c.toNat ≠ 0 then .error .valueError
    else reshape2 4 (xs.length / c.toNat) c.toNat xs
  else if c < 0 then
    if r = 0 ∨ xs.length % r.toNat ≠ 0 then .error .valueError
    else reshape2 4 r.toNat (xs.length / r.toNat) xs
  else reshape2 4 r.toNat c.toNat xs

variable [NumOps K]

/-- fasttext.py:205-218 `_precompute_word_vecs`: row `i` becomes the mean of itself and the rows
of the subwords. -/
def precomputeWords (v : Vocab) (ix : Indexer) (cols : Nat) :
    Nat → List PyStr → List (List K) → Res (List (List K))
  | _, [], rows => .ok rows
  | i, w :: ws, rows => do
    let sub ← v.subwordIndices ix w
    let sel ← npTake rows ((i : Int) :: sub)
    let mean := vdiv (addReduce cols sel) (NumOps.ofNat sel.length)
    let rows ← npSet rows i mean
    precomputeWords v ix cols (i + 1) ws rows

variable [Codec K]

/-- fasttext.py:183-202 `_read_ft_storage` -/
def readFtStorage (v : Vocab) (ix : FtIndexer) : Rd (Mat K) := do
  let quantized ← readOne 1
  if quantized ≠ 0 then Rd.fail .notImplementedError
  match ← readSigned [8, 8] with
  | [rows, cols] => do
    let xs ← fromFileInt (rows * cols)
    let m ← Rd.lift (reshapeInt rows cols (xs.map Codec.ofBits))
    let rs ← Rd.lift (precomputeWords v (.ft ix) m.cols 0 v.words m.rows)
    return ⟨m.cols, rs⟩
  | _ => Rd.fail .valueError

/-- fasttext.py:22-58 `load_fasttext`; `_normalize_matrix` works in place on the rows of the
words. -/
def loadFasttext (lossy : Bool) : Rd (Embeddings K) := do
  readFtHeader
  let cfg ← readFtCfg
  let (v, ix) ← readFtVocab cfg.buckets cfg.minN cfg.maxN lossy
  let m ← readFtStorage v ix
  let (words, norms) := normalizeMatrix (m.rows.take v.len)
  Rd.lift (Embeddings.new (.nd ⟨m.cols, words ++ m.rows.drop v.len⟩) v (some norms)
    (some cfg.toMeta))

/-! ### Writing -/

/-- fasttext.py:221-257 `_write_ft_cfg` -/
def writeFtCfg (dims nBuckets minN maxN : Nat) : Wr Unit :=
  writeSigned [(4, dims), (4, 0), (4, 0), (4, 0), (4, 0), (4, 1), (4, 1), (4, 1), (4, nBuckets),
    (4, minN), (4, maxN), (4, 0)] (le 8 0)

/-- fasttext.py:260-274 `_write_ft_vocab` -/
def writeFtVocab (v : Vocab) : Wr Unit := do
  writeSigned [(4, v.len), (4, v.len), (4, 0)]
  writeSigned [(8, 0), (8, -1)]
  forWr (fun w => do
    let b ← Wr.lift (encode w)
    Wr.bytes b
    Wr.bytes [0]
    writeSigned [(8, 0)]
    writeSigned [(1, 0)]) v.words

omit [Codec K] in
/-- fasttext.py:291-292: multiply by the norm, if there are norms -/
def applyNorm (norms : Option (List K)) (i : Nat) (embed : List K) : Res (List K) :=
  match norms with
  | none => .ok embed
  | some ns => do
    let n ← npGet ns i
    return embed.map fun x => NumOps.mul x n

omit [Codec K] in
/-- fasttext.py:287-294, the vector written for word `i` -/
def ftWordRow (e : Embeddings K) (ix : Indexer) (i : Nat) (w : PyStr) : Res (List K) := do
  let indices ← e.vocab.subwordIndices ix w
  let row ← e.storage.getOne i
  let embed ← applyNorm e.norms i
    (row.map fun x => NumOps.mul x (NumOps.ofNat (indices.length + 1)))
  let sw ← e.storage.getMany indices
  return vsub embed (addReduce e.storage.nCols sw)

/-- fasttext.py:287-296, the loop over the words -/
def ftWriteRows (e : Embeddings K) (ix : Indexer) : Nat → List PyStr → Wr Unit
  | _, [] => pure ()
  | i, w :: ws => do
    let row ← Wr.lift (ftWordRow e ix i w)
    Wr.bytes (f32sLE (row.map Codec.bits))
    ftWriteRows e ix (i + 1) ws

omit [NumOps K] in
/-- `_serialize_array_as_le(outf, storage)`; a `QuantizedArray` has no `dtype`. -/
def writeRaw (s : Storage K) : Wr Unit :=
  match s with
  | .nd m => Wr.bytes (f32sLE (m.flat.map Codec.bits))
  | .quant _ => Wr.fail .attributeError

/-- fasttext.py:61-112 `write_fasttext` with `_write_ft_storage_subwords` (277-298); the file has
been truncated before the vocabulary is checked. -/
def writeFasttext (e : Embeddings K) : Wr Unit :=
  match e.vocab.sub with
  | some (.ft ix) => do
    writeSigned [(4, ftMagic), (4, 12)]
    writeFtCfg e.storage.nCols ix.nBuckets ix.minN ix.maxN
    writeFtVocab e.vocab
    writeBinary [(1, 0), (8, e.storage.nRows), (8, e.storage.nCols)]
    ftWriteRows e (.ft ix) 0 e.vocab.words
    let rest ← Wr.lift (e.storage.slice ⟨some e.vocab.len, none, none⟩)
    writeRaw rest
    writeRaw e.storage
  | _ => Wr.fail .valueError

end

end FF
