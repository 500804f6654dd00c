import Verif.Model.Memory
import Verif.Model.FastText
import Verif.Model.Text
/-!
# Memory requested while loading the other formats

As `Verif.Model.Memory`, for compat/word2vec.py, compat/fasttext.py and compat/text.py.  The buffers that count are those of
`file.read(n)`, and the arrays of `np.fromfile`, `np.zeros`, `matrix[indices]`, `mean` and `np.linalg.norm`.  Arrays that live
only for one statement or one round of a loop are given back.  Lines, and words that are read byte by byte, are strings and do
not count.
-/

namespace FF

/-- Something that needs `n` bytes, which it gives back -/
def MRd.borrow {α : Type} (n : Nat) (m : Rd α) : MRd α := fun s =>
  if n ≤ s.1 then MRd.of m s else .error .memory

namespace Mem

/-- _util.py:9-12 `_normalize_matrix` of a matrix with `rows` rows: `np.linalg.norm(storage, axis=1)` needs the squares,
their sums and the roots; the division is done in place. -/
def normSize (rows cols : Nat) : Nat := 4 * (rows * cols) + 8 * rows

section
variable {K : Type} [NumOps K] [Codec K]

omit [NumOps K] in
/-- word2vec.py:46-52, the loop over the rows; the array of the previous row is still there when the next one is read -/
def w2vRows (lossy : Bool) (cols : Nat) : Nat → MRd (List (PyStr × List K))
  | 0 => pure []
  | n + 1 => do
    let bs ← MRd.of (readDelim 32)
    let word ← MRd.of (Rd.lift (decodeLossy lossy bs))
    let array ← MRd.borrow (8 * cols) (FF.fromFileF32 cols)
    let row ← MRd.of (Rd.lift (assignRow cols (array.map Codec.ofBits)))
    let rest ← w2vRows lossy cols n
    return (strip word, row) :: rest

/-- word2vec.py:18-57 `load_word2vec` -/
def loadWord2vec (lossy : Bool) : MRd (Embeddings K) := do
  let line ← MRd.of readLine
  let header ← MRd.of (Rd.lift (decodeAscii line))
  let dims ← MRd.of (Rd.lift (twoInts header))
  let shape ← MRd.of (Rd.lift (zerosShape dims.1 dims.2))
  MRd.request (4 * (shape.1 * shape.2)) (pure ())
  let rows ← w2vRows lossy shape.2 shape.1
  let (matrix, norms) ← MRd.borrow (normSize shape.1 shape.2) (pure (normalizeMatrix (rows.map Prod.snd)))
  let vocab ← MRd.of (Rd.lift (Vocab.new (rows.map Prod.fst) none))
  MRd.of (Rd.lift (Embeddings.new (.nd ⟨shape.2, matrix⟩) vocab (some norms) none))

/-- io.py:270-275 `_read_required_binary` with signed fields -/
def readSigned (ws : List Nat) : MRd (List Int) := do
  let vs ← readRequired ws
  return List.zipWith toSigned ws vs

/-- fasttext.py:115-123 `_read_ft_header` -/
def readFtHeader : MRd Unit := do
  match ← readSigned [4, 4] with
  | [magic, version] =>
    if magic ≠ ftMagic then MRd.of (Rd.fail .valueError)
    if version ≠ 12 then MRd.of (Rd.fail .valueError)
  | _ => MRd.of (Rd.fail .valueError)

/-- fasttext.py:126-135 `_read_ft_cfg` -/
def readFtCfg : MRd FtCfg := do
  match ← readRequired [4, 4, 4, 4, 4, 4, 4, 4, 4, 4, 4, 4, 8] with
  | [a0, a1, a2, a3, a4, a5, a6, a7, a8, a9, a10, a11, a12] => do
    let loss ← MRd.of (Rd.lift (npGet ftLosses (toSigned 4 a6 - 1)))
    let model ← MRd.of (Rd.lift (npGet ftModels (toSigned 4 a7 - 1)))
    return ⟨toSigned 4 a0, toSigned 4 a1, toSigned 4 a2, toSigned 4 a3, toSigned 4 a4,
      toSigned 4 a5, loss, model, toSigned 4 a8, toSigned 4 a9, toSigned 4 a10, toSigned 4 a11,
      UInt64.ofNat a12⟩
  | _ => MRd.of (Rd.fail .valueError)

/-- fasttext.py:162-180 `_read_binary_word` -/
def readFtWord (lossy : Bool) : MRd PyStr := do
  let word ← MRd.of (readDelim 0)
  let _ ← readOne 8
  let entryType ← readOne 1
  if entryType ≠ 0 then MRd.of (Rd.fail .valueError)
  MRd.of (Rd.lift (decodeLossy lossy word))

/-- fasttext.py:157 -/
def readFtWords (lossy : Bool) : Nat → MRd (List PyStr)
  | 0 => pure []
  | n + 1 => do
    let w ← readFtWord lossy
    let ws ← readFtWords lossy n
    return w :: ws

/-- fasttext.py:138-159 `_read_ft_vocab` -/
def readFtVocab (buckets minN maxN : Int) (lossy : Bool) : MRd (Vocab × FtIndexer) := do
  match ← readSigned [4, 4, 4] with
  | [vocabSize, _, nLabels] => do
    if nLabels ≠ 0 then MRd.of (Rd.fail .notImplementedError)
    let _ ← readOne 8
    let prune ← readOne 8
    if toSigned 8 prune ≥ 0 then MRd.of (Rd.fail .notImplementedError)
    let words ← readFtWords lossy vocabSize.toNat
    let ix ← MRd.of (Rd.lift (FtIndexer.new buckets minN maxN))
    let v ← MRd.of (Rd.lift (Vocab.new words (some (.ft ix))))
    return (v, ix)
  | _ => MRd.of (Rd.fail .valueError)

/-- `np.fromfile(file, count=n, dtype=np.float32)`; a negative count asks for what is left of the file. -/
def fromFileInt (n : Int) : MRd (List F32) := fun s =>
  if 0 ≤ n then fromFileF32 n.toNat s
  else MRd.request (4 * ((s.2.data.length - s.2.pos) / 4)) (FF.fromFileInt n) s

/-- fasttext.py:213-218 for a word with `k` n-grams: `matrix[indices]` needs an array of indices and one of rows, `mean` one
row more. -/
def meanSize (cols k : Nat) : Nat := 8 * (k + 1) + 4 * (cols * (k + 2))

omit [Codec K] in
/-- fasttext.py:205-218 `_precompute_word_vecs` -/
def precomputeWords (v : Vocab) (ix : Indexer) (cols : Nat) :
    Nat → List PyStr → List (List K) → MRd (List (List K))
  | _, [], rows => pure rows
  | i, w :: ws, rows => do
    let sub ← MRd.of (Rd.lift (v.subwordIndices ix w))
    let sel ← MRd.borrow (meanSize cols sub.length) (Rd.lift (npTake rows ((i : Int) :: sub)))
    let mean := vdiv (addReduce cols sel) (NumOps.ofNat sel.length)
    let rows ← MRd.of (Rd.lift (npSet rows i mean))
    precomputeWords v ix cols (i + 1) ws rows

/-- fasttext.py:183-202 `_read_ft_storage` -/
def readFtStorage (v : Vocab) (ix : FtIndexer) : MRd (Mat K) := do
  let quantized ← readOne 1
  if quantized ≠ 0 then MRd.of (Rd.fail .notImplementedError)
  match ← readSigned [8, 8] with
  | [rows, cols] => do
    let xs ← fromFileInt (rows * cols)
    let m ← MRd.of (Rd.lift (reshapeInt rows cols (xs.map Codec.ofBits)))
    let rs ← precomputeWords v (.ft ix) m.cols 0 v.words m.rows
    return ⟨m.cols, rs⟩
  | _ => MRd.of (Rd.fail .valueError)

/-- fasttext.py:22-58 `load_fasttext` -/
def loadFasttext (lossy : Bool) : MRd (Embeddings K) := do
  readFtHeader
  let cfg ← readFtCfg
  let (v, ix) ← readFtVocab cfg.buckets cfg.minN cfg.maxN lossy
  let m ← readFtStorage v ix
  let (words, norms) ← MRd.borrow (normSize v.len m.cols) (pure (normalizeMatrix (m.rows.take v.len)))
  MRd.of (Rd.lift (Embeddings.new (.nd ⟨m.cols, words ++ m.rows.drop v.len⟩) v (some norms) (some cfg.toMeta)))

end

section
variable {K : Type} [NumOps K] [NumText K]

/-- text.py:143-154 `_load_text` with `n` bytes -/
def loadTextLines (n : Nat) (file : Lines) (rows cols : Int) : Except Stop (Embeddings K) := do
  let shape ← (zerosShape rows cols).mapError .py
  if n < 4 * (shape.1 * shape.2) then .error .memory
  let rs ← (textRows shape.2 file.stop shape.1 file.lines).mapError .py
  let raw := rs.map Prod.snd ++
    List.replicate (shape.1 - rs.length) (List.replicate shape.2 NumOps.zero)
  if n - 4 * (shape.1 * shape.2) < normSize shape.1 shape.2 then .error .memory
  let (matrix, norms) := normalizeMatrix raw
  let vocab ← (Vocab.new (rs.map Prod.fst) none).mapError .py
  (Embeddings.new (.nd ⟨shape.2, matrix⟩) vocab (some norms) none).mapError .py

/-- text.py:19-46 `load_text_dims` -/
def loadTextDims [TextIO] (lossy : Bool) (n : Nat) (bs : Bytes) : Except Stop (Embeddings K) := do
  match ← (textLines lossy bs).next.mapError .py with
  | none => .error (.py .stopIteration)
  | some (first, file) => do
    let dims ← (twoInts first).mapError .py
    loadTextLines n file dims.1 dims.2

/-- text.py:49-87 `load_text` -/
def loadText [TextIO] (lossy : Bool) (n : Nat) (bs : Bytes) : Except Stop (Embeddings K) := do
  match ← (textLines lossy bs).next.mapError .py with
  | none => .error (.py .valueError)
  | some (first, file) => do
    let cols := (reSplit (rstrip first)).length - 1
    let lines ← file.all.mapError .py
    let rows := lines.length + 1
    loadTextLines n (textLines lossy bs) rows cols

end

end Mem

end FF
