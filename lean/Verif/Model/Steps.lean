import Verif.Model.MemoryCompat
/-!
# Steps taken while loading

The readers again, with a budget of steps: every round of a loop in the package's own code takes one off the budget, and
loading stops when none is left.  The budget is kept as that of `Verif.Model.Memory`; `Stop.memory` means here that it is used
up.  Loops inside of library functions (reading a block, decoding, splitting, hashing a string, operations on arrays) do not
count, so parts without loops are taken as they are.  Otherwise the readers are those of `Verif.Model.Io`,
`Verif.Model.Vocab`, `Verif.Model.Storage`, `Verif.Model.Embeddings`, `Verif.Model.Word2Vec`, `Verif.Model.FastText` and
`Verif.Model.Text`.
-/

namespace FF.Steps

/-- `n` rounds of a loop -/
def rounds (n : Nat) : MRd Unit := MRd.request n (pure ())

/-- io.py:169-178, the loop of `find_chunk` -/
def findChunkLoop (ids : List ChunkId) : Nat → MRd (Option ChunkId)
  | 0 => MRd.of (Rd.fail .outOfFuel)
  | fuel + 1 => do
    rounds 1
    match ← MRd.of readChunkHeader with
    | none => return none
    | some (c, size) =>
      if c ∈ ids then return some c
      MRd.of (seekCur size)
      findChunkLoop ids fuel

/-- io.py:141-178 `find_chunk` -/
def findChunk (ids : List ChunkId) : MRd (Option ChunkId) := fun s =>
  (do
    MRd.of (seekSet 0)
    let _ ← MRd.of readHeader
    findChunkLoop ids (s.2.data.length + 1)) s

/-- vocab.py:113-135 `_read_items` -/
def readItems : Nat → MRd (List PyStr)
  | 0 => pure []
  | n + 1 => do
    rounds 1
    let itemLength ← MRd.of (readOne 4)
    let buf ← MRd.of (read itemLength)
    let word ← MRd.of (Rd.lift (decode buf))
    let rest ← readItems n
    return word :: rest

/-- vocab.py:138-163 `_read_items_with_indices` -/
def readItemsIdx : Nat → MRd (List (PyStr × Nat))
  | 0 => pure []
  | n + 1 => do
    rounds 1
    let itemLength ← MRd.of (readOne 4)
    let buf ← MRd.of (read itemLength)
    let item ← MRd.of (Rd.lift (decode buf))
    let idx ← MRd.of (readOne 8)
    let rest ← readItemsIdx n
    return (item, idx) :: rest

/-- vocab.py:166-178: the words are enumerated in `_validate_items_and_create_index` (174). -/
def newVocab (words : List PyStr) (sub : Option Indexer) : MRd Vocab := do
  rounds words.length
  MRd.of (Rd.lift (Vocab.new words sub))

/-- explicit_indexer.pyx:38-56: the n-grams are looked up one by one (52). -/
def newExplicit (ngrams : List PyStr) (minN maxN : Nat) (index : Dict PyStr Int) : MRd ExplIndexer := do
  rounds ngrams.length
  MRd.of (Rd.lift (ExplIndexer.new ngrams minN maxN (some index)))

/-- simple_vocab.py:58-62 `SimpleVocab.read_chunk` -/
def readSimpleVocab : MRd Vocab := do
  let length ← MRd.of (readOne 8)
  let words ← readItems length
  newVocab words none

/-- subword.py:218-223 `FinalfusionBucketVocab.read_chunk` -/
def readBucketVocab : MRd Vocab := do
  match ← MRd.of (readRequired [8, 4, 4, 4]) with
  | [length, minN, maxN, buckets] => do
    let words ← readItems length
    let ix ← MRd.of (Rd.lift (FifuIndexer.new buckets minN maxN))
    newVocab words (some (.fifu ix))
  | _ => MRd.of (Rd.fail .valueError)

/-- subword.py:298-303 `FastTextVocab.read_chunk` -/
def readFastTextVocab : MRd Vocab := do
  match ← MRd.of (readRequired [8, 4, 4, 4]) with
  | [length, minN, maxN, buckets] => do
    let words ← readItems length
    let ix ← MRd.of (Rd.lift (FtIndexer.new buckets minN maxN))
    newVocab words (some (.ft ix))
  | _ => MRd.of (Rd.fail .valueError)

/-- subword.py:363-370 `ExplicitVocab.read_chunk` -/
def readExplicitVocab : MRd Vocab := do
  match ← MRd.of (readRequired [8, 8, 4, 4]) with
  | [length, ngramLength, minN, maxN] => do
    let words ← readItems length
    let items ← readItemsIdx ngramLength
    let index : Dict PyStr Int := Dict.ofPairs (items.map fun p => (p.1, (p.2 : Int)))
    let ix ← newExplicit (items.map Prod.fst) minN maxN index
    newVocab words (some (.expl ix))
  | _ => MRd.of (Rd.fail .valueError)

/-- vocab/__init__.py:49-57 -/
def readVocabChunk (c : ChunkId) : MRd Vocab :=
  match c with
  | .simpleVocab => readSimpleVocab
  | .bucketVocab => readBucketVocab
  | .fastTextVocab => readFastTextVocab
  | .explicitVocab => readExplicitVocab
  | _ => MRd.of (Rd.fail .valueError)

/-- vocab/__init__.py:14-57 `load_vocab` -/
def loadVocab : MRd Vocab := do
  match ← findChunk [.simpleVocab, .fastTextVocab, .explicitVocab, .bucketVocab] with
  | none => MRd.of (Rd.fail .valueError)
  | some c => readVocabChunk c

/-- metadata.py:57-82 `load_metadata` -/
def loadMetadata (T : Toml) : MRd Meta := do
  match ← findChunk [.metadata] with
  | none => MRd.of (Rd.fail .valueError)
  | some .metadata => MRd.of (readMetadata T)
  | some _ => MRd.of (Rd.fail .valueError)

/-- storage/__init__.py:13-50 `load_storage` -/
def loadStorage (mmap : Bool) : MRd (Storage F32) := do
  match ← findChunk [.ndArray, .quantizedArray] with
  | none => MRd.of (Rd.fail .valueError)
  | some .ndArray => MRd.of (loadNd mmap)
  | some .quantizedArray => MRd.of (loadQuant mmap)
  | some _ => MRd.of (Rd.fail .notImplementedError)

/-- norms.py:83-110 `load_norms` -/
def loadNorms : MRd (List F32) := do
  match ← findChunk [.ndNorms] with
  | none => MRd.of (Rd.fail .valueError)
  | some .ndNorms => MRd.of readNorms
  | some _ => MRd.of (Rd.fail .valueError)

/-- embeddings.py:696-706 -/
def loadVocabPart (c : ChunkId) : MRd Vocab :=
  match c with
  | .simpleVocab => readSimpleVocab
  | .bucketVocab => readBucketVocab
  | .fastTextVocab => readFastTextVocab
  | .explicitVocab => readExplicitVocab
  | _ => MRd.of (Rd.fail .formatError)

/-- embeddings.py:666-721 `load_finalfusion` -/
def loadFinalfusion (T : Toml) (mmap : Bool) : MRd (Embeddings F32) := do
  let _ ← MRd.of readHeader
  let (c, metadata) ← MRd.of (loadMetaPart T)
  let vocab ← loadVocabPart c
  let storage ← MRd.of (loadStoragePart mmap)
  let norms ← MRd.of loadNormsPart
  MRd.of (Rd.lift (Embeddings.new storage vocab norms metadata))

/-- word2vec.py:104-111 and fasttext.py:166-173: one round for every byte, including the delimiter or the empty read at the
end of the file -/
def readDelim (d : UInt8) : MRd Bytes := fun s =>
  MRd.request (((takeUntil d (s.2.data.drop s.2.pos)).getD (s.2.data.drop s.2.pos)).length + 1) (FF.readDelim d) s

section
variable {K : Type} [NumOps K] [Codec K]

omit [NumOps K] in
/-- word2vec.py:46-52, the loop over the rows -/
def w2vRows (lossy : Bool) (cols : Nat) : Nat → MRd (List (PyStr × List K))
  | 0 => pure []
  | n + 1 => do
    rounds 1
    let bs ← readDelim 32
    let word ← MRd.of (Rd.lift (decodeLossy lossy bs))
    let array ← MRd.of (fromFileF32 cols)
    let row ← MRd.of (Rd.lift (assignRow cols (array.map Codec.ofBits)))
    let rest ← w2vRows lossy cols n
    return (strip word, row) :: rest

/-- word2vec.py:18-57 `load_word2vec` -/
def loadWord2vec (lossy : Bool) : MRd (Embeddings K) := do
  let line ← MRd.of readLine
  let header ← MRd.of (Rd.lift (decodeAscii line))
  let dims ← MRd.of (Rd.lift (twoInts header))
  let shape ← MRd.of (Rd.lift (zerosShape dims.1 dims.2))
  let rows ← w2vRows lossy shape.2 shape.1
  let (matrix, norms) := normalizeMatrix (rows.map Prod.snd)
  let vocab ← newVocab (rows.map Prod.fst) none
  MRd.of (Rd.lift (Embeddings.new (.nd ⟨shape.2, matrix⟩) vocab (some norms) none))

/-- fasttext.py:162-180 `_read_binary_word` -/
def readFtWord (lossy : Bool) : MRd PyStr := do
  let word ← readDelim 0
  let _ ← MRd.of (readOne 8)
  let entryType ← MRd.of (readOne 1)
  if entryType ≠ 0 then MRd.of (Rd.fail .valueError)
  MRd.of (Rd.lift (decodeLossy lossy word))

/-- fasttext.py:157 -/
def readFtWords (lossy : Bool) : Nat → MRd (List PyStr)
  | 0 => pure []
  | n + 1 => do
    rounds 1
    let w ← readFtWord lossy
    let ws ← readFtWords lossy n
    return w :: ws

/-- fasttext.py:138-159 `_read_ft_vocab` -/
def readFtVocab (buckets minN maxN : Int) (lossy : Bool) : MRd (Vocab × FtIndexer) := do
  match ← MRd.of (readSigned [4, 4, 4]) with
  | [vocabSize, _, nLabels] => do
    if nLabels ≠ 0 then MRd.of (Rd.fail .notImplementedError)
    let _ ← MRd.of (readOne 8)
    let prune ← MRd.of (readOne 8)
    if toSigned 8 prune ≥ 0 then MRd.of (Rd.fail .notImplementedError)
    let words ← readFtWords lossy vocabSize.toNat
    let ix ← MRd.of (Rd.lift (FtIndexer.new buckets minN maxN))
    let v ← newVocab words (some (.ft ix))
    return (v, ix)
  | _ => MRd.of (Rd.fail .valueError)

/-- hash_indexers.pyx:255-275 for a word in brackets: the rounds of `find_utf8_boundaries` (300), of the loop over the
positions (262), of the loop over the lengths (266), and of `ft_hash_ngram` (328), which takes one for each byte of the
n-gram -/
def ngramRounds (minN maxN : Nat) (word : PyStr) : Nat :=
  (utf8 word).length +
    ((List.range (word.length + 1 - minN)).map fun i => 1 +
      ((List.range (min maxN word.length + 1 - minN)).map fun k => 1 +
        (if minN + k + i ≤ word.length then (utf8 ((word.drop i).take (minN + k))).length else 0)).sum).sum

omit [Codec K] in
/-- fasttext.py:205-218 `_precompute_word_vecs` -/
def precomputeWords (v : Vocab) (ix : FtIndexer) (cols : Nat) :
    Nat → List PyStr → List (List K) → MRd (List (List K))
  | _, [], rows => pure rows
  | i, w :: ws, rows => do
    rounds (1 + ngramRounds ix.minN ix.maxN (bracketed true w))
    let sub ← MRd.of (Rd.lift (v.subwordIndices (.ft ix) w))
    let sel ← MRd.of (Rd.lift (npTake rows ((i : Int) :: sub)))
    let mean := vdiv (addReduce cols sel) (NumOps.ofNat sel.length)
    let rows ← MRd.of (Rd.lift (npSet rows i mean))
    precomputeWords v ix cols (i + 1) ws rows

/-- fasttext.py:183-202 `_read_ft_storage` -/
def readFtStorage (v : Vocab) (ix : FtIndexer) : MRd (Mat K) := do
  let quantized ← MRd.of (readOne 1)
  if quantized ≠ 0 then MRd.of (Rd.fail .notImplementedError)
  match ← MRd.of (readSigned [8, 8]) with
  | [rows, cols] => do
    let xs ← MRd.of (fromFileInt (rows * cols))
    let m ← MRd.of (Rd.lift (reshapeInt rows cols (xs.map Codec.ofBits)))
    let rs ← precomputeWords v ix m.cols 0 v.words m.rows
    return ⟨m.cols, rs⟩
  | _ => MRd.of (Rd.fail .valueError)

/-- fasttext.py:22-58 `load_fasttext` -/
def loadFasttext (lossy : Bool) : MRd (Embeddings K) := do
  MRd.of readFtHeader
  let cfg ← MRd.of readFtCfg
  let (v, ix) ← readFtVocab cfg.buckets cfg.minN cfg.maxN lossy
  let m ← readFtStorage v ix
  let (words, norms) := normalizeMatrix (m.rows.take v.len)
  MRd.of (Rd.lift (Embeddings.new (.nd ⟨m.cols, words ++ m.rows.drop v.len⟩) v (some norms) (some cfg.toMeta)))

end

section
variable {K : Type} [NumOps K] [NumText K]

/-- `n` rounds of a loop, with a budget of `b`: what is left -/
def spend (n b : Nat) : Except Stop Nat := if n ≤ b then .ok (b - n) else .error .memory

omit [NumOps K] in
/-- text.py:146, the loop over `zip(matrix, file)`; the rows, and what is left of the budget -/
def textRows (cols : Nat) (stop : Option PyErr) :
    Nat → Nat → List PyStr → Except Stop (List (PyStr × List K) × Nat)
  | b, 0, _ => .ok ([], b)
  | b, _ + 1, [] =>
    match stop with
    | none => .ok ([], b)
    | some x => .error (.py x)
  | b, n + 1, line :: lines => do
    let b ← spend 1 b
    let r ← (textRow cols line).mapError .py
    let (rs, b) ← textRows cols stop b n lines
    return (r :: rs, b)

/-- text.py:143-154 `_load_text` -/
def loadTextLines (b : Nat) (file : Lines) (rows cols : Int) : Except Stop (Embeddings K) := do
  let shape ← (zerosShape rows cols).mapError .py
  let (rs, b) ← textRows shape.2 file.stop b shape.1 file.lines
  let raw := rs.map Prod.snd ++
    List.replicate (shape.1 - rs.length) (List.replicate shape.2 NumOps.zero)
  let (matrix, norms) := normalizeMatrix raw
  let _ ← spend rs.length b
  let vocab ← (Vocab.new (rs.map Prod.fst) none).mapError .py
  (Embeddings.new (.nd ⟨shape.2, matrix⟩) vocab (some norms) none).mapError .py

/-- text.py:19-46 `load_text_dims` -/
def loadTextDims [TextIO] (lossy : Bool) (b : Nat) (bs : Bytes) : Except Stop (Embeddings K) := do
  match ← (textLines lossy bs).next.mapError .py with
  | none => .error (.py .stopIteration)
  | some (first, file) => do
    let dims ← (twoInts first).mapError .py
    loadTextLines b file dims.1 dims.2

/-- text.py:49-87 `load_text`; the lines after the first are counted one by one (85). -/
def loadText [TextIO] (lossy : Bool) (b : Nat) (bs : Bytes) : Except Stop (Embeddings K) := do
  match ← (textLines lossy bs).next.mapError .py with
  | none => .error (.py .valueError)
  | some (first, file) => do
    let cols := (reSplit (rstrip first)).length - 1
    let b ← spend file.lines.length b
    let lines ← file.all.mapError .py
    let rows := lines.length + 1
    loadTextLines b (textLines lossy bs) rows cols

end

end FF.Steps
