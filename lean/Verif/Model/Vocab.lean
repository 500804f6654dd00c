import Verif.Model.Indexers
import Verif.Model.Io
/-!
# Vocabularies
vocab/vocab.py, vocab/simple_vocab.py, vocab/subword.py, vocab/__init__.py
-/

namespace FF

/-- The subword indexer of a `SubwordVocab`. -/
inductive Indexer where
  | fifu (ix : FifuIndexer)
  | ft (ix : FtIndexer)
  | expl (ix : ExplIndexer)
  deriving DecidableEq, Repr

/-- A vocabulary.  The class is determined by `sub`: `none` is `SimpleVocab`
(simple_vocab.py:13), `fifu` is `FinalfusionBucketVocab` (subword.py:145), `ft` is
`FastTextVocab` (subword.py:230) and `expl` is `ExplicitVocab` (subword.py:313). -/
structure Vocab where
  words : List PyStr
  index : Dict PyStr Nat
  sub : Option Indexer
  deriving DecidableEq, Repr

/-- vocab.py:173-180 `_validate_items_and_create_index` -/
def validateItems (items : List PyStr) : Res (Dict PyStr Nat) := do
  let index := Dict.ofPairs (enumItems items)
  let nUnique := index.length
  pyAssert (items.length = nUnique)
  pyAssert (index.length = items.length)
  return index

/-- Constructors: simple_vocab.py:20-40, subword.py:149-182, 234-265, 317-341. -/
def Vocab.new (words : List PyStr) (sub : Option Indexer) : Res Vocab := do
  let index ← validateItems words
  return ⟨words, index, sub⟩

/-- vocab.py:89-90 `__len__` -/
def Vocab.len (v : Vocab) : Nat := v.index.length

/-- `upper_bound` of the indexer classes -/
def Indexer.upperBound : Indexer → Int
  | .fifu ix => ix.upperBound
  | .ft ix => ix.upperBound
  | .expl ix => ix.bound

def Indexer.minN : Indexer → Nat
  | .fifu ix => ix.minN
  | .ft ix => ix.minN
  | .expl ix => ix.minN

def Indexer.maxN : Indexer → Nat
  | .fifu ix => ix.maxN
  | .ft ix => ix.maxN
  | .expl ix => ix.maxN

/-- simple_vocab.py:50-52 and subword.py:30-32 `upper_bound` -/
def Vocab.upperBound (v : Vocab) : Int :=
  match v.sub with
  | none => v.len
  | some ix => v.len + ix.upperBound

/-- `subword_indexer.subword_indices(item, offset, bracket, with_ngrams=True)` -/
def Indexer.subwordIndices (ix : Indexer) (word : PyStr) (offset : Nat) (bracket : Bool) :
    Res (List (PyStr × Int)) :=
  match ix with
  | .fifu ix => .ok ((ix.subwordIndices word (UInt64.ofNat offset) bracket).map
      fun p => (p.1, (p.2 : Int)))
  | .ft ix => do
    let l ← ix.subwordIndices word (UInt64.ofNat offset) bracket
    return l.map fun p => (p.1, (p.2 : Int))
  | .expl ix => .ok (ix.subwordIndices word offset bracket)

/-- `subword_indexer.subword_indices(item, offset, bracket)` -/
def Indexer.indices (ix : Indexer) (word : PyStr) (offset : Nat) (bracket : Bool) :
    Res (List Int) :=
  match ix with
  | .fifu ix => .ok ((ix.indices word (UInt64.ofNat offset) bracket).map fun (n : Nat) => (n : Int))
  | .ft ix => do
    let l ← ix.indices word (UInt64.ofNat offset) bracket
    return l.map fun (n : Nat) => (n : Int)
  | .expl ix => .ok (ix.indices word offset bracket)

/-- subword.py:97-121 `subword_indices(item, bracket, with_ngrams=True)`; the offset is
`len(self.words)`. -/
def Vocab.subwordIndicesG (v : Vocab) (ix : Indexer) (item : PyStr) (bracket : Bool := true) :
    Res (List (PyStr × Int)) :=
  ix.subwordIndices item v.words.length bracket

/-- subword.py:97-121 with `with_ngrams=False`. -/
def Vocab.subwordIndices (v : Vocab) (ix : Indexer) (item : PyStr) (bracket : Bool := true) :
    Res (List Int) :=
  ix.indices item v.words.length bracket

/-- subword.py:77-95 `subwords` -/
def Vocab.subwords (_v : Vocab) (ix : Indexer) (item : PyStr) (bracket : Bool := true) :
    Res (List PyStr) :=
  ngrams item ix.minN ix.maxN bracket

/-- What a lookup yields: a word index or a list of subword indices. -/
inductive Idx where
  | one (i : Nat)
  | many (is : List Int)
  deriving DecidableEq, Repr

/-- simple_vocab.py:54-56 and subword.py:20-28 `idx(item, default)` -/
def Vocab.idx (v : Vocab) (item : PyStr) (default : Option Idx := none) : Res (Option Idx) :=
  match v.sub with
  | none =>
    match Dict.get? v.index item with
    | some i => .ok (some (.one i))
    | none => .ok default
  | some ix =>
    match Dict.get? v.index item with
    | some i => .ok (some (.one i))
    | none => do
      let subwords ← v.subwordIndices ix item
      if subwords ≠ [] then return some (.many subwords)
      return default

/-- vocab.py:74-75 and subword.py:123-130 `__getitem__` -/
def Vocab.getItem (v : Vocab) (item : PyStr) : Res Idx :=
  match v.sub with
  | none =>
    match Dict.get? v.index item with
    | some i => .ok (.one i)
    | none => .error .keyError
  | some ix =>
    match Dict.get? v.index item with
    | some i => .ok (.one i)
    | none => do
      let subwords ← v.subwordIndices ix item
      if subwords ≠ [] then return .many subwords
      .error .keyError

/-- vocab.py:77-84 `__contains__` for a string -/
def Vocab.contains (v : Vocab) (item : PyStr) : Bool := (Dict.get? v.index item).isSome

/-- vocab.py:77-84 `__contains__` for an iterable of strings -/
def Vocab.containsAll (v : Vocab) (items : List PyStr) : Bool := items.all v.contains

/-- Indexer `__eq__`: hash_indexers.pyx:145-149, 281-285, explicit_indexer.pyx:189-196 -/
def Indexer.pyEq : Indexer → Indexer → Bool
  | .fifu a, .fifu b => a.minN == b.minN && a.maxN == b.maxN && a.bucketsExp == b.bucketsExp
  | .ft a, .ft b => a.minN == b.minN && a.maxN == b.maxN && a.nBuckets == b.nBuckets
  | .expl a, .expl b => a.pyEq b
  | _, _ => false

/-- vocab.py:92-99 and subword.py:139-142 `__eq__`; `isinstance(other, type(self))` holds
iff the classes agree (there are no subclasses among the concrete classes). -/
def Vocab.pyEq (a b : Vocab) : Bool :=
  match a.sub, b.sub with
  | none, none => a.words == b.words && Dict.pyEq a.index b.index
  | some ia, some ib => ia.pyEq ib && a.words == b.words && Dict.pyEq a.index b.index
  | _, _ => false

/-! ### Conversion to explicit vocabularies -/

/-- `subword_indexer(ngram)` for hash based indexers. -/
def Indexer.call (ix : Indexer) (g : PyStr) : Res (Option Int) :=
  match ix with
  | .fifu ix => .ok (some (ix.call g))
  | .ft ix => do
    let n ← ix.call g
    return some n
  | .expl ix => .ok (ix.call g)

/-- Loop state of `_bucket_to_explicit`: ngram_list, ngram_index, idx_index. -/
structure B2E where
  ngramList : List PyStr
  ngramIndex : Dict PyStr Int
  idxIndex : Dict Int Int
  deriving DecidableEq, Repr

/-- subword.py:464-470, the body of the inner loop of `_bucket_to_explicit`. -/
def b2eStep (ix : Indexer) (st : B2E) (g : PyStr) : Res B2E :=
  if (Dict.get? st.ngramIndex g).isSome then .ok st
  else do
    match ← ix.call g with
    | none => .error .typeError   -- unreachable for hash indexers
    | some idx =>
      let idxIndex :=
        if (Dict.get? st.idxIndex idx).isSome then st.idxIndex
        else Dict.set st.idxIndex idx (st.idxIndex.length : Int)
      match Dict.get? idxIndex idx with
      | none => .error .keyError
      | some v => return ⟨st.ngramList ++ [g], Dict.set st.ngramIndex g v, idxIndex⟩

/-- Left fold in `Res`, i.e. a Python `for` loop whose body may raise. -/
def foldRes {α β : Type} (f : β → α → Res β) : β → List α → Res β
  | b, [] => .ok b
  | b, x :: xs => do
    let b' ← f b x
    foldRes f b' xs

/-- subword.py:457-473 `_bucket_to_explicit` -/
def bucketToExplicit (v : Vocab) (ix : Indexer) : Res Vocab := do
  let st ← foldRes (fun st word => do
      let gs ← v.subwords ix word
      foldRes (b2eStep ix) st gs) ⟨[], [], []⟩ v.words
  let eix ← ExplIndexer.new st.ngramList ix.minN ix.maxN (some st.ngramIndex)
  Vocab.new v.words (some (.expl eix))

/-- `to_explicit`, subword.py:184-199, 267-282; only hash based vocabularies have it. -/
def Vocab.toExplicit (v : Vocab) : Res Vocab :=
  match v.sub with
  | some (.fifu ix) => bucketToExplicit v (.fifu ix)
  | some (.ft ix) => bucketToExplicit v (.ft ix)
  | _ => .error .attributeError

/-! ### Serialisation -/

/-- `for`-loop over writers. -/
def forWr {α : Type} (f : α → Wr Unit) : List α → Wr Unit
  | [] => pure ()
  | x :: xs => do
    f x
    forWr f xs

/-- Encode all items; fails on the first that cannot be encoded. -/
def encodeAll : List PyStr → Res (List Bytes)
  | [] => .ok []
  | w :: ws => do
    let b ← encode w
    let bs ← encodeAll ws
    return b :: bs

/-- vocab.py:105-111 `_write_words_binary` applied to
`(bytes(word, "utf-8") for word in words)`: words are encoded one at a time. -/
def writeWords (words : List PyStr) : Wr Unit :=
  forWr (fun w => do
    let b ← Wr.lift (encode w)
    writeBinary [(4, b.length)]
    Wr.bytes b) words

/-- `sum(len(bytes(item, "utf-8")) for item in items)` -/
def byteLenSum (items : List PyStr) : Res Nat := do
  let bs ← encodeAll items
  return (bs.map List.length).sum

/-- vocab.py:166-170 `_calculate_binary_list_size` -/
def binaryListSize (items : List PyStr) : Res Nat := do
  let s ← byteLenSum items
  return s + calcsize [8] + items.length * calcsize [4]

/-- vocab.py:114-135 `_read_items` -/
def readItems : Nat → Rd (List PyStr)
  | 0 => pure []
  | n + 1 => do
    let itemLength ← readOne 4
    let buf ← read itemLength
    let word ← Rd.lift (decode buf)
    let rest ← readItems n
    return word :: rest

/-- vocab.py:138-163 `_read_items_with_indices` (items with their indices, in file order) -/
def readItemsIdx : Nat → Rd (List (PyStr × Nat))
  | 0 => pure []
  | n + 1 => do
    let itemLength ← readOne 4
    let buf ← read itemLength
    let item ← Rd.lift (decode buf)
    let idx ← readOne 8
    let rest ← readItemsIdx n
    return (item, idx) :: rest

/-- simple_vocab.py:64-72 `SimpleVocab.write_chunk` -/
def writeSimpleVocab (v : Vocab) : Wr Unit := do
  writeBinary [(4, ChunkId.simpleVocab.toNat)]
  let bWordLenSum ← Wr.lift (byteLenSum v.words)
  let nWordsSize := calcsize [8]
  let wordLensSize := v.words.length * calcsize [4]
  let chunkLength := nWordsSize + wordLensSize + bWordLenSum
  writeBinary [(8, chunkLength), (8, v.words.length)]
  writeWords v.words

/-- simple_vocab.py:58-62 `SimpleVocab.read_chunk` -/
def readSimpleVocab : Rd Vocab := do
  let length ← readOne 8
  let words ← readItems length
  Rd.lift (Vocab.new words none)

/-- subword.py:476-494 `_write_bucket_vocab` -/
def writeBucketVocab (v : Vocab) (id : ChunkId) (minN maxN buckets : Nat) : Wr Unit := do
  let base ← Wr.lift (binaryListSize v.words)
  let chunkLength := base + calcsize [4, 4] + calcsize [4]
  writeBinary [(4, id.toNat), (8, chunkLength), (8, v.words.length), (4, minN), (4, maxN),
    (4, buckets)]
  writeWords v.words

/-- subword.py:218-223 `FinalfusionBucketVocab.read_chunk` -/
def readBucketVocab : Rd Vocab := do
  match ← readRequired [8, 4, 4, 4] with
  | [length, minN, maxN, buckets] => do
    let words ← readItems length
    let ix ← Rd.lift (FifuIndexer.new buckets minN maxN)
    Rd.lift (Vocab.new words (some (.fifu ix)))
  | _ => Rd.fail .valueError

/-- subword.py:298-303 `FastTextVocab.read_chunk` -/
def readFastTextVocab : Rd Vocab := do
  match ← readRequired [8, 4, 4, 4] with
  | [length, minN, maxN, buckets] => do
    let words ← readItems length
    let ix ← Rd.lift (FtIndexer.new buckets minN maxN)
    Rd.lift (Vocab.new words (some (.ft ix)))
  | _ => Rd.fail .valueError

/-- Packing a (possibly negative) Python int into an unsigned field. -/
def packInt (w : Nat) (i : Int) : Res Bytes :=
  if 0 ≤ i then pack [(w, i.toNat)] else .error .structError

/-- subword.py:372-388 `ExplicitVocab.write_chunk` -/
def writeExplicitVocab (v : Vocab) (ix : ExplIndexer) : Wr Unit := do
  let s1 ← Wr.lift (binaryListSize v.words)
  let s2 ← Wr.lift (binaryListSize ix.ngrams)
  let chunkLength := s1 + s2 + calcsize [4, 4]
  writeBinary [(4, ChunkId.explicitVocab.toNat), (8, chunkLength), (8, v.words.length),
    (8, ix.ngrams.length), (4, ix.minN), (4, ix.maxN)]
  writeWords v.words
  forWr (fun g => do
    let b ← Wr.lift (encode g)
    writeBinary [(4, b.length)]
    Wr.bytes b
    match Dict.get? ix.index g with
    | none => Wr.fail .keyError
    | some i => do
      let d ← Wr.lift (packInt 8 i)
      Wr.bytes d) ix.ngrams

/-- subword.py:363-370 `ExplicitVocab.read_chunk` -/
def readExplicitVocab : Rd Vocab := do
  match ← readRequired [8, 8, 4, 4] with
  | [length, ngramLength, minN, maxN] => do
    let words ← readItems length
    let items ← readItemsIdx ngramLength
    let index : Dict PyStr Int := Dict.ofPairs (items.map fun p => (p.1, (p.2 : Int)))
    let ix ← Rd.lift (ExplIndexer.new (items.map Prod.fst) minN maxN (some index))
    Rd.lift (Vocab.new words (some (.expl ix)))
  | _ => Rd.fail .valueError

/-- `chunk_identifier()` of the vocabulary classes -/
def Vocab.chunkId (v : Vocab) : ChunkId :=
  match v.sub with
  | none => .simpleVocab
  | some (.fifu _) => .bucketVocab
  | some (.ft _) => .fastTextVocab
  | some (.expl _) => .explicitVocab

/-- `vocab.write_chunk(file)`; for bucket vocabularies subword.py:201-202, 305-306 with the
`buckets` field of subword.py:484-488. -/
def Vocab.writeChunk (v : Vocab) : Wr Unit :=
  match v.sub with
  | none => writeSimpleVocab v
  | some (.fifu ix) => writeBucketVocab v .bucketVocab ix.minN ix.maxN ix.bucketsExp
  | some (.ft ix) => writeBucketVocab v .fastTextVocab ix.minN ix.maxN ix.upperBound
  | some (.expl ix) => writeExplicitVocab v ix

/-- vocab/__init__.py:49-57: dispatch on the chunk found. -/
def readVocabChunk (c : ChunkId) : Rd Vocab :=
  match c with
  | .simpleVocab => readSimpleVocab
  | .bucketVocab => readBucketVocab
  | .fastTextVocab => readFastTextVocab
  | .explicitVocab => readExplicitVocab
  | _ => Rd.fail .valueError

/-- vocab/__init__.py:14-57 `load_vocab` -/
def loadVocab : Rd Vocab := do
  match ← findChunk [.simpleVocab, .fastTextVocab, .explicitVocab, .bucketVocab] with
  | none => Rd.fail .valueError
  | some c => readVocabChunk c

/-- simple_vocab.py:79-97 -/
def loadSimpleVocab : Rd Vocab := do
  match ← findChunk [.simpleVocab] with
  | none => Rd.fail .valueError
  | some _ => readSimpleVocab

/-- subword.py:391-410 -/
def loadBucketVocab : Rd Vocab := do
  match ← findChunk [.bucketVocab] with
  | none => Rd.fail .valueError
  | some _ => readBucketVocab

/-- subword.py:413-432 -/
def loadFastTextVocab : Rd Vocab := do
  match ← findChunk [.fastTextVocab] with
  | none => Rd.fail .valueError
  | some _ => readFastTextVocab

/-- subword.py:435-454 -/
def loadExplicitVocab : Rd Vocab := do
  match ← findChunk [.explicitVocab] with
  | none => Rd.fail .valueError
  | some _ => readExplicitVocab

/-- io.py:33-52 `Chunk.write`: a standalone file with one chunk.  `open(file, "wb")` has
truncated the file before anything is checked. -/
def writeStandalone (id : ChunkId) (chunk : Wr Unit) : Wr Unit := do
  if id = .header then Wr.fail .typeError
  writeHeader [id.toNat]
  chunk

end FF
