import Verif.Spec.Writable
/-!
# The finalfusion file format
What the bytes of a file have to be, position by position.  Independent of the readers and
writers of the model: the numbers are written out, fields are given by their digits.
-/

namespace FF.Fifu

/-- A number in `w` bytes, least significant byte first. -/
def uint (w n : Nat) : Bytes := (List.range w).map fun i => UInt8.ofNat (n / 256 ^ i)

/-- Floats, four bytes each. -/
def floats (xs : List F32) : Bytes := xs.flatMap fun x => uint 4 x.toNat

/-- A string: length in bytes, then its UTF-8 form. -/
def str (w : PyStr) : Bytes := uint 4 (utf8 w).length ++ utf8 w

/-- The file has `enc` at position `pos`. -/
def HasAt (bs : Bytes) (pos : Nat) (enc : Bytes) : Prop := enc <+: bs.drop pos

/-- One to four bytes of padding, up to the next multiple of four. -/
def Pad (pos pad : Nat) : Prop := 1 ≤ pad ∧ pad ≤ 4 ∧ 4 ∣ pos + pad

/-- Identifier and length of a chunk.  The length may be any number. -/
def Head (bs : Bytes) (pos id : Nat) : Prop :=
  ∃ len, len < 2 ^ 64 ∧ HasAt bs pos (uint 4 id ++ uint 8 len)

/-- `FiFu`, version 0, number of chunks, identifiers of the chunks; at least one, not looked at
further.  `stop` is the position of the first chunk. -/
def HeaderAt (bs : Bytes) (stop : Nat) : Prop :=
  ∃ ids : List Nat, ids ≠ [] ∧ ids.length < 2 ^ 32 ∧ (∀ i ∈ ids, i < 2 ^ 32) ∧
    HasAt bs 0 ([0x46, 0x69, 0x46, 0x75] ++ uint 4 0 ++ uint 4 ids.length ++ ids.flatMap (uint 4)) ∧
    stop = 12 + 4 * ids.length

/-- An optional chunk 5 with a TOML document from `pos` to `stop`. -/
def MetaAt (T : Toml) (bs : Bytes) (pos : Nat) (md : Option Meta) (stop : Nat) : Prop :=
  match md with
  | none => stop = pos
  | some m => ∃ text : PyStr, (∀ c ∈ text, c.val < 0xD800 ∨ 0xDFFF < c.val) ∧
      T.loads text = .ok m ∧
      HasAt bs pos (uint 4 5 ++ uint 8 (utf8 text).length ++ utf8 text) ∧
      stop = pos + 12 + (utf8 text).length

/-- Distinct words from `pos` to `stop`. -/
def WordsAt (bs : Bytes) (pos : Nat) (words : List PyStr) (stop : Nat) : Prop :=
  words.Nodup ∧ (∀ w ∈ words, Storable w) ∧ words.length < 2 ^ 64 ∧
    HasAt bs pos (words.flatMap str) ∧ stop = pos + (words.flatMap str).length

/-- A vocabulary chunk from `pos` to `stop`, which needs a matrix with `rows` rows. -/
inductive VocabAt (bs : Bytes) (pos : Nat) : Vocab → (rows stop : Nat) → Prop
  /-- chunk 1: words -/
  | simple {words : List PyStr} {stop : Nat} (head : Head bs pos 1)
      (count : HasAt bs (pos + 12) (uint 8 words.length))
      (words_at : WordsAt bs (pos + 20) words stop) :
      VocabAt bs pos ⟨words, words.zipIdx, none⟩ words.length stop
  /-- chunk 3: words and `2 ^ exp` buckets -/
  | bucket {words : List PyStr} {mn mx exp stop : Nat} (head : Head bs pos 3)
      (fields : HasAt bs (pos + 12)
        (uint 8 words.length ++ uint 4 mn ++ uint 4 mx ++ uint 4 exp))
      (words_at : WordsAt bs (pos + 32) words stop)
      (min_pos : 0 < mn) (min_max : mn ≤ mx) (max_lt : mx < 2 ^ 32)
      (exp_pos : 0 < exp) (exp_lt : exp < 64) :
      VocabAt bs pos ⟨words, words.zipIdx, some (.fifu ⟨exp, mn, mx⟩)⟩ (words.length + 2 ^ exp) stop
  /-- chunk 7: words and `buckets` buckets -/
  | fastText {words : List PyStr} {mn mx buckets stop : Nat} (head : Head bs pos 7)
      (fields : HasAt bs (pos + 12)
        (uint 8 words.length ++ uint 4 mn ++ uint 4 mx ++ uint 4 buckets))
      (words_at : WordsAt bs (pos + 32) words stop)
      (min_pos : 0 < mn) (min_max : mn ≤ mx) (max_lt : mx < 2 ^ 32)
      (buckets_pos : 0 < buckets) (buckets_lt : buckets < 2 ^ 32) :
      VocabAt bs pos ⟨words, words.zipIdx, some (.ft ⟨buckets, mn, mx⟩)⟩
        (words.length + buckets) stop
  /-- chunk 8: words, and at least one n-gram; the indices of the n-grams are exactly the
  numbers below `bound` -/
  | explicit {words : List PyStr} {grams : List (PyStr × Nat)} {mn mx bound mid stop : Nat}
      (head : Head bs pos 8)
      (fields : HasAt bs (pos + 12)
        (uint 8 words.length ++ uint 8 grams.length ++ uint 4 mn ++ uint 4 mx))
      (words_at : WordsAt bs (pos + 36) words mid)
      (min_pos : 0 < mn) (min_max : mn ≤ mx) (max_lt : mx < 2 ^ 32)
      (nonempty : grams ≠ []) (nodup : (grams.map Prod.fst).Nodup)
      (count_lt : grams.length < 2 ^ 64)
      (storable : ∀ g ∈ grams, Storable g.1 ∧ g.2 < 2 ^ 64)
      (covers : ∀ i, i < bound ↔ i ∈ grams.map Prod.snd)
      (grams_at : HasAt bs mid (grams.flatMap fun g => str g.1 ++ uint 8 g.2))
      (stop_eq : stop = mid + (grams.flatMap fun g => str g.1 ++ uint 8 g.2).length) :
      VocabAt bs pos ⟨words, words.zipIdx, some (.expl ⟨grams.map Prod.fst, mn, mx,
        grams.map fun g => (g.1, (g.2 : Int)), (bound : Int)⟩)⟩ (words.length + bound) stop

/-- An optional float array. -/
def optFloats : Option (List F32) → Bytes
  | none => []
  | some xs => floats xs

/-- A storage chunk from `pos` to `stop`: rows, columns, type, padding, elements; or a product
quantizer with optional projection and norms, and the codes.  The flags are arbitrary non-zero
numbers. -/
inductive StorageAt (bs : Bytes) (pos : Nat) : Storage F32 → (stop : Nat) → Prop
  /-- chunk 2 -/
  | nd {m : Mat F32} {pad stop : Nat} (head : Head bs pos 2)
      (fields : HasAt bs (pos + 12) (uint 8 m.rows.length ++ uint 4 m.cols ++ uint 4 10))
      (rows_lt : m.rows.length < 2 ^ 64) (cols_lt : m.cols < 2 ^ 32)
      (shape : ∀ r ∈ m.rows, r.length = m.cols) (fits : ShapeOk m.rows.length m.cols)
      (pad_ok : Pad (pos + 28) pad)
      (elements : HasAt bs (pos + 28 + pad) (floats m.rows.flatten))
      (stop_eq : stop = pos + 28 + pad + 4 * (m.rows.length * m.cols)) :
      StorageAt bs pos (.nd m) stop
  /-- chunk 4 -/
  | quant {q : QArr F32} {pf nf pad stop : Nat} (head : Head bs pos 4)
      (fields : HasAt bs (pos + 12) (uint 4 pf ++ uint 4 nf ++ uint 4 q.qlen ++
        uint 4 q.pq.reconstructedLen ++ uint 4 q.pq.nCentroids ++ uint 8 q.codes.length ++
        uint 4 1 ++ uint 4 10))
      (pf_lt : pf < 2 ^ 32) (nf_lt : nf < 2 ^ 32) (qlen_lt : q.qlen < 2 ^ 32)
      (rec_lt : q.pq.reconstructedLen < 2 ^ 32) (cents_lt : q.pq.nCentroids < 2 ^ 32)
      (count_lt : q.codes.length < 2 ^ 64)
      (projected : pf ≠ 0 ↔ q.pq.projection.isSome) (normed : nf ≠ 0 ↔ q.norms.isSome)
      (shape : QWF q)
      (pad_ok : Pad (pos + 48) pad)
      (elements : HasAt bs (pos + 48 + pad) (optFloats (q.pq.projection.map fun m => m.rows.flatten) ++
        floats (q.pq.quantizers.map List.flatten).flatten ++ optFloats q.norms ++ q.codes.flatten))
      (stop_eq : stop = pos + 48 + pad + (optFloats (q.pq.projection.map fun m => m.rows.flatten) ++
        floats (q.pq.quantizers.map List.flatten).flatten ++ optFloats q.norms ++
        q.codes.flatten).length) :
      StorageAt bs pos (.quant q) stop

/-- Nothing after the storage, or chunk 6 with one norm per word.  The number of norms may be
overstated if the file ends after them. -/
def NormsAt (bs : Bytes) (pos words : Nat) (norms : Option (List F32)) : Prop :=
  match norms with
  | none => bs.length ≤ pos
  | some xs => ∃ n pad, Head bs pos 6 ∧ HasAt bs (pos + 12) (uint 8 n ++ uint 4 10) ∧
      Pad (pos + 24) pad ∧ xs.length = words ∧ HasAt bs (pos + 24 + pad) (floats xs) ∧
      4 * n < 2 ^ 63 ∧ (n = words ∨ words < n ∧ bs.length < pos + 24 + pad + 4 * words + 4)

/-- The matrix has no elements. -/
def Empty : Storage F32 → Prop
  | .nd m => m.rows.length * m.cols = 0
  | .quant q => q.codes.length = 0

/-- An empty matrix can be mapped only if its place lies inside the file, and is not a page
boundary at the end of the file. -/
def Mappable (bs : Bytes) (st : Storage F32) (stop : Nat) : Prop :=
  Empty st → stop ≤ bs.length ∧ (stop % 4096 ≠ 0 ∨ stop < bs.length)

/-- The file `bs` contains the embeddings `e`; `mmap`: and the matrix can be mapped. -/
def File (T : Toml) (mmap : Bool) (bs : Bytes) (e : Embeddings F32) : Prop :=
  ∃ p1 p2 p3 p4, HeaderAt bs p1 ∧ MetaAt T bs p1 e.metadata p2 ∧
    VocabAt bs p2 e.vocab e.storage.nRows p3 ∧ StorageAt bs p3 e.storage p4 ∧
    NormsAt bs p4 e.vocab.words.length e.norms ∧ (mmap → Mappable bs e.storage p4)

/-! ### What is written -/

/-- Identifier, announced length, content. -/
def chunk (id len : Nat) (content : Bytes) : Bytes := uint 4 id ++ uint 8 len ++ content

/-- Header with the identifiers of the chunks. -/
def header (ids : List Nat) : Bytes :=
  [0x46, 0x69, 0x46, 0x75] ++ uint 4 0 ++ uint 4 ids.length ++ ids.flatMap (uint 4)

/-- Zero bytes. -/
def zero (n : Nat) : Bytes := List.replicate n 0

/-- `MetaOut T md ids bs`: the metadata chunk, if any. -/
inductive MetaOut (T : Toml) : Option Meta → List Nat → Bytes → Prop
  | none : MetaOut T none [] []
  | some {m : Meta} {text : PyStr} (dumps : T.dumps m = .ok text)
      (encodable : ∀ c ∈ text, c.val < 0xD800 ∨ 0xDFFF < c.val) :
      MetaOut T (some m) [5] (chunk 5 (utf8 text).length (utf8 text))

/-- The words can be stored. -/
def WordsFit (words : List PyStr) : Prop := (∀ w ∈ words, Storable w) ∧ words.length < 2 ^ 64

/-- `VocabOut v id bs`: the vocabulary chunk.  The length announced for a vocabulary with explicit
n-grams leaves out the eight bytes of each n-gram index. -/
inductive VocabOut : Vocab → Nat → Bytes → Prop
  | simple {words : List PyStr} {index : Dict PyStr Nat} {content : Bytes} (fit : WordsFit words)
      (content_eq : content = uint 8 words.length ++ words.flatMap str) :
      VocabOut ⟨words, index, none⟩ 1 (chunk 1 content.length content)
  | bucket {words : List PyStr} {index : Dict PyStr Nat} {exp mn mx : Nat} {content : Bytes}
      (fit : WordsFit words) (mn_lt : mn < 2 ^ 32) (mx_lt : mx < 2 ^ 32) (exp_lt : exp < 2 ^ 32)
      (content_eq : content =
        uint 8 words.length ++ uint 4 mn ++ uint 4 mx ++ uint 4 exp ++ words.flatMap str) :
      VocabOut ⟨words, index, some (.fifu ⟨exp, mn, mx⟩)⟩ 3 (chunk 3 content.length content)
  | fastText {words : List PyStr} {index : Dict PyStr Nat} {buckets mn mx : Nat} {content : Bytes}
      (fit : WordsFit words) (mn_lt : mn < 2 ^ 32) (mx_lt : mx < 2 ^ 32)
      (buckets_lt : buckets < 2 ^ 32)
      (content_eq : content =
        uint 8 words.length ++ uint 4 mn ++ uint 4 mx ++ uint 4 buckets ++ words.flatMap str) :
      VocabOut ⟨words, index, some (.ft ⟨buckets, mn, mx⟩)⟩ 7 (chunk 7 content.length content)
  | explicit {words : List PyStr} {index : Dict PyStr Nat} {ix : ExplIndexer}
      {grams : List (PyStr × Nat)} {content : Bytes} {len : Nat}
      (fit : WordsFit words) (mn_lt : ix.minN < 2 ^ 32) (mx_lt : ix.maxN < 2 ^ 32)
      (count_lt : grams.length < 2 ^ 64)
      (names : grams.map Prod.fst = ix.ngrams)
      (grams_ok : ∀ g ∈ grams, Storable g.1 ∧ g.2 < 2 ^ 64 ∧ Dict.get? ix.index g.1 = some (g.2 : Int))
      (content_eq : content =
        uint 8 words.length ++ uint 8 grams.length ++ uint 4 ix.minN ++ uint 4 ix.maxN ++
          words.flatMap str ++ grams.flatMap fun g => str g.1 ++ uint 8 g.2)
      (len_eq : len + 8 * grams.length = content.length) :
      VocabOut ⟨words, index, some (.expl ix)⟩ 8 (chunk 8 len content)

/-- `StorageOut pos st id bs`: the storage chunk at position `pos`. -/
inductive StorageOut (pos : Nat) : Storage F32 → Nat → Bytes → Prop
  | nd {m : Mat F32} {pad : Nat} {content : Bytes}
      (rows_lt : m.rows.length < 2 ^ 64) (cols_lt : m.cols < 2 ^ 32) (pad_ok : Pad (pos + 28) pad)
      (content_eq : content = uint 8 m.rows.length ++ uint 4 m.cols ++ uint 4 10 ++ zero pad ++
        floats m.rows.flatten) :
      StorageOut pos (.nd m) 2 (chunk 2 content.length content)
  | quant {q : QArr F32} {pf nf pad : Nat} {content : Bytes} (qlen_lt : q.qlen < 2 ^ 32)
      (rec_lt : q.pq.reconstructedLen < 2 ^ 32) (cents_lt : q.pq.nCentroids < 2 ^ 32)
      (count_lt : q.codes.length < 2 ^ 64)
      (projected : pf = if q.pq.projection.isSome then 1 else 0)
      (normed : nf = if q.norms.isSome then 1 else 0)
      (pad_ok : Pad (pos + 48) pad)
      (content_eq : content = uint 4 pf ++ uint 4 nf ++ uint 4 q.qlen ++
        uint 4 q.pq.reconstructedLen ++ uint 4 q.pq.nCentroids ++ uint 8 q.codes.length ++
        uint 4 1 ++ uint 4 10 ++ zero pad ++ optFloats (q.pq.projection.map fun m => m.rows.flatten) ++
        floats (q.pq.quantizers.map List.flatten).flatten ++ optFloats q.norms ++ q.codes.flatten) :
      StorageOut pos (.quant q) 4 (chunk 4 content.length content)

/-- `NormsOut pos norms ids bs`: the norms chunk at position `pos`, if any. -/
inductive NormsOut (pos : Nat) : Option (List F32) → List Nat → Bytes → Prop
  | none : NormsOut pos none [] []
  | some {xs : List F32} {pad : Nat} {content : Bytes} (count_lt : xs.length < 2 ^ 64)
      (pad_ok : Pad (pos + 24) pad)
      (content_eq : content = uint 8 xs.length ++ uint 4 10 ++ zero pad ++ floats xs) :
      NormsOut pos (some xs) [6] (chunk 6 content.length content)

/-- The bytes of the file for the embeddings `e`. -/
def Out (T : Toml) (e : Embeddings F32) (bs : Bytes) : Prop :=
  ∃ mi vi si ni h m v s n, MetaOut T e.metadata mi m ∧ VocabOut e.vocab vi v ∧
    h = header (mi ++ [vi, si] ++ ni) ∧
    StorageOut (h ++ m ++ v).length e.storage si s ∧
    NormsOut (h ++ m ++ v ++ s).length e.norms ni n ∧ bs = h ++ m ++ v ++ s ++ n

end FF.Fifu
