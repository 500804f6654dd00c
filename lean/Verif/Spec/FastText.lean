import Verif.Model.FastText
import Verif.Spec.Compat
import Verif.Spec.Ngrams
/-!
# The fastText format
-/

namespace FF

/-- A signed integer as little-endian two's complement with `w` bytes. -/
def sle (w : Nat) (i : Int) : Bytes := le w (if 0 ≤ i then i.toNat else (i + 256 ^ w).toNat)

/-- `i` is a 32-bit integer. -/
def Int32Ok (i : Int) : Prop := -(2 ^ 31) ≤ i ∧ i < 2 ^ 31

/-- `i` is a 64-bit integer. -/
def Int64Ok (i : Int) : Prop := -(2 ^ 63) ≤ i ∧ i < 2 ^ 63

/-- The content of a fastText model file: the arguments, the dictionary, the input matrix and
whatever follows it. -/
structure FtFile where
  dims : Int
  windowSize : Int
  epoch : Int
  minCount : Int
  ns : Int
  wordNgrams : Int
  loss : Fin 3
  model : Fin 3
  buckets : Nat
  minN : Nat
  maxN : Nat
  lrUpdateRate : Int
  samplingThreshold : UInt64
  nWords : Int
  nTokens : Int
  prune : Int
  words : List (PyStr × Int)
  cols : Nat
  rows : List (List F32)
  output : Bytes

/-- Magic number and version. -/
def FtFile.headerBytes : Bytes := sle 4 793712314 ++ sle 4 12

/-- The arguments: twelve 32-bit integers and a double; the names of loss and model count from
one. -/
def FtFile.cfgBytes (f : FtFile) : Bytes :=
  sle 4 f.dims ++ sle 4 f.windowSize ++ sle 4 f.epoch ++ sle 4 f.minCount ++ sle 4 f.ns ++
  sle 4 f.wordNgrams ++ sle 4 (f.loss.val + 1 : Nat) ++ sle 4 (f.model.val + 1 : Nat) ++
  sle 4 f.buckets ++ sle 4 f.minN ++ sle 4 f.maxN ++ sle 4 f.lrUpdateRate ++
  le 8 f.samplingThreshold.toNat

/-- A word: its UTF-8 bytes, a zero byte, its frequency and its type. -/
def ftWordBytes (p : PyStr × Int) : Bytes := utf8 p.1 ++ [0] ++ sle 8 p.2 ++ [0]

/-- The dictionary: sizes (no labels), tokens, pruning, entries. -/
def FtFile.dictBytes (f : FtFile) : Bytes :=
  sle 4 f.words.length ++ sle 4 f.nWords ++ sle 4 0 ++ sle 8 f.nTokens ++ sle 8 f.prune ++
  f.words.flatMap ftWordBytes

/-- The input matrix, not quantized. -/
def FtFile.matrixBytes (f : FtFile) : Bytes :=
  [0] ++ sle 8 f.rows.length ++ sle 8 f.cols ++ f32sLE f.rows.flatten

def FtFile.bytes (f : FtFile) : Bytes :=
  FtFile.headerBytes ++ f.cfgBytes ++ f.dictBytes ++ f.matrixBytes ++ f.output

/-- Files of unsupervised, unpruned and unquantized models with subwords. -/
structure FtFile.OK (f : FtFile) : Prop where
  ints : Int32Ok f.dims ∧ Int32Ok f.windowSize ∧ Int32Ok f.epoch ∧ Int32Ok f.minCount ∧
    Int32Ok f.ns ∧ Int32Ok f.wordNgrams ∧ Int32Ok f.lrUpdateRate ∧ Int32Ok f.nWords ∧
    Int64Ok f.nTokens ∧ Int64Ok f.prune ∧ ∀ p ∈ f.words, Int64Ok p.2
  buckets : 0 < f.buckets ∧ f.buckets < 2 ^ 31
  range : 0 < f.minN ∧ f.minN ≤ f.maxN ∧ f.maxN < 2 ^ 31
  prune : f.prune < 0
  count : f.words.length < 2 ^ 31
  nul : ∀ p ∈ f.words, ∀ c ∈ p.1, c.val ≠ 0
  text : ∀ p ∈ f.words, ∀ c ∈ p.1, c.val < 0xD800 ∨ 0xDFFF < c.val
  nodup : (f.words.map Prod.fst).Nodup
  shape : f.rows.length = f.words.length + f.buckets
  cols : ∀ r ∈ f.rows, r.length = f.cols
  size : ShapeOk f.rows.length f.cols

/-- The names of the loss functions. -/
def ftLossName : Fin 3 → PyStr
  | 0 => ascii "HierarchicalSoftmax".toList
  | 1 => ascii "NegativeSampling".toList
  | 2 => ascii "Softmax".toList

/-- The names of the models. -/
def ftModelName : Fin 3 → PyStr
  | 0 => ascii "CBOW".toList
  | 1 => ascii "SkipGram".toList
  | 2 => ascii "Supervised".toList

/-- The metadata of the file. -/
def FtFile.meta (f : FtFile) : Meta :=
  [(ascii "dims".toList, .int f.dims),
   (ascii "window_size".toList, .int f.windowSize),
   (ascii "epoch".toList, .int f.epoch),
   (ascii "min_count".toList, .int f.minCount),
   (ascii "ns".toList, .int f.ns),
   (ascii "word_ngrams".toList, .int f.wordNgrams),
   (ascii "loss".toList, .str (ftLossName f.loss)),
   (ascii "model".toList, .str (ftModelName f.model)),
   (ascii "buckets".toList, .int f.buckets),
   (ascii "min_n".toList, .int f.minN),
   (ascii "max_n".toList, .int f.maxN),
   (ascii "lr_update_rate".toList, .int f.lrUpdateRate),
   (ascii "sampling_threshold".toList, .float f.samplingThreshold)]

/-- The rows of the n-grams of `w`: one bucket per n-gram occurrence, after `n` words. -/
def FtSubwords (ix : FtIndexer) (n : Nat) (w : PyStr) (is : List Nat) : Prop :=
  ∃ gs, NgramsOf (wrap true w) ix.minN ix.maxN gs ∧
    List.Forall₂ (fun g i => ∃ k, ix.call g = .ok k ∧ i = n + k) gs is

section
variable {K : Type} [NumOps K]

/-- Sum from left to right. -/
def numSum : List K → K
  | [] => NumOps.zero
  | x :: xs => xs.foldl NumOps.add x

/-- `s` is the component-wise sum of the rows. -/
def IsSum (cols : Nat) (rows : List (List K)) (s : List K) : Prop :=
  s.length = cols ∧ ∀ t, t < cols → ∃ ys, rows.map (fun r => r[t]?) = ys.map some ∧
    s[t]? = some (numSum ys)

/-- `mean` is the component-wise mean of the rows. -/
def IsMean (cols : Nat) (rows : List (List K)) (mean : List K) : Prop :=
  ∃ s, IsSum cols rows s ∧
    mean = s.map fun x => NumOps.div x (NumOps.ofNat rows.length)

/-- What `load_fasttext` returns for the matrix `raw` of a file: for every word the mean of its
row and the rows of its n-grams, divided by its norm; the norms; the other rows unchanged. -/
def FtLoaded (f : FtFile) (raw : List (List K)) (e : Embeddings K) : Prop :=
  e.vocab.words = f.words.map Prod.fst ∧ e.vocab.sub = some (.ft ⟨f.buckets, f.minN, f.maxN⟩) ∧
  BuiltEmb e ∧ e.metadata = some f.meta ∧
  ∃ rows norms, e.storage = .nd ⟨f.cols, rows⟩ ∧ e.norms = some norms ∧
    rows.length = raw.length ∧ norms.length = f.words.length ∧
    (∀ j : Nat, f.words.length ≤ j → rows[j]? = raw[j]?) ∧
    ∀ (i : Nat) w, (f.words.map Prod.fst)[i]? = some w →
      ∃ is sel mean, FtSubwords ⟨f.buckets, f.minN, f.maxN⟩ f.words.length w is ∧
        List.Forall₂ (fun j r => raw[j]? = some r) (i :: is) sel ∧ IsMean f.cols sel mean ∧
        norms[i]? = some (NumOps.normAxis mean) ∧
        rows[i]? = some (mean.map fun x => NumOps.div x (NumOps.normAxis mean))

/-- The vector `write_fasttext` writes for word `i`: its row times (number of n-grams + 1) times
its norm, minus the rows of its n-grams. -/
def FtRaw (ix : FtIndexer) (n : Nat) (m : Mat K) (norms : Option (List K)) (i : Nat) (w : PyStr)
    (v : List K) : Prop :=
  ∃ is row sel s, FtSubwords ix n w is ∧ m.rows[i]? = some row ∧
    List.Forall₂ (fun j r => m.rows[j]? = some r) is sel ∧ IsSum m.cols sel s ∧
    v.length = m.cols ∧
    ∀ (t : Nat) x y, row[t]? = some x → s[t]? = some y →
      match norms with
      | none => v[t]? = some (NumOps.sub (NumOps.mul x (NumOps.ofNat (is.length + 1))) y)
      | some ns => ∃ c, ns[i]? = some c ∧
          v[t]? = some (NumOps.sub (NumOps.mul (NumOps.mul x (NumOps.ofNat (is.length + 1))) c) y)

end

/-- The file `write_fasttext` writes, given the vectors of the words and of the buckets as float32
values: parameters the embeddings do not have are zero or one, and the whole storage follows. -/
def ftExport (ix : FtIndexer) (words : List PyStr) (cols : Nat) (wordRows bucketRows : List (List F32))
    (storage : List F32) : FtFile where
  dims := cols
  windowSize := 0
  epoch := 0
  minCount := 0
  ns := 0
  wordNgrams := 1
  loss := 0
  model := 0
  buckets := ix.nBuckets
  minN := ix.minN
  maxN := ix.maxN
  lrUpdateRate := 0
  samplingThreshold := 0
  nWords := words.length
  nTokens := 0
  prune := -1
  words := words.map fun w => (w, 0)
  cols := cols
  rows := wordRows ++ bucketRows
  output := f32sLE storage

end FF
