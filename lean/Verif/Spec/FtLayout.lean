import Verif.Spec.FastText
import Verif.Spec.Utf8
/-!
# The layout of fastText files of supported models
-/

namespace FF

/-- The fields of a fastText file of an unsupervised, unquantized model, without any assumption about
their values except that they are stored in the file. -/
structure FtLayout where
  args : List Int
  threshold : UInt64
  nEntries : Int
  nWords : Int
  nTokens : Int
  prune : Int
  entries : List (Bytes × Int)
  rows : Int
  cols : Int
  rest : Bytes

/-- An entry of the dictionary: bytes up to a zero byte, frequency, type (0: word). -/
def ftEntryBytes (p : Bytes × Int) : Bytes := p.1 ++ [0] ++ sle 8 p.2 ++ [0]

/-- Magic number, version, arguments, sizes of the dictionary (no labels), entries, quantization flag
(no), dimensions of the matrix; the matrix is at the beginning of `rest`. -/
def FtLayout.bytes (L : FtLayout) : Bytes :=
  sle 4 793712314 ++ sle 4 12 ++ L.args.flatMap (sle 4) ++ le 8 L.threshold.toNat ++
  sle 4 L.nEntries ++ sle 4 L.nWords ++ sle 4 0 ++ sle 8 L.nTokens ++ sle 8 L.prune ++
  L.entries.flatMap ftEntryBytes ++ [0] ++ sle 8 L.rows ++ sle 8 L.cols ++ L.rest

/-- The fields have the sizes of the format and there are as many as announced. -/
structure FtLayout.Fits (L : FtLayout) : Prop where
  count : L.args.length = 12
  args : ∀ a ∈ L.args, Int32Ok a
  sizes : Int32Ok L.nEntries ∧ Int32Ok L.nWords
  longs : Int64Ok L.nTokens ∧ Int64Ok L.prune ∧ Int64Ok L.rows ∧ Int64Ok L.cols
  freqs : ∀ p ∈ L.entries, Int64Ok p.2
  nul : ∀ p ∈ L.entries, (0 : UInt8) ∉ p.1
  entries : L.entries.length = L.nEntries.toNat

/-- The number that names the `i`-th loss function or model: counted from 1, or from the end with the last
at 0. -/
def FtNumber (n : Int) (i : Fin 3) : Prop := n = (i.val : Int) + 1 ∨ n = (i.val : Int) - 2

/-- The values of a matrix announced as `rows × cols`, with `more` bytes behind it.  If one of the numbers
is negative, the matrix is the rest of the file, up to three bytes, in rows or columns of the other
number. -/
def FtMatrix (rows cols : Int) (rest : Bytes) (c : Nat) (m : List (List F32)) (more : Bytes) : Prop :=
  rest = f32sLE m.flatten ++ more ∧
    ((rows = (m.length : Int) ∧ cols = (c : Int)) ∨
     (more.length < 4 ∧ -(2 ^ 63) ≤ rows * cols ∧
       ((rows < 0 ∧ 0 < c ∧ cols = (c : Int)) ∨ (cols < 0 ∧ m ≠ [] ∧ rows = (m.length : Int)))))

/-- The model that a file of this layout stands for. -/
structure FtLayout.Reads (L : FtLayout) (lossy : Bool) (f : FtFile) : Prop where
  args : ∃ loss model : Int, L.args = [f.dims, f.windowSize, f.epoch, f.minCount, f.ns, f.wordNgrams, loss,
    model, (f.buckets : Int), (f.minN : Int), (f.maxN : Int), f.lrUpdateRate] ∧
    FtNumber loss f.loss ∧ FtNumber model f.model
  threshold : L.threshold = f.samplingThreshold
  sizes : L.nWords = f.nWords ∧ L.nTokens = f.nTokens ∧ L.prune = f.prune
  words : List.Forall₂ (fun p q => DecodesTo lossy p.1 q.1 ∧ p.2 = q.2) L.entries f.words
  matrix : FtMatrix L.rows L.cols L.rest f.cols f.rows f.output

end FF
