import Verif.Model.Lookup
import Verif.Model.PyText
/-!
# word2vec binary format
compat/word2vec.py, _util.py
-/

namespace FF

/-- Conversion between scalars and `float32` bit patterns. -/
class Codec (K : Type) where
  bits : K → F32
  ofBits : F32 → K

instance : Codec F32 := ⟨id, id⟩

/-- `file.readline()` on the bytes from the current position -/
def takeLine : Bytes → Bytes
  | [] => []
  | b :: bs => if b = 10 then [b] else b :: takeLine bs

/-- `inf.readline()` -/
def readLine : Rd Bytes := fun s =>
  let l := takeLine (s.data.drop s.pos)
  .ok (l, ⟨s.data, s.pos + l.length⟩)

/-- The bytes before the first `d`, if there is one. -/
def takeUntil (d : UInt8) : Bytes → Option Bytes
  | [] => none
  | b :: bs => if b = d then some [] else (takeUntil d bs).map (b :: ·)

/-- The byte-wise loops of word2vec.py:104-111 and fasttext.py:166-173: everything up to the
delimiter, which is consumed, too; `EOFError` without delimiter. -/
def readDelim (d : UInt8) : Rd Bytes := fun s =>
  match takeUntil d (s.data.drop s.pos) with
  | none => .error .eofError
  | some w => .ok (w, ⟨s.data, s.pos + w.length + 1⟩)

section
variable {K : Type}

/-- `row[:] = xs` for a row of length `cols`: a sequence of length one is broadcast, other lengths
are a `ValueError`. -/
def assignRow (cols : Nat) (xs : List K) : Res (List K) :=
  if xs.length = cols then .ok xs
  else
    match xs with
    | [x] => .ok (List.replicate cols x)
    | _ => .error .valueError

variable [NumOps K]

/-- _util.py:9-12 `_normalize_matrix`: the rows divided by their norms, and the norms -/
def normalizeMatrix (rows : List (List K)) : List (List K) × List K :=
  (rows.map fun r => vdiv r (NumOps.normAxis r), rows.map NumOps.normAxis)

variable [Codec K]

/-- word2vec.py:46-52, the loop over the rows -/
def w2vRows (lossy : Bool) (cols : Nat) : Nat → Rd (List (PyStr × List K))
  | 0 => pure []
  | n + 1 => do
    let bs ← readDelim 32
    let word ← Rd.lift (decodeLossy lossy bs)
    let array ← fromFileF32 cols
    let row ← Rd.lift (assignRow cols (array.map Codec.ofBits))
    let rest ← w2vRows lossy cols n
    return (strip word, row) :: rest

/-- word2vec.py:18-57 `load_word2vec` -/
def loadWord2vec (lossy : Bool) : Rd (Embeddings K) := do
  let line ← readLine
  let header ← Rd.lift (decodeAscii line)
  let dims ← Rd.lift (twoInts header)
  let shape ← Rd.lift (zerosShape dims.1 dims.2)
  let rows ← w2vRows lossy shape.2 shape.1
  let (matrix, norms) := normalizeMatrix (rows.map Prod.snd)
  let vocab ← Rd.lift (Vocab.new (rows.map Prod.fst) none)
  Rd.lift (Embeddings.new (.nd ⟨shape.2, matrix⟩) vocab (some norms) none)

omit [Codec K] in
/-- word2vec.py:92-94, text.py:167-169: row `idx` of the words, scaled by its norm -/
def exportRow (matrix : Storage K) (norms : Option (List K)) (idx : Nat) : Res (List K) := do
  let row ← matrix.getOne idx
  match norms with
  | none => return row
  | some ns => do
    let n ← npGet ns idx
    return row.map fun x => NumOps.mul x n

/-- word2vec.py:91-100, the loop over the words -/
def w2vWriteRows (matrix : Storage K) (norms : Option (List K)) : Nat → List PyStr → Wr Unit
  | _, [] => pure ()
  | idx, word :: words => do
    let row ← Wr.lift (exportRow matrix norms idx)
    let bWord ← Wr.lift (encode word)
    Wr.bytes bWord
    Wr.bytes [32]
    Wr.bytes (f32sLE (row.map Codec.bits))
    Wr.bytes [10]
    w2vWriteRows matrix norms (idx + 1) words

/-- `f'{rows} {cols}\n'` -/
def dimsLine (rows cols : Nat) : PyStr := decimal rows ++ [32] ++ decimal cols ++ [10]

/-- word2vec.py:60-100 `write_word2vec`; the dimensions are ASCII, for which UTF-8 is the same
encoding -/
def writeWord2vec (e : Embeddings K) : Wr Unit := do
  let matrix ← Wr.lift (e.storage.slice (.upTo e.vocab.len))
  Wr.bytes (utf8 (dimsLine matrix.nRows matrix.nCols))
  w2vWriteRows matrix e.norms 0 e.vocab.words

end

end FF
