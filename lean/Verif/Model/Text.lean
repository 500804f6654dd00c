import Verif.Model.Word2Vec
import Verif.Model.TextIO
/-!
# Text formats
compat/text.py

Newlines are not translated on output (POSIX).
-/

namespace FF

/-- `str(x)` of a float32 scalar and the conversion of a string to float32 done by numpy when a
list of strings is assigned to a row. -/
class NumText (K : Type) where
  str : K → PyStr
  parse : PyStr → Res K

section
variable {K : Type} [NumOps K] [NumText K]

omit [NumOps K] in
/-- text.py:147-149, the loop body of `_load_text` -/
def textRow (cols : Nat) (line : PyStr) : Res (PyStr × List K) :=
  match reSplit (rstrip line) with
  | [] => .error .indexError
  | w :: ps => do
    let xs ← mapRes NumText.parse ps
    let row ← assignRow cols xs
    return (w, row)

omit [NumOps K] in
/-- text.py:146, the loop over `zip(matrix, file)`: it ends with the shorter of the two and asks for a line
only if there is a row.  `stop` is the exception after the last line, if any. -/
def textRows (cols : Nat) (stop : Option PyErr) : Nat → List PyStr → Res (List (PyStr × List K))
  | 0, _ => .ok []
  | _ + 1, [] =>
    match stop with
    | none => .ok []
    | some x => .error x
  | n + 1, line :: lines => do
    let r ← textRow cols line
    let rs ← textRows cols stop n lines
    return r :: rs

/-- text.py:143-154 `_load_text`; rows for which there is no line stay zero -/
def loadTextLines (file : Lines) (rows cols : Int) : Res (Embeddings K) := do
  let shape ← zerosShape rows cols
  let rs ← textRows shape.2 file.stop shape.1 file.lines
  let raw := rs.map Prod.snd ++
    List.replicate (shape.1 - rs.length) (List.replicate shape.2 NumOps.zero)
  let (matrix, norms) := normalizeMatrix raw
  let vocab ← Vocab.new (rs.map Prod.fst) none
  Embeddings.new (.nd ⟨shape.2, matrix⟩) vocab (some norms) none

/-- `next(file)`; `none` stands for `StopIteration`. -/
def Lines.next (file : Lines) : Res (Option (PyStr × Lines)) :=
  match file.lines, file.stop with
  | [], none => .ok none
  | [], some x => .error x
  | l :: ls, stop => .ok (some (l, ⟨ls, stop⟩))

/-- text.py:19-46 `load_text_dims` -/
def loadTextDims [TextIO] (lossy : Bool) (bs : Bytes) : Res (Embeddings K) := do
  match ← (textLines lossy bs).next with
  | none => .error .stopIteration
  | some (first, file) => do
    let dims ← twoInts first
    loadTextLines file dims.1 dims.2

/-- text.py:49-87 `load_text`: the file is read twice, the first time to count the lines. -/
def loadText [TextIO] (lossy : Bool) (bs : Bytes) : Res (Embeddings K) := do
  match ← (textLines lossy bs).next with
  | none => .error .valueError
  | some (first, file) => do
    let cols := (reSplit (rstrip first)).length - 1
    let lines ← file.all
    let rows := lines.length + 1
    loadTextLines (textLines lossy bs) rows cols

/-- `' '.join(parts)` -/
def joinSp : List PyStr → PyStr
  | [] => []
  | [p] => p
  | p :: ps => p ++ 32 :: joinSp ps

/-- `outf.write(s)` in text mode -/
def writeStr (s : PyStr) : Wr Unit := do
  let b ← Wr.lift (encode s)
  Wr.bytes b

/-- text.py:166-170, the loop over the words; `print` writes its arguments one by one. -/
def textWriteRows (matrix : Storage K) (norms : Option (List K)) (sep : PyStr) :
    Nat → List PyStr → Wr Unit
  | _, [] => pure ()
  | idx, word :: words => do
    let row ← Wr.lift (exportRow matrix norms idx)
    writeStr word
    writeStr sep
    writeStr (joinSp (row.map NumText.str))
    writeStr [10]
    textWriteRows matrix norms sep (idx + 1) words

/-- text.py:157-170 `_write_text`; `write_text` and `write_text_dims` (90-140) only fix `dims`. -/
def writeText (dims : Bool) (e : Embeddings K) (sep : PyStr) : Wr Unit := do
  let matrix ← Wr.lift (e.storage.slice (.upTo e.vocab.len))
  if dims then writeStr (dimsLine matrix.nRows matrix.nCols)
  textWriteRows matrix e.norms sep 0 e.vocab.words

end

end FF
