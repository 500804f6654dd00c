import Verif.Model.PyText
/-!
# Text files
`open(path, encoding='utf8', errors=…)` and iteration over the lines, as used in compat/text.py:42-46,
76-87, 146, scripts/select.py:43-44, scripts/similar.py:34-35, scripts/analogy.py:47-48.

CPython reads a text file in pieces (`io.TextIOWrapper`): when no complete line is left in the decoded
text it reads a piece of the file (an empty one means the end), passes it to the incremental decoder of
UTF-8 and to `io.IncrementalNewlineDecoder` (universal newlines), and appends the result to the decoded
text.  The lines before a malformed sequence are therefore delivered if they do not share a piece with it.
The sizes of the pieces depend on the platform and on the kind of file; they are a parameter.
-/

namespace FF

/-- How the content of a file is delivered piece by piece. -/
class TextIO where
  cut : Bytes → List Bytes
  flatten_cut : ∀ bs, (cut bs).flatten = bs
  cut_ne : ∀ bs, ∀ p ∈ cut bs, p ≠ []

/-- The bytes `b :: bs`, at which a step of the decoder has failed after `k` further bytes, may become a
character with bytes yet to come. -/
def unfinished (b : UInt8) (bs : Bytes) (k : Nat) : Bool :=
  0xC2 ≤ b.toNat && b.toNat < 0xF5 && bs.length == k

/-- The incremental decoder of UTF-8 with `final=False`: the characters, and the bytes it keeps for the
next call, which are an incomplete sequence at the end.  The second argument is the number of bytes still
to be skipped. -/
def decodePartAux (lossy : Bool) : Nat → Bytes → Res (PyStr × Bytes)
  | _, [] => .ok ([], [])
  | k + 1, _ :: bs => decodePartAux lossy k bs
  | 0, b :: bs =>
    match utf8Step b bs with
    | .good c k => do
      let r ← decodePartAux lossy k bs
      return (toCode c :: r.1, r.2)
    | .bad k =>
      if unfinished b bs k then .ok ([], b :: bs)
      else if lossy then do
        let r ← decodePartAux lossy k bs
        return (replacementChar :: r.1, r.2)
      else .error .unicodeDecodeError

/-- `decoder.decode(bs, final=False)`, where `bs` includes the bytes kept by the previous call -/
def decodePart (lossy : Bool) (bs : Bytes) : Res (PyStr × Bytes) := decodePartAux lossy 0 bs

/-- `io.IncrementalNewlineDecoder.decode`: a carriage return at the end of a piece is kept back, as a
line feed may follow.  `cr` says whether one has been kept back before. -/
def newlinesPart (final cr : Bool) (s : PyStr) : PyStr × Bool :=
  let add := cr && (s ≠ [] || final)
  let out := if add then 13 :: s else s
  if out.getLast? = some 13 && !final then (newlines out.dropLast, true)
  else (newlines out, cr && !add)

/-- Reading piece by piece: the decoded text, and the exception that ends it, if any.  `pend` and `cr` are
the states of the two decoders. -/
def readPieces (lossy : Bool) (pend : Bytes) (cr : Bool) : List Bytes → PyStr × Option PyErr
  | [] =>
    match decodeLossy lossy pend with
    | .error x => ([], some x)
    | .ok s => ((newlinesPart true cr s).1, none)
  | p :: ps =>
    match decodePart lossy (pend ++ p) with
    | .error x => ([], some x)
    | .ok (s, pend') =>
      let t := newlinesPart false cr s
      let rest := readPieces lossy pend' t.2 ps
      (t.1 ++ rest.1, rest.2)

/-- What iterating over a text file does: it yields lines, and then it ends or raises. -/
structure Lines where
  lines : List PyStr
  stop : Option PyErr
  deriving DecidableEq, Repr

/-- The lines of a text file opened with `encoding='utf8'`; only complete lines come before an
exception. -/
def textLines [TextIO] (lossy : Bool) (bs : Bytes) : Lines :=
  match readPieces lossy [] false (TextIO.cut bs) with
  | (t, none) => ⟨linesOf t, none⟩
  | (t, some x) => ⟨(linesOf t).filter fun l => l.getLast? = some 10, some x⟩

/-- Reading all lines -/
def Lines.all (s : Lines) : Res (List PyStr) :=
  match s.stop with
  | none => .ok s.lines
  | some x => .error x

end FF
