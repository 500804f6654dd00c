import Verif.Model.FastText
import Verif.Model.Text
import Verif.Model.Similarity
import Verif.Model.Endian
/-!
# Files, the command line tools, and `Norms.__new__`
scripts/*.py, norms.py:22-46, io.py:33-52

The functions below take the parsed arguments; see `Model/Args.lean` for the command lines.  The tracebacks of
exceptions are not part of the modelled output.
-/

namespace FF

/-! ### Files -/

/-- The files of a file system by path; `none` if there is no such file. -/
abbrev FS := PyStr → Option Bytes

/-- Reading a whole file: `open(path, 'rb')` and a loader.  A missing file is an `OSError`. -/
def readFile {α : Type} (path : PyStr) (load : Bytes → Res α) (fs : FS) : Res α :=
  match fs path with
  | none => .error .osError
  | some bs => load bs

/-- `with open(path, 'wb') as f:` followed by the writer `w`: opening truncates the file, whatever
has been written until an exception stays. -/
def writeFile (path : PyStr) (w : Wr Unit) (fs : FS) : Res Unit × FS :=
  (w.file.1, fun p => if p = path then some w.file.2 else fs p)

/-- io.py:33-52 `Chunk.write` for a chunk with identifier `c` and the writer `body` -/
def chunkWrite (c : ChunkId) (body : Wr Unit) (path : PyStr) : FS → Res Unit × FS :=
  writeFile path (writeStandalone c body)

/-! ### `Format`, `ffp-convert`, `ffp-bucket-to-explicit` -/

/-- scripts/util.py:51-59 `Format` -/
inductive Format where
  | finalfusion | fasttext | word2vec | textdims | text
  deriving DecidableEq, Repr

section
variable [NumOps F32] [NumText F32]

/-- scripts/util.py:78-92 `Format.load` on the content of the file -/
def Format.load [TextIO] (T : Toml) (f : Format) (lossy mmap : Bool) (bs : Bytes) : Res (Embeddings F32) :=
  if f = .finalfusion then Rd.run (loadFinalfusion T mmap) bs
  else if f = .word2vec then Rd.run (loadWord2vec lossy) bs
  else if f = .text then loadText lossy bs
  else if f = .textdims then loadTextDims lossy bs
  else Rd.run (loadFasttext lossy) bs

/-- scripts/util.py:61-76 `Format.write`: what goes to the file -/
def Format.writer (T : Toml) (f : Format) (e : Embeddings F32) : Wr Unit :=
  if f = .finalfusion then e.write T
  else if f = .word2vec then writeWord2vec e
  else if f = .text then writeText false e [32]
  else if f = .textdims then writeText true e [32]
  else writeFasttext e

/-- A storage of the same shape without the part that a memory-mapped storage leaves in its file: the matrix
(ndarray.py:88-92) or the codes (quantized.py:309-313) -/
def Storage.blank : Storage F32 → Storage F32
  | .nd m => .nd ⟨m.cols, m.rows.map fun r => r.map fun _ => 0⟩
  | .quant q => .quant { q with codes := q.codes.map fun r => r.map fun _ => 0 }

/-- What becomes of a conversion whose output is the file that the storage is mapped from.  `open(path, 'wb')` truncates the
file before anything has been read from the storage (embeddings.py:427, word2vec.py:89-93, text.py:162-167, fasttext.py:98),
and from then on the mapping shows what is in the file by now, or the process dies.  Which of this happens when depends on the
operating system and on buffers and is left open: `after` is any function of the format and of all that is in memory. -/
class Remap where
  after : Format → Embeddings F32 → Res Unit × Bytes

/-- scripts/convert.py:30 `Format(args.to).write(args.output, embeds)` for embeddings loaded from `input` -/
def convertWrite [Remap] (T : Toml) (src dst : Format) (input output : PyStr) (mmap : Bool) (e : Embeddings F32)
    (fs : FS) : Res Unit × FS :=
  if src = .finalfusion ∧ mmap = true ∧ input = output then
    let r := Remap.after dst { e with storage := e.storage.blank }
    (r.1, fun p => if p = output then some r.2 else fs p)
  else writeFile output (dst.writer T e) fs

/-- scripts/convert.py:28-30.  The input is read completely before the output is opened, except for memory-mapped storages. -/
def convertMain [TextIO] [Remap] (T : Toml) (src dst : Format) (input output : PyStr) (lossy mmap : Bool)
    (fs : FS) : Res Unit × FS :=
  match readFile input (src.load T lossy mmap) fs with
  | .error x => (.error x, fs)
  | .ok e => convertWrite T src dst input output mmap e fs

/-- scripts/bucket_to_explicit.py:19-21.  Everything that is needed of a memory-mapped storage has been copied when the output
is opened. -/
def bucketToExplicitMain [TextIO] (T : Toml) (src : Format) (input output : PyStr) (lossy mmap : Bool)
    (fs : FS) : Res Unit × FS :=
  match readFile input (src.load T lossy mmap) fs with
  | .error x => (.error x, fs)
  | .ok e =>
    match e.bucketToExplicit with
    | .error x => (.error x, fs)
    | .ok e' => writeFile output (e'.write T) fs

end

/-! ### `ffp-select` -/

section
variable {K : Type} [NumOps K]

/-- scripts/select.py:49-56, the loop over the vocabulary; rows that are not assigned stay zero. -/
def selectRows (e : Embeddings K) (ignoreUnk : Bool) : List PyStr → Res (List (List K))
  | [] => .ok []
  | w :: ws =>
    match e.getItem w with
    | .ok v => do
      let row ← assignRow e.storage.nCols v
      let rest ← selectRows e ignoreUnk ws
      return row :: rest
    | .error .keyError =>
      if ignoreUnk then do
        let rest ← selectRows e ignoreUnk ws
        return List.replicate e.storage.nCols NumOps.zero :: rest
      else .error .systemExit
    | .error x => .error x

/-- scripts/select.py:46-61 without the file access: `words` is `list(unique_words)`, `input` the
path of the source embeddings. -/
def selectEmbeddings (e : Embeddings K) (ignoreUnk : Bool) (input : PyStr) (words : List PyStr) :
    Res (Embeddings K) := do
  let _ ← zerosShape words.length e.storage.nCols
  let vocab ← Vocab.new words none
  let rows ← selectRows e ignoreUnk vocab.words
  let metadata : Meta := (ascii "source_embeddings".toList, .str input) ::
    (match e.metadata with
      | none => []
      | some m => [(ascii "source_metadata".toList, .table m)])
  Embeddings.new (.nd ⟨e.storage.nCols, rows⟩) vocab none (some metadata)

end

section
variable [NumOps F32] [NumText F32]

/-- scripts/select.py:43-61.  `enum` enumerates the set of stripped lines in the order that
`list(unique_words)` happens to have.  The word list is decoded as UTF-8. -/
def selectMain [TextIO] (T : Toml) (enum : List PyStr → List PyStr) (f : Format)
    (input output wordList : PyStr) (ignoreUnk lossy mmap : Bool) (fs : FS) : Res Unit × FS :=
  let r : Res (Embeddings F32) := do
    let e ← readFile input (f.load T lossy mmap) fs
    let lines ← readFile wordList (fun bs => (textLines lossy bs).all) fs
    selectEmbeddings e ignoreUnk input (enum (lines.map strip))
  match r with
  | .error x => (.error x, fs)
  | .ok e' => writeFile output (e'.write T) fs

end

/-! ### `ffp-similar` and `ffp-analogy` -/

/-- scripts/analogy.py:64-76 `get_skips`; the sets are lists, the characters of `includes` code
points. -/
def getSkips (a b c : PyStr) (includes : List PyStr) : List PyStr :=
  if includes = [] then [c, b, a]
  else
    let skips : List PyStr := []
    let skips := if [97] ∉ includes then skips ++ [a] else skips
    let skips := if [98] ∉ includes then skips ++ [b] else skips
    let skips := if [99] ∉ includes then skips ++ [b] else skips
    skips

section
variable {K : Type} [NumOps K]

/-- What was answered before the program ended, and how it ended.  An answer comes with the text that
the error message would name. -/
abbrev Answers (K : Type) := List (PyStr × Option (List (PyStr × K))) × Res Unit

omit [NumOps K] in
/-- A loop over the lines of a file ends as the file does. -/
def lastLine (stop : Option PyErr) : Answers K :=
  match stop with
  | none => ([], .ok ())
  | some x => ([], .error x)

/-- scripts/similar.py:35-44, the loop over the queries; `stop` is the exception after the last line, if
any. -/
def similarLoop (S : Sel K) (e : Embeddings K) (k : Int) (stop : Option PyErr) :
    List PyStr → Answers K
  | [] => lastLine stop
  | line :: lines =>
    let query := strip line
    if query = [] then similarLoop S e k stop lines
    else
      match e.wordSimilarity S query k with
      | .error x => ([], .error x)
      | .ok r =>
        let rest := similarLoop S e k stop lines
        ((query, r) :: rest.1, rest.2)

/-- scripts/analogy.py:56-58: `a : b, c : ? ` -/
def analogyQuery (a b c : PyStr) : PyStr :=
  a ++ ascii " : ".toList ++ b ++ ascii ", ".toList ++ c ++ ascii " : ? ".toList

/-- scripts/analogy.py:48-61, the loop over the queries; a line without exactly three words cannot
be unpacked. -/
def analogyLoop (S : Sel K) (e : Embeddings K) (k : Int) (includes : List PyStr)
    (stop : Option PyErr) : List PyStr → Answers K
  | [] => lastLine stop
  | line :: lines =>
    match splitWs (strip line) with
    | [a, b, c] =>
      match e.analogy S a b c k (some (getSkips a b c includes)) with
      | .error x => ([], .error x)
      | .ok r =>
        let rest := analogyLoop S e k includes stop lines
        ((analogyQuery a b c, r) :: rest.1, rest.2)
    | _ => ([], .error .valueError)

/-- `"\n".join(..)` -/
def joinNl : List PyStr → PyStr
  | [] => []
  | [s] => s
  | s :: t :: ss => s ++ 10 :: joinNl (t :: ss)

omit [NumOps K] in
/-- scripts/similar.py:44, scripts/analogy.py:61: what is printed to the standard output -/
def printAnswer [NumText K] : PyStr × Option (List (PyStr × K)) → PyStr
  | (_, none) => []
  | (_, some res) => joinNl (res.map fun r => r.1 ++ 32 :: NumText.str r.2) ++ [10]

omit [NumOps K] in
/-- scripts/similar.py:41-42, scripts/analogy.py:55-58: what is printed to the standard error; `msg` is
the text before the query. -/
def printError (msg : PyStr) : PyStr × Option (List (PyStr × K)) → PyStr
  | (query, none) => msg ++ query ++ [10]
  | (_, some _) => []

omit [NumOps K] in
/-- The standard output of the tools; an exception adds nothing to it. -/
def Answers.stdout [NumText K] (a : Answers K) : PyStr := a.1.flatMap printAnswer

omit [NumOps K] in
/-- The standard error of the tools, without the traceback of an exception. -/
def Answers.stderr (msg : PyStr) (a : Answers K) : PyStr := a.1.flatMap (printError msg)

/-- scripts/similar.py:41 -/
def similarMessage : PyStr := ascii "Could not compute neighbours for: ".toList

/-- scripts/analogy.py:57 -/
def analogyMessage : PyStr := ascii "Could not compute for: ".toList

end

section
variable [NumOps F32] [NumText F32]

/-- scripts/similar.py:33-44.  The queries are decoded as UTF-8. -/
def similarMain [TextIO] (T : Toml) (S : Sel F32) (f : Format) (embeddings input : PyStr) (k : Int)
    (lossy mmap : Bool) (fs : FS) : Answers F32 :=
  match readFile embeddings (f.load T lossy mmap) fs with
  | .error x => ([], .error x)
  | .ok e =>
    match fs input with
    | none => ([], .error .osError)
    | some bs => similarLoop S e k (textLines false bs).stop (textLines false bs).lines

/-- scripts/analogy.py:42-61.  At most three includes; this is checked before anything is opened. -/
def analogyMain [TextIO] (T : Toml) (S : Sel F32) (f : Format) (embeddings input : PyStr) (k : Int)
    (includes : List PyStr) (lossy mmap : Bool) (fs : FS) : Answers F32 :=
  if includes ≠ [] ∧ includes.length > 3 then ([], .error .systemExit)
  else
    match readFile embeddings (f.load T lossy mmap) fs with
    | .error x => ([], .error x)
    | .ok e =>
      match fs input with
      | none => ([], .error .osError)
      | some bs => analogyLoop S e k includes (textLines false bs).stop (textLines false bs).lines

end

/-! ### `Norms.__new__` -/

/-- numpy element types that matter for the check, with their item sizes. -/
inductive NpType where
  | float16 | float32 | float64 | int32 | int64
  deriving DecidableEq, Repr

def NpType.width : NpType → Nat
  | .float16 => 2
  | .float32 => 4
  | .float64 => 8
  | .int32 => 4
  | .int64 => 8

/-- The two kinds of Python objects that the check compares. -/
inductive PyObj where
  | bool (b : Bool)
  | type (t : NpType)
  deriving DecidableEq, Repr

/-- `np.issubdtype(dtype, np.float32)`, a `bool` -/
def issubdtypeF32 (t : NpType) : PyObj := .bool (t = .float32)

/-- An array: element type, number of dimensions and its items as they lie in memory on a
little-endian machine. -/
structure NormArray where
  dtype : NpType
  ndim : Nat
  items : List Bytes
  deriving DecidableEq, Repr

/-- norms.py:22-46 `Norms.__new__`: `not X != np.float32 or ndim != 1`, where `not` binds weaker
than `!=` and `X` is a `bool`. -/
def normsNew (a : NormArray) : Res NormArray :=
  if ¬ (issubdtypeF32 a.dtype ≠ .type .float32) ∨ a.ndim ≠ 1 then .error .typeError
  else .ok a

/-- norms.py:66-73 `Norms.write_chunk` with `_serialize_array_as_le` on a little-endian machine -/
def NormArray.writeChunk (a : NormArray) : Wr Unit :=
  writeNormsRaw a.items.length
    (serializeArrayAsLe .little ⟨a.dtype.width, .native, .flat a.items⟩)

/-- `Norms(array).write(path)` -/
def NormArray.write (a : NormArray) (path : PyStr) : FS → Res Unit × FS :=
  chunkWrite .ndNorms a.writeChunk path

end FF
