import Verif.Model.Scripts
/-!
# The encoding of the locale

scripts/similar.py:34, scripts/analogy.py:47 and scripts/select.py:44 open text files without an encoding, and
scripts/similar.py:44 and scripts/analogy.py:61 print to `sys.stdout`: the encoding is that of the locale.  The loaders and
writers of text files (compat/text.py:43, 77, 163) ask for UTF-8.

Modelled are UTF-8 and the encodings with one byte for every character (ASCII, ISO 8859, KOI8, the Windows code pages for
European languages).  `sys.stderr` replaces what it cannot encode and is left out.  The exceptions of `surrogateescape`, which
`sys.stdout` uses in the C locale, and the line ends of Windows are not modelled.
-/

namespace FF

/-- An encoding: UTF-8, or a table of 256 characters, some of which may be missing -/
inductive Locale where
  | utf8
  | table (t : UInt8 → Option Code)

/-- The decoder of an encoding with one byte per character; it has no state, so that it is also the incremental one. -/
def tableDecode (t : UInt8 → Option Code) (lossy : Bool) : Bytes → Res PyStr
  | [] => .ok []
  | b :: bs =>
    match t b with
    | some c => do
      let s ← tableDecode t lossy bs
      return c :: s
    | none =>
      if lossy then do
        let s ← tableDecode t lossy bs
        return replacementChar :: s
      else .error .unicodeDecodeError

/-- `io.TextIOWrapper` reading piece by piece, as in `readPieces` -/
def tablePieces (t : UInt8 → Option Code) (lossy cr : Bool) : List Bytes → PyStr × Option PyErr
  | [] => ((newlinesPart true cr []).1, none)
  | p :: ps =>
    match tableDecode t lossy p with
    | .error x => ([], some x)
    | .ok s =>
      let r := newlinesPart false cr s
      let rest := tablePieces t lossy r.2 ps
      (r.1 ++ rest.1, rest.2)

/-- The lines of a text file opened without an encoding, with `errors='replace'` if `lossy` -/
def localeLines [TextIO] (l : Locale) (lossy : Bool) (bs : Bytes) : Lines :=
  match l with
  | .utf8 => textLines lossy bs
  | .table t =>
    match tablePieces t lossy false (TextIO.cut bs) with
    | (s, none) => ⟨linesOf s, none⟩
    | (s, some x) => ⟨(linesOf s).filter fun l => l.getLast? = some 10, some x⟩

/-- All bytes in order -/
def allBytes : List UInt8 := (List.range 256).map fun n => n.toUInt8

/-- The encoder of an encoding with one byte per character, with `errors='strict'` -/
def tableEncode (t : UInt8 → Option Code) : PyStr → Res Bytes
  | [] => .ok []
  | c :: s =>
    match allBytes.find? fun b => t b = some c with
    | none => .error .unicodeEncodeError
    | some b => do
      let bs ← tableEncode t s
      return b :: bs

/-- `sys.stdout.write(s)`: the bytes that come out -/
def localeEncode (l : Locale) (s : PyStr) : Res Bytes :=
  match l with
  | .utf8 => encode s
  | .table t => tableEncode t s

section
variable {K : Type} [NumText K]

/-- scripts/similar.py:44, scripts/analogy.py:61: the answers are printed as they are found.  What comes out, and how the
program ends. -/
def printAll (l : Locale) : List (PyStr × Option (List (PyStr × K))) → Res Unit → Bytes × Res Unit
  | [], r => ([], r)
  | a :: as, r =>
    match localeEncode l (printAnswer a) with
    | .error x => ([], .error x)
    | .ok bs =>
      let rest := printAll l as r
      (bs ++ rest.1, rest.2)

end

section
variable [NumOps F32] [NumText F32]

/-- scripts/similar.py:33-44: what is found -/
def similarFound [TextIO] (l : Locale) (T : Toml) (S : Sel F32) (f : Format) (embeddings input : PyStr) (k : Int)
    (lossy mmap : Bool) (fs : FS) : Answers F32 :=
  match readFile embeddings (f.load T lossy mmap) fs with
  | .error x => ([], .error x)
  | .ok e =>
    match fs input with
    | none => ([], .error .osError)
    | some bs => similarLoop S e k (localeLines l false bs).stop (localeLines l false bs).lines

/-- scripts/similar.py:33-44: the standard output -/
def similarPrints [TextIO] (l : Locale) (T : Toml) (S : Sel F32) (f : Format) (embeddings input : PyStr) (k : Int)
    (lossy mmap : Bool) (fs : FS) : Bytes × Res Unit :=
  let a := similarFound l T S f embeddings input k lossy mmap fs
  printAll l a.1 a.2

/-- scripts/analogy.py:42-61: what is found -/
def analogyFound [TextIO] (l : Locale) (T : Toml) (S : Sel F32) (f : Format) (embeddings input : PyStr) (k : Int)
    (includes : List PyStr) (lossy mmap : Bool) (fs : FS) : Answers F32 :=
  if includes ≠ [] ∧ includes.length > 3 then ([], .error .systemExit)
  else
    match readFile embeddings (f.load T lossy mmap) fs with
    | .error x => ([], .error x)
    | .ok e =>
      match fs input with
      | none => ([], .error .osError)
      | some bs => analogyLoop S e k includes (localeLines l false bs).stop (localeLines l false bs).lines

/-- scripts/analogy.py:42-61: the standard output -/
def analogyPrints [TextIO] (l : Locale) (T : Toml) (S : Sel F32) (f : Format) (embeddings input : PyStr) (k : Int)
    (includes : List PyStr) (lossy mmap : Bool) (fs : FS) : Bytes × Res Unit :=
  let a := analogyFound l T S f embeddings input k includes lossy mmap fs
  printAll l a.1 a.2

/-- scripts/select.py:43-61 -/
def selectLocale [TextIO] (l : Locale) (T : Toml) (enum : List PyStr → List PyStr) (f : Format)
    (input output wordList : PyStr) (ignoreUnk lossy mmap : Bool) (fs : FS) : Res Unit × FS :=
  let r : Res (Embeddings F32) := do
    let e ← readFile input (f.load T lossy mmap) fs
    let lines ← readFile wordList (fun bs => (localeLines l lossy bs).all) fs
    selectEmbeddings e ignoreUnk input (enum (lines.map strip))
  match r with
  | .error x => (.error x, fs)
  | .ok e' => writeFile output (e'.write T) fs

end

end FF
