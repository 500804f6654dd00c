import Verif.Model.Scripts
/-!
# Command lines of the tools

`argparse` as far as the tools use it: CPython 3.11 `Lib/argparse.py` (lines cited as `argparse`), with the parsers that
`scripts/*.py` build.  Only what parsing yields is modelled, not the texts of `usage:` and of errors.  `int` has no limit
on the number of digits.
-/

namespace FF

/-- How many arguments an action takes: `0` (`store_true`, `help`), `None`, `'?'` and `'+'` -/
inductive Nargs where
  | zero | one | opt | plus
  deriving DecidableEq, Repr

/-- What a namespace holds -/
inductive Val where
  | str (s : PyStr)
  | int (i : Int)
  | bool (b : Bool)
  | list (xs : List PyStr)
  deriving DecidableEq, Repr

/-- What happens when an action is taken -/
inductive ActKind where
  | store | storeInt | storeTrue | help
  deriving DecidableEq, Repr

/-- An argument of a parser.  Positional arguments have no `flags`.  `kind` covers `action` and `type`. -/
structure Act where
  flags : List PyStr
  dest : PyStr
  kind : ActKind
  nargs : Nargs
  choices : Option (List PyStr)
  default : Val
  deriving DecidableEq, Repr

/-- `SystemExit`: after printing the help (status 0) or a message about bad arguments (status 2) -/
inductive Exit where
  | help | usage
  deriving DecidableEq, Repr

/-- argparse:2243-2340 `option_tuple`: the action (if there is one), the option string, whether there is an `=`, and the
argument in the same word -/
structure OptTuple where
  act : Option Act
  flag : PyStr
  sep : Bool
  arg : Option PyStr
  deriving DecidableEq, Repr

/-- argparse:1493-1495, the option strings of all actions in order of definition -/
def optMap (acts : List Act) : List (PyStr × Act) := acts.flatMap fun a => a.flags.map fun f => (f, a)

/-- `self._option_string_actions.get(s)` -/
def findOpt (acts : List Act) (s : PyStr) : Option Act := (optMap acts).lookup s

/-- `s.partition('=')`: before the first `=` and, if there is one, after it -/
def partitionEq : PyStr → PyStr × Option PyStr
  | [] => ([], none)
  | c :: cs => if c = 61 then ([], some cs) else ((c :: (partitionEq cs).1), (partitionEq cs).2)

/-- argparse:2300-2340 `_get_option_tuples` for a word of at least two characters that begins with a dash -/
def optTuples (acts : List Act) (s : PyStr) : List OptTuple :=
  match s with
  | _ :: c :: rest =>
    if c = 45 then
      let p := partitionEq s
      ((optMap acts).filter fun q => p.1.isPrefixOf q.1).map fun q => ⟨some q.2, q.1, p.2.isSome, p.2⟩
    else
      (optMap acts).filterMap fun q =>
        if q.1 = [45, c] then some ⟨some q.2, q.1, false, some rest⟩
        else if s.isPrefixOf q.1 then some ⟨some q.2, q.1, false, none⟩
        else none
  | _ => []

/-- `re.match(r'^-\d+$|^-\d*\.\d+$', s)` (argparse:1386); `\d` are the decimal digits of all scripts, `$` matches before a
last newline, too. -/
def looksNegative (s : PyStr) : Bool :=
  let digit := fun c => (digitVal c).isSome
  let t := if s.getLast? = some 10 then s.dropLast else s
  match t with
  | [] => false
  | c :: cs =>
    c = 45 && ((cs ≠ [] && cs.all digit) ||
      match cs.dropWhile digit with
      | [] => false
      | d :: ds => d = 46 && ds ≠ [] && ds.all digit)

/-- argparse:2243-2298 `_parse_optional`.  No parser has options that look like negative numbers. -/
def parseOptional (acts : List Act) (s : PyStr) : Except Exit (Option OptTuple) :=
  match s with
  | [] => .ok none
  | c :: cs =>
    if c ≠ 45 then .ok none
    else
      match findOpt acts s with
      | some a => .ok (some ⟨some a, s, false, none⟩)
      | none =>
        if cs = [] then .ok none
        else
          match (partitionEq s).2, findOpt acts (partitionEq s).1 with
          | some x, some a => .ok (some ⟨some a, (partitionEq s).1, true, some x⟩)
          | _, _ =>
            match optTuples acts s with
            | [t] => .ok (some t)
            | _ :: _ :: _ => .error .usage
            | [] =>
              if looksNegative s then .ok none
              else if s.contains 32 then .ok none
              else .ok (some ⟨none, s, false, none⟩)

/-- A word of the command line with its letter in `arg_strings_pattern`: `O`, `A` or `-` -/
inductive Tok where
  | opt (s : PyStr) (t : OptTuple)
  | arg (s : PyStr)
  | dashes
  deriving DecidableEq, Repr

def Tok.word : Tok → PyStr
  | .opt s _ => s
  | .arg s => s
  | .dashes => [45, 45]

def Tok.isOpt : Tok → Bool
  | .opt _ _ => true
  | _ => false

def Tok.isArg : Tok → Bool
  | .arg _ => true
  | _ => false

/-- argparse:1936-1959, the pattern of the command line -/
def classify (acts : List Act) : List PyStr → Except Exit (List Tok)
  | [] => .ok []
  | s :: ss =>
    if s = [45, 45] then .ok (.dashes :: ss.map .arg)
    else do
      let t ← parseOptional acts s
      let ts ← classify acts ss
      return (match t with | none => .arg s | some t => .opt s t) :: ts

/-- What parsing has done so far: `namespace`, `seen_actions` (by destination), `positionals`, `extras` -/
structure PState where
  ns : Dict PyStr Val
  seen : List PyStr
  pos : List Act
  extras : List PyStr
  deriving DecidableEq, Repr

/-- argparse:2531-2563 `_get_value`, `_check_value` of strings -/
def checkChoice (a : Act) (s : PyStr) : Except Exit PyStr :=
  match a.choices with
  | none => .ok s
  | some cs => if cs.contains s then .ok s else .error .usage

/-- argparse:2475-2529 `_get_values`.  Strings are converted with `str` or `int`; an argument without its one word (there
was only a second `--`) gets an empty list. -/
def getValues (a : Act) (args : List PyStr) : Except Exit Val :=
  let args := if a.flags = [] then args.erase [45, 45] else args
  match a.nargs, args with
  | .opt, [] => .ok a.default
  | .one, [s] | .opt, [s] =>
    if a.kind = .storeInt then
      match pyInt s with
      | .ok i => .ok (.int i)
      | .error _ => .error .usage
    else do
      let s ← checkChoice a s
      return .str s
  | _, ss => do
    let ss ← ss.mapM (checkChoice a)
    return .list ss

/-- argparse:1965-1983 `take_action` -/
def takeAction (st : PState) (a : Act) (args : List PyStr) : Except Exit PState := do
  let v ← getValues a args
  let seen := a.dest :: st.seen
  match a.kind with
  | .help => .error .help
  | .storeTrue => return { st with seen := seen, ns := st.ns.set a.dest (.bool true) }
  | _ => return { st with seen := seen, ns := st.ns.set a.dest v }

/-- argparse:2205-2225 `_match_argument` for an option: how many of the following words are its arguments -/
def matchOpt (a : Act) (ts : List Tok) : Except Exit Nat :=
  let run := (ts.takeWhile Tok.isArg).length
  match a.nargs with
  | .zero => .ok 0
  | .one => if run = 0 then .error .usage else .ok 1
  | .opt => .ok (min run 1)
  | .plus => if run = 0 then .error .usage else .ok run

/-- argparse:1996-2061, the loop of `consume_optional` over the options in one word: the actions to take with their
arguments, the words that are not understood, and how many of the following words were used. -/
def optChain (acts : List Act) (ts : List Tok) : Nat → Act → PyStr → Bool → Option PyStr →
    Except Exit (List (Act × List PyStr) × List PyStr × Nat)
  | _, a, _, _, none => do
    let n ← matchOpt a ts
    return ([(a, (ts.take n).map Tok.word)], [], n)
  | 0, _, _, _, some _ => .error .usage
  | fuel + 1, a, flag, sep, some x => do
    let n ← matchOpt a [.arg x]
    if n = 0 ∧ flag[1]? ≠ some 45 ∧ x ≠ [] then
      if sep ∨ x.head? = some 45 then .error .usage
      else
        let next := 45 :: x.take 1
        match findOpt acts next with
        | none => return ([(a, [])], [45 :: x], 0)
        | some a' => do
          let rest := x.drop 1
          let sepArg : Bool × Option PyStr :=
            if rest = [] then (false, none)
            else if rest.head? = some 61 then (true, some (rest.drop 1))
            else (false, some rest)
          let r ← optChain acts ts fuel a' next sepArg.1 sepArg.2
          return ((a, []) :: r.1, r.2.1, r.2.2)
    else if n = 1 then return ([(a, [x])], [], 0)
    else .error .usage

/-- argparse:1986-2068 `consume_optional`: the state and how many of the following words were used -/
def consumeOptional (acts : List Act) (st : PState) (s : PyStr) (t : OptTuple) (ts : List Tok) :
    Except Exit (PState × Nat) :=
  match t.act with
  | none => .ok ({ st with extras := st.extras ++ [s] }, 0)
  | some a => do
    let r ← optChain acts ts (s.length + 1) a t.flag t.sep t.arg
    let st ← r.1.foldlM (fun st p => takeAction st p.1 p.2) st
    return ({ st with extras := st.extras ++ r.2.1 }, r.2.2)

/-- Number of `-` at the beginning of the pattern -/
def dashRun (ts : List Tok) : Nat := (ts.takeWhile fun t => t = .dashes).length

/-- The pattern `(-*A-*)` or `(-*A?-*)` of a positional argument (argparse:2342-2390) at the beginning of the words.  Such
patterns never have to give anything back to the next one, since an argument that may be missing is the last one. -/
def matchPos (a : Act) (ts : List Tok) : Option Nat :=
  let n := dashRun ts
  match ts.drop n with
  | .arg _ :: rest => some (n + 1 + dashRun rest)
  | _ => if a.nargs = .opt then some n else none

/-- `re.match` of the patterns of all `actions` -/
def matchAll : List Act → List Tok → Option (List Nat)
  | [], _ => some []
  | a :: as, ts =>
    match matchPos a ts with
    | none => none
    | some n =>
      match matchAll as (ts.drop n) with
      | none => none
      | some ns => some (n :: ns)

/-- argparse:2227-2241 `_match_arguments_partial`: the longest beginning of `actions` that matches -/
def matchPartial (acts : List Act) (ts : List Tok) : Nat → List Nat
  | 0 => []
  | i + 1 =>
    match matchAll (acts.take (i + 1)) ts with
    | some ns => ns
    | none => matchPartial acts ts i

/-- argparse:2084-2087, the actions of `consume_positionals` and the words that are left -/
def takePositionals (st : PState) : List Act → List Nat → List Tok → Except Exit (PState × List Tok)
  | a :: as, n :: ns, ts => do
    let st ← takeAction st a ((ts.take n).map Tok.word)
    takePositionals st as ns (ts.drop n)
  | _, _, ts => .ok (st, ts)

/-- argparse:2076-2092 `consume_positionals`: the state and the words that are left -/
def consumePositionals (st : PState) (ts : List Tok) : Except Exit (PState × List Tok) := do
  let ns := matchPartial st.pos ts st.pos.length
  let r ← takePositionals st st.pos ns ts
  return ({ r.1 with pos := st.pos.drop ns.length }, r.2)

/-- argparse:2094-2134, the loop over the words.  Every round uses at least one. -/
def argLoop (acts : List Act) : Nat → PState → List Tok → Except Exit PState
  | 0, _, _ => .error .usage
  | fuel + 1, st, ts =>
    if ts.any Tok.isOpt then
      match ts with
      | .opt s t :: rest => do
        let r ← consumeOptional acts st s t rest
        argLoop acts fuel r.1 (rest.drop r.2)
      | _ => do
        let r ← consumePositionals st ts
        if r.2.length < ts.length then argLoop acts fuel r.1 r.2
        else
          let extra := ts.takeWhile fun t => !t.isOpt
          argLoop acts fuel { r.1 with extras := r.1.extras ++ extra.map Tok.word } (ts.drop extra.length)
    else do
      let r ← consumePositionals st ts
      return { r.1 with extras := r.1.extras ++ r.2.map Tok.word }

/-- argparse:1873-2174 `parse_args`.  Positional arguments are required unless their number is `'?'`. -/
def parseArgs (acts : List Act) (argv : List PyStr) : Except Exit (Dict PyStr Val) := do
  let ns : Dict PyStr Val := (acts.filter fun a => a.kind ≠ .help).map fun a => (a.dest, a.default)
  let ts ← classify acts argv
  let st ← argLoop acts (ts.length + 1) ⟨ns, [], acts.filter fun a => a.flags = [], []⟩ ts
  if acts.any fun a => a.flags = [] && a.nargs = .one && !st.seen.contains a.dest then .error .usage
  else if st.extras ≠ [] then .error .usage
  else return st.ns

/-! ### The parsers -/

/-- `-h`, `--help` (argparse:1788-1793) -/
def helpAct : Act :=
  ⟨[ascii "-h".toList, ascii "--help".toList], ascii "help".toList, .help, .zero, none, .bool false⟩

/-- A required positional argument -/
def positional (dest : PyStr) : Act := ⟨[], dest, .store, .one, none, .bool false⟩

/-- An optional positional argument that stands for standard input: `nargs='?', default=0` -/
def optPositional (dest : PyStr) : Act := ⟨[], dest, .store, .opt, none, .int 0⟩

/-- scripts/util.py:11-19 `add_input_output_args` -/
def inputOutputArgs : List Act := [positional (ascii "input".toList), positional (ascii "output".toList)]

/-- scripts/util.py:22-30 `add_format_args` -/
def formatArg (short name : PyStr) (formats : List PyStr) (default : PyStr) : Act :=
  ⟨[45 :: short, 45 :: 45 :: name], name, .store, .one, some formats, .str default⟩

/-- An option that is on or off -/
def flagArg (flags : List PyStr) (dest : PyStr) : Act := ⟨flags, dest, .storeTrue, .zero, none, .bool false⟩

/-- scripts/util.py:33-48 `add_common_args` -/
def commonArgs : List Act :=
  [flagArg [ascii "-l".toList, ascii "--lossy".toList] (ascii "lossy".toList),
   flagArg [ascii "--mmap".toList] (ascii "mmap".toList)]

/-- `-k` (scripts/similar.py:19-23, scripts/analogy.py:29-33) -/
def kArg : Act := ⟨[ascii "-k".toList], ascii "k".toList, .storeInt, .one, none, .int 10⟩

/-- `-i` (scripts/analogy.py:20-28) -/
def includeArg : Act :=
  ⟨[ascii "-i".toList, ascii "--include".toList], ascii "include".toList, .store, .plus, some [[97], [98], [99]], .list []⟩

/-- The values of `Format` (scripts/util.py:51-59) -/
def Format.name : Format → PyStr
  | .finalfusion => ascii "finalfusion".toList
  | .fasttext => ascii "fasttext".toList
  | .word2vec => ascii "word2vec".toList
  | .textdims => ascii "textdims".toList
  | .text => ascii "text".toList

/-- `Format(s)`: `ValueError` if there is no such value -/
def Format.ofName (s : PyStr) : Option Format :=
  [Format.finalfusion, .fasttext, .word2vec, .textdims, .text].find? fun f => f.name = s

/-- `formats` of scripts/convert.py:20, scripts/similar.py:11, scripts/analogy.py:12, scripts/select.py:15 -/
def formatNames : List PyStr :=
  [Format.word2vec, .finalfusion, .fasttext, .text, .textdims].map Format.name

/-- scripts/convert.py:20-26 -/
def convertParser : List Act :=
  helpAct :: inputOutputArgs ++
  [formatArg (ascii "f".toList) (ascii "from".toList) formatNames Format.word2vec.name,
   formatArg (ascii "t".toList) (ascii "to".toList) formatNames Format.finalfusion.name] ++ commonArgs

/-- scripts/bucket_to_explicit.py:10-17 -/
def bucketParser : List Act :=
  helpAct :: inputOutputArgs ++
  [formatArg (ascii "f".toList) (ascii "from".toList) [Format.finalfusion.name, Format.fasttext.name]
    Format.finalfusion.name] ++ commonArgs

/-- scripts/similar.py:11-31 -/
def similarParser : List Act :=
  helpAct :: positional (ascii "embeddings".toList) ::
  formatArg (ascii "f".toList) (ascii "format".toList) formatNames Format.finalfusion.name ::
  kArg :: optPositional (ascii "input".toList) :: commonArgs

/-- scripts/analogy.py:12-40 -/
def analogyParser : List Act :=
  helpAct :: positional (ascii "embeddings".toList) ::
  formatArg (ascii "f".toList) (ascii "format".toList) formatNames Format.finalfusion.name ::
  includeArg :: kArg :: optPositional (ascii "input".toList) :: commonArgs

/-- scripts/select.py:15-41 -/
def selectParser : List Act :=
  helpAct :: inputOutputArgs ++
  [formatArg (ascii "f".toList) (ascii "format".toList) formatNames Format.finalfusion.name,
   optPositional (ascii "words".toList),
   flagArg [ascii "--ignore_unk".toList, ascii "-i".toList] (ascii "ignore_unk".toList),
   flagArg [ascii "--verbose".toList, ascii "-v".toList] (ascii "verbose".toList)] ++ commonArgs

/-! ### The tools with their command lines

`.error` of `Exit` is a run that ended during parsing; nothing has been opened by then. -/

/-- `args.<dest>` as a path.  Functions that open a file raise `TypeError` if it is a list. -/
def pathOf (ns : Dict PyStr Val) (dest : PyStr) : Res PyStr :=
  match ns.get? dest with
  | some (.str s) => .ok s
  | _ => .error .typeError

/-- `args.<dest>` as a condition -/
def flagOf (ns : Dict PyStr Val) (dest : PyStr) : Bool := ns.get? dest = some (.bool true)

/-- `args.k` -/
def intOf (ns : Dict PyStr Val) (dest : PyStr) : Res Int :=
  match ns.get? dest with
  | some (.int i) => .ok i
  | _ => .error .typeError

/-- `args.include` -/
def listOf (ns : Dict PyStr Val) (dest : PyStr) : List PyStr :=
  match ns.get? dest with
  | some (.list xs) => xs
  | _ => []

/-- `Format(args.<dest>)` -/
def formatOf (ns : Dict PyStr Val) (dest : PyStr) : Res Format :=
  match ns.get? dest with
  | some (.str s) =>
    match Format.ofName s with
    | some f => .ok f
    | none => .error .valueError
  | _ => .error .valueError

/-- `open(args.<dest>)`: `0` is the standard input. -/
def openOf (ns : Dict PyStr Val) (dest : PyStr) (stdin : Bytes) (fs : FS) : Res Bytes :=
  match ns.get? dest with
  | some (.int 0) => .ok stdin
  | some (.str s) =>
    match fs s with
    | some bs => .ok bs
    | none => .error .osError
  | _ => .error .typeError

section
variable [NumOps F32] [NumText F32]

/-- `Format(args.<format>).load(args.<path>, args.lossy, args.mmap)` -/
def loadArgs [TextIO] (T : Toml) (ns : Dict PyStr Val) (format path : PyStr) (fs : FS) : Res (Embeddings F32) := do
  let f ← formatOf ns format
  let p ← pathOf ns path
  readFile p (f.load T (flagOf ns (ascii "lossy".toList)) (flagOf ns (ascii "mmap".toList))) fs

/-- scripts/convert.py:19-30 -/
def convertCli [TextIO] [Remap] (T : Toml) (argv : List PyStr) (fs : FS) : Except Exit (Res Unit × FS) := do
  let ns ← parseArgs convertParser argv
  let mmap := flagOf ns (ascii "mmap".toList)
  return match formatOf ns (ascii "from".toList), pathOf ns (ascii "input".toList) with
    | .error x, _ => (.error x, fs)
    | .ok _, .error x => (.error x, fs)
    | .ok src, .ok input =>
      match readFile input (src.load T (flagOf ns (ascii "lossy".toList)) mmap) fs with
      | .error x => (.error x, fs)
      | .ok e =>
        match formatOf ns (ascii "to".toList), pathOf ns (ascii "output".toList) with
        | .error x, _ => (.error x, fs)
        | .ok _, .error x => (.error x, fs)
        | .ok dst, .ok output => convertWrite T src dst input output mmap e fs

/-- scripts/bucket_to_explicit.py:9-21 -/
def bucketToExplicitCli [TextIO] (T : Toml) (argv : List PyStr) (fs : FS) : Except Exit (Res Unit × FS) := do
  let ns ← parseArgs bucketParser argv
  return match loadArgs T ns (ascii "from".toList) (ascii "input".toList) fs with
    | .error x => (.error x, fs)
    | .ok e =>
      match e.bucketToExplicit, pathOf ns (ascii "output".toList) with
      | .error x, _ => (.error x, fs)
      | .ok _, .error x => (.error x, fs)
      | .ok e', .ok p => writeFile p (e'.write T) fs

/-- scripts/select.py:14-61; `args.verbose` only matters for the standard error, which is not modelled. -/
def selectCli [TextIO] (T : Toml) (enum : List PyStr → List PyStr) (stdin : Bytes) (argv : List PyStr) (fs : FS) :
    Except Exit (Res Unit × FS) := do
  let ns ← parseArgs selectParser argv
  let lossy := flagOf ns (ascii "lossy".toList)
  let r : Res (Embeddings F32) := do
    let e ← loadArgs T ns (ascii "format".toList) (ascii "input".toList) fs
    let bs ← openOf ns (ascii "words".toList) stdin fs
    let lines ← (textLines lossy bs).all
    let input ← pathOf ns (ascii "input".toList)
    selectEmbeddings e (flagOf ns (ascii "ignore_unk".toList)) input (enum (lines.map strip))
  return match r with
    | .error x => (.error x, fs)
    | .ok e' =>
      match pathOf ns (ascii "output".toList) with
      | .error x => (.error x, fs)
      | .ok p => writeFile p (e'.write T) fs

/-- scripts/similar.py:10-44 -/
def similarCli [TextIO] (T : Toml) (S : Sel F32) (stdin : Bytes) (argv : List PyStr) (fs : FS) :
    Except Exit (Answers F32) := do
  let ns ← parseArgs similarParser argv
  return match loadArgs T ns (ascii "format".toList) (ascii "embeddings".toList) fs with
    | .error x => ([], .error x)
    | .ok e =>
      match openOf ns (ascii "input".toList) stdin fs, intOf ns (ascii "k".toList) with
      | .error x, _ => ([], .error x)
      | .ok _, .error x => ([], .error x)
      | .ok bs, .ok k => similarLoop S e k (textLines false bs).stop (textLines false bs).lines

/-- scripts/analogy.py:11-61 -/
def analogyCli [TextIO] (T : Toml) (S : Sel F32) (stdin : Bytes) (argv : List PyStr) (fs : FS) :
    Except Exit (Answers F32) := do
  let ns ← parseArgs analogyParser argv
  let includes := listOf ns (ascii "include".toList)
  return if includes ≠ [] ∧ includes.length > 3 then ([], .error .systemExit)
    else
      match loadArgs T ns (ascii "format".toList) (ascii "embeddings".toList) fs with
      | .error x => ([], .error x)
      | .ok e =>
        match openOf ns (ascii "input".toList) stdin fs, intOf ns (ascii "k".toList) with
        | .error x, _ => ([], .error x)
        | .ok _, .error x => ([], .error x)
        | .ok bs, .ok k => analogyLoop S e k includes (textLines false bs).stop (textLines false bs).lines

end

end FF
