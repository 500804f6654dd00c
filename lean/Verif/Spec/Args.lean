import Verif.Model.Args
import Verif.Spec.PyInt
/-!
# What a command line says

A grammar of command lines: words, options in all their spellings, and `--`.  Nothing here uses how `argparse` goes about
reading them.
-/

namespace FF

/-- A word that is not taken for an option: it does not begin with a dash, is a single dash, or is a negative number. -/
def PlainWord (s : PyStr) : Prop :=
  s.head? ≠ some 45 ∨ s = [45] ∨ ∃ ds : PyStr, ds ≠ [] ∧ s = 45 :: ds ∧ ∀ d ∈ ds, 48 ≤ d.val ∧ d.val ≤ 57

/-- Negative numbers: a dash, digits, and possibly a point, which digits follow; a newline may follow. -/
def NegNumber (s : PyStr) : Prop :=
  ∃ (ds tail : PyStr), (∀ c ∈ ds, ∃ v, Digit c v) ∧ (tail = [] ∨ tail = [10]) ∧
    ((ds ≠ [] ∧ s = 45 :: (ds ++ tail)) ∨
      ∃ es : PyStr, es ≠ [] ∧ (∀ c ∈ es, ∃ v, Digit c v) ∧ s = 45 :: (ds ++ 46 :: (es ++ tail)))

/-- `f` is one of the spellings of `a` in the parser. -/
def IsFlag (acts : List Act) (f : PyStr) (a : Act) : Prop := a ∈ acts ∧ f ∈ a.flags

/-- An action that expects arguments -/
def Act.takes (a : Act) : Prop := a.nargs = .one ∨ a.nargs = .plus

/-- The letters after a single dash: which options they set with which arguments, and the last option if its arguments are in
the next words. -/
inductive Short (acts : List Act) : PyStr → List (Act × List PyStr) → Option Act → Prop
  | switch {c a} : IsFlag acts [45, c] a → a.nargs = .zero → Short acts [c] [(a, [])] none
  | next {c a} : IsFlag acts [45, c] a → a.takes → Short acts [c] [] (some a)
  | glued {c a v} : IsFlag acts [45, c] a → a.takes → v ≠ [] → v.head? ≠ some 61 → Short acts (c :: v) [(a, [v])] none
  | eq {c a v} : IsFlag acts [45, c] a → a.takes → Short acts (c :: 61 :: v) [(a, [v])] none
  | more {c a rest os p} : IsFlag acts [45, c] a → a.nargs = .zero → rest.head? ≠ some 45 → rest.head? ≠ some 61 →
      Short acts rest os p → Short acts (c :: rest) ((a, []) :: os) p

/-- `p` is a long option or the beginning of one that begins no other option. -/
def Abbrev (acts : List Act) (p : PyStr) (a : Act) : Prop :=
  61 ∉ p ∧ p ≠ [45, 45] ∧ [45, 45] <+: p ∧
  (IsFlag acts p a ∨ ∃ f, IsFlag acts f a ∧ p <+: f ∧ ∀ g b, IsFlag acts g b → p <+: g → g = f)

/-- A word that sets options -/
inductive OptWord (acts : List Act) : PyStr → List (Act × List PyStr) → Option Act → Prop
  | short {w os p} : Short acts w os p → OptWord acts (45 :: w) os p
  | long {p a} : Abbrev acts p a → a.nargs = .zero → OptWord acts p [(a, [])] none
  | next {p a} : Abbrev acts p a → a.takes → OptWord acts p [] (some a)
  | eq {p a v} : Abbrev acts p a → OptWord acts (p ++ 61 :: v) [(a, [v])] none

/-- A word that looks like an option but is none -/
def Unknown (acts : List Act) (w : PyStr) : Prop :=
  ∃ c rest, w = 45 :: c :: rest ∧ w ≠ [45, 45] ∧ 32 ∉ w ∧ 61 ∉ w ∧
    (c = 45 ∨ (65 ≤ c.val ∧ c.val ≤ 90) ∨ (97 ≤ c.val ∧ c.val ≤ 122)) ∧
    ∀ f a, IsFlag acts f a → f ≠ [45, c] ∧ ¬ w <+: f

/-- What a command line consists of -/
inductive CmdItem where
  | word (s : PyStr)
  | opt (a : Act) (args : List PyStr)
  | unknown (s : PyStr)
  deriving DecidableEq, Repr

/-- Arguments of an option end here. -/
def Stops (ws : List PyStr) : Prop := ∀ w ∈ ws.head?, ¬ PlainWord w

/-- The items of a command line -/
inductive Line (acts : List Act) : List PyStr → List CmdItem → Prop
  | nil : Line acts [] []
  | word {s ws is} : PlainWord s → Line acts ws is → Line acts (s :: ws) (.word s :: is)
  | dashes {ws} : ws ≠ [] → [45, 45] ∉ ws → Line acts ([45, 45] :: ws) (ws.map .word)
  | opts {w os ws is} : OptWord acts w os none → Line acts ws is →
      Line acts (w :: ws) (os.map (fun o => .opt o.1 o.2) ++ is)
  | one {w os a v ws is} : OptWord acts w os (some a) → a.nargs = .one → PlainWord v → Line acts ws is →
      Line acts (w :: v :: ws) (os.map (fun o => .opt o.1 o.2) ++ .opt a [v] :: is)
  | plus {w os a vs ws is} : OptWord acts w os (some a) → a.nargs = .plus → vs ≠ [] → (∀ v ∈ vs, PlainWord v) → Stops ws →
      Line acts ws is → Line acts (w :: (vs ++ ws)) (os.map (fun o => .opt o.1 o.2) ++ .opt a vs :: is)
  | missing {w a ws is} : OptWord acts w [] (some a) → Stops ws → Line acts ws is → Line acts (w :: ws) (.opt a [] :: is)
  | unknown {w ws is} : Unknown acts w → Line acts ws is → Line acts (w :: ws) (.unknown w :: is)

/-- What an option with its arguments says: the help and switches have none, the other options have theirs checked. -/
def meaning (a : Act) (args : List PyStr) : Except Exit Val :=
  match a.kind, args with
  | .help, [] => .error .help
  | .storeTrue, [] => .ok (.bool true)
  | .storeInt, [s] =>
    match pyInt s with
    | .ok i => .ok (.int i)
    | .error _ => .error .usage
  | .store, ss =>
    if ss ≠ [] ∧ ∀ s ∈ ss, ∀ cs ∈ a.choices, s ∈ cs then
      match a.nargs, ss with
      | .one, [s] => .ok (.str s)
      | _, _ => .ok (.list ss)
    else .error .usage
  | _, _ => .error .usage

/-- The words that are no options and no arguments of options -/
def positionals (is : List CmdItem) : List PyStr :=
  is.filterMap fun i => match i with | .word s => some s | _ => none

/-- How the first option that cannot be used ends the program -/
def firstExit (is : List CmdItem) : Option Exit :=
  is.findSome? fun i =>
    match i with
    | .opt a args => match meaning a args with | .error x => some x | .ok _ => none
    | _ => none

def hasUnknown (is : List CmdItem) : Prop := ∃ s, CmdItem.unknown s ∈ is

/-- The last value given to the option with the destination `dest` -/
def lastGiven (is : List CmdItem) (dest : PyStr) : Option Val :=
  (is.filterMap fun i =>
    match i with
    | .opt a args => if a.dest = dest then (meaning a args).toOption else none
    | _ => none).getLast?

/-- Words `n` and `n + 1` (counted from 1) stand next to each other. -/
def Adjacent (is : List CmdItem) (n : Nat) : Prop :=
  ∃ pre x y post, is = pre ++ .word x :: .word y :: post ∧ (positionals pre).length + 1 = n

/-- The positional arguments that must be there -/
def required (acts : List Act) : List Act := acts.filter fun a => a.flags = [] ∧ a.nargs = .one

/-- Positional arguments that may be missing -/
def optional (acts : List Act) : List Act := acts.filter fun a => a.flags = [] ∧ a.nargs = .opt

/-- The words fill the positional arguments: all required ones, and the optional one only by a word that directly follows the
last required one. -/
def WordsFit (acts : List Act) (is : List CmdItem) : Prop :=
  (positionals is).length = (required acts).length ∨
  ((positionals is).length = (required acts).length + 1 ∧ optional acts ≠ [] ∧ Adjacent is (required acts).length)

/-- The names of the formats on command lines, as characters -/
def formatText : Format → List Char
  | .finalfusion => ['f', 'i', 'n', 'a', 'l', 'f', 'u', 's', 'i', 'o', 'n']
  | .fasttext => ['f', 'a', 's', 't', 't', 'e', 'x', 't']
  | .word2vec => ['w', 'o', 'r', 'd', '2', 'v', 'e', 'c']
  | .textdims => ['t', 'e', 'x', 't', 'd', 'i', 'm', 's']
  | .text => ['t', 'e', 'x', 't']

/-- The format an option chooses, the last one if it is repeated -/
def SaysFormat (is : List CmdItem) (dest : PyStr) (default f : Format) : Prop :=
  lastGiven is dest = some (.str (ascii (formatText f))) ∨ lastGiven is dest = none ∧ f = default

/-- A switch is on if it is there. -/
def SaysFlag (is : List CmdItem) (dest : PyStr) (b : Bool) : Prop :=
  b = true ↔ ∃ a args, .opt a args ∈ is ∧ a.dest = dest

/-- The number of answers -/
def SaysK (is : List CmdItem) (k : Int) : Prop :=
  lastGiven is [107] = some (.int k) ∨ lastGiven is [107] = none ∧ k = 10

/-- The parts of queries that may be answers: those of the last `-i` -/
def SaysIncludes (is : List CmdItem) (l : List PyStr) : Prop :=
  lastGiven is (ascii "include".toList) = some (.list l) ∨ lastGiven is (ascii "include".toList) = none ∧ l = []

/-- The tools -/
inductive Tool where
  | convert | bucketToExplicit | similar | analogy | select
  deriving DecidableEq, Repr

def Tool.parser : Tool → List Act
  | .convert => convertParser
  | .bucketToExplicit => bucketParser
  | .similar => similarParser
  | .analogy => analogyParser
  | .select => selectParser

/-- The options that the tools have, and the names of their values -/
def Tool.options : Tool → List (String × String)
  | .convert => [("-h", "help"), ("--help", "help"), ("-f", "from"), ("--from", "from"), ("-t", "to"), ("--to", "to"),
      ("-l", "lossy"), ("--lossy", "lossy"), ("--mmap", "mmap")]
  | .bucketToExplicit => [("-h", "help"), ("--help", "help"), ("-f", "from"), ("--from", "from"),
      ("-l", "lossy"), ("--lossy", "lossy"), ("--mmap", "mmap")]
  | .similar => [("-h", "help"), ("--help", "help"), ("-f", "format"), ("--format", "format"), ("-k", "k"),
      ("-l", "lossy"), ("--lossy", "lossy"), ("--mmap", "mmap")]
  | .analogy => [("-h", "help"), ("--help", "help"), ("-f", "format"), ("--format", "format"), ("-i", "include"),
      ("--include", "include"), ("-k", "k"), ("-l", "lossy"), ("--lossy", "lossy"), ("--mmap", "mmap")]
  | .select => [("-h", "help"), ("--help", "help"), ("-f", "format"), ("--format", "format"), ("--ignore_unk", "ignore_unk"),
      ("-i", "ignore_unk"), ("--verbose", "verbose"), ("-v", "verbose"), ("-l", "lossy"), ("--lossy", "lossy"), ("--mmap", "mmap")]

/-- Parsers as the tools have them: every option is a dash with a letter or two dashes with a name, and belongs to one action;
required positional arguments come first, there is at least one, and at most one may be missing. -/
structure Sound (acts : List Act) : Prop where
  flag : ∀ f a, IsFlag acts f a →
    (∃ c : Code, f = [45, c] ∧ ((65 ≤ c.val ∧ c.val ≤ 90) ∨ (97 ≤ c.val ∧ c.val ≤ 122))) ∨
    (∃ c name, f = 45 :: 45 :: c :: name ∧ 61 ∉ f)
  once : ((acts.flatMap Act.flags)).Nodup
  dests : (acts.map Act.dest).Nodup
  kinds : ∀ a ∈ acts, a.flags ≠ [] → (a.nargs = .zero ↔ a.kind = .help ∨ a.kind = .storeTrue) ∧ a.nargs ≠ .opt ∧
    (a.kind = .storeInt → a.nargs = .one ∧ a.choices = none)
  positional : ∀ a ∈ acts, a.flags = [] → a.kind = .store ∧ a.choices = none ∧ (a.nargs = .one ∨ a.nargs = .opt)
  order : acts.filter (fun a => a.flags = []) = required acts ++ optional acts
  some_required : required acts ≠ []
  one_optional : (optional acts).length ≤ 1

end FF
