import Verif.Model.Vocab
/-!
# Vocabularies as objects that share lists and dicts
vocab/vocab.py, vocab/simple_vocab.py, vocab/subword.py, subword/explicit_indexer.pyx

The other model files treat word lists, n-gram lists and their indices as values.  Here they are Python objects, to
which vocabularies and indexers hold references: the constructors keep the list that they are given, and the
properties `words`, `word_index`, `ngrams` and `ngram_index` hand it out.  Lists hold strings only, and indices of
words natural numbers only.
-/

namespace FF

/-- The list and dict objects: word and n-gram lists, indices of words and indices of n-grams -/
structure Objs where
  lists : List (List PyStr)
  widx : List (Dict PyStr Nat)
  gidx : List (Dict PyStr Int)
  deriving DecidableEq, Repr

/-- Code that creates and changes objects and may raise; changes made before an exception stay. -/
def OM (α : Type) := Objs → Res α × Objs

instance : Monad OM where
  pure a := fun h => (.ok a, h)
  bind m f := fun h =>
    match m h with
    | (.ok a, h') => f a h'
    | (.error e, h') => (.error e, h')

namespace OM

def lift {α : Type} (r : Res α) : OM α := fun h => (r, h)

/-- An element of one of the object tables -/
def get {α : Type} (f : Objs → List α) (r : Nat) : OM α := fun h =>
  match (f h)[r]? with
  | some x => (.ok x, h)
  | none => (.error .typeError, h)

/-- `list(xs)` or `[]` -/
def newList (xs : List PyStr) : OM Nat := fun h => (.ok h.lists.length, { h with lists := h.lists ++ [xs] })

/-- A fresh dict of word indices -/
def newW (d : Dict PyStr Nat) : OM Nat := fun h => (.ok h.widx.length, { h with widx := h.widx ++ [d] })

/-- A fresh dict of n-gram indices -/
def newG (d : Dict PyStr Int) : OM Nat := fun h => (.ok h.gidx.length, { h with gidx := h.gidx ++ [d] })

/-- The list `r` becomes `xs`: whatever methods of lists do to it -/
def setList (r : Nat) (xs : List PyStr) : OM Unit := fun h => (.ok (), { h with lists := h.lists.set r xs })

def setW (r : Nat) (d : Dict PyStr Nat) : OM Unit := fun h => (.ok (), { h with widx := h.widx.set r d })

def setG (r : Nat) (d : Dict PyStr Int) : OM Unit := fun h => (.ok (), { h with gidx := h.gidx.set r d })

end OM

/-- An indexer object.  The hash indexers have no mutable attributes (hash_indexers.pyx:27-30, 165-167); an
`ExplicitIndexer` refers to a list and a dict (explicit_indexer.pyx:25-29). -/
inductive IxObj where
  | fifu (ix : FifuIndexer)
  | ft (ix : FtIndexer)
  | expl (ngrams minN maxN index : Nat) (bound : Int)
  deriving DecidableEq, Repr

/-- A vocabulary object: `_words`, `_index` and `_indexer` -/
structure VocabObj where
  words : Nat
  index : Nat
  sub : Option IxObj
  deriving DecidableEq, Repr

/-- The attributes of an indexer, as its methods see them -/
def IxObj.value (h : Objs) : IxObj → Option Indexer
  | .fifu ix => some (.fifu ix)
  | .ft ix => some (.ft ix)
  | .expl gs mn mx i b =>
    match h.lists[gs]?, h.gidx[i]? with
    | some l, some d => some (.expl ⟨l, mn, mx, d, b⟩)
    | _, _ => none

/-- The attributes of a vocabulary, as its methods see them -/
def VocabObj.value (h : Objs) (v : VocabObj) : Option Vocab :=
  match h.lists[v.words]?, h.widx[v.index]?, v.sub with
  | some ws, some d, none => some ⟨ws, d, none⟩
  | some ws, some d, some ix =>
    match ix.value h with
    | some i => some ⟨ws, d, some i⟩
    | none => none
  | _, _, _ => none

/-- explicit_indexer.pyx:31-59 `__init__`: the list is kept, and the dict if there is one -/
def IxObj.newExpl (ngrams : Nat) (minN maxN : Int) (index : Option Nat) : OM IxObj := do
  let l ← OM.get Objs.lists ngrams
  match index with
  | none => do
    let ix ← OM.lift (ExplIndexer.new l minN maxN none)
    let i ← OM.newG ix.index
    return .expl ngrams ix.minN ix.maxN i ix.bound
  | some i => do
    let d ← OM.get Objs.gidx i
    let ix ← OM.lift (ExplIndexer.new l minN maxN (some d))
    return .expl ngrams ix.minN ix.maxN i ix.bound

/-- simple_vocab.py:40-41, subword.py:180-182, 263-265, 339-341: `_validate_items_and_create_index` makes a dict, the
list is kept -/
def VocabObj.new (words : Nat) (sub : Option IxObj) : OM VocabObj := do
  let l ← OM.get Objs.lists words
  let d ← OM.lift (validateItems l)
  let i ← OM.newW d
  return ⟨words, i, sub⟩

/-- subword.py:465-470, with `ngram_list` and `ngram_index` as objects; `idx_index` is not visible elsewhere. -/
def b2eStepObj (ix : Indexer) (ngramList ngramIndex : Nat) (idxIndex : Dict Int Int) (g : PyStr) :
    OM (Dict Int Int) := do
  let d ← OM.get Objs.gidx ngramIndex
  if (Dict.get? d g).isSome then return idxIndex
  else do
    let l ← OM.get Objs.lists ngramList
    OM.setList ngramList (l ++ [g])
    match ← OM.lift (ix.call g) with
    | none => OM.lift (.error .typeError)   -- unreachable for hash indexers
    | some idx => do
      let idxIndex :=
        if (Dict.get? idxIndex idx).isSome then idxIndex
        else Dict.set idxIndex idx (idxIndex.length : Int)
      match Dict.get? idxIndex idx with
      | none => OM.lift (.error .keyError)
      | some v => do
        OM.setG ngramIndex (Dict.set d g v)
        return idxIndex

/-- A `for` loop -/
def foldOM {α β : Type} (f : β → α → OM β) : β → List α → OM β
  | b, [] => pure b
  | b, x :: xs => do
    let b' ← f b x
    foldOM f b' xs

/-- subword.py:457-473 `_bucket_to_explicit`: the new vocabulary gets the word list of the old one. -/
def bucketToExplicitObj (v : VocabObj) (ix : Indexer) : OM VocabObj := do
  let ws ← OM.get Objs.lists v.words
  let ngramIndex ← OM.newG []
  let ngramList ← OM.newList []
  let _ ← foldOM (fun (st : Dict Int Int) word => do
      let gs ← OM.lift (ngrams word ix.minN ix.maxN true)
      foldOM (b2eStepObj ix ngramList ngramIndex) st gs) [] ws
  let eix ← IxObj.newExpl ngramList ix.minN ix.maxN (some ngramIndex)
  VocabObj.new v.words (some eix)

/-- `to_explicit`, subword.py:184-199, 267-282 -/
def VocabObj.toExplicit (v : VocabObj) : OM VocabObj :=
  match v.sub with
  | some (.fifu ix) => bucketToExplicitObj v (.fifu ix)
  | some (.ft ix) => bucketToExplicitObj v (.ft ix)
  | _ => OM.lift (.error .attributeError)

/-- The `read_chunk` methods, after the parts have been read from a file: everything is made for the new vocabulary
(simple_vocab.py:60-62, subword.py:220-223, 300-303, 365-370). -/
def VocabObj.ofFile (v : Vocab) : OM VocabObj := do
  let ws ← OM.newList v.words
  match v.sub with
  | none => VocabObj.new ws none
  | some (.fifu ix) => VocabObj.new ws (some (.fifu ix))
  | some (.ft ix) => VocabObj.new ws (some (.ft ix))
  | some (.expl ix) => do
    let gs ← OM.newList ix.ngrams
    let i ← OM.newG ix.index
    let eix ← IxObj.newExpl gs ix.minN ix.maxN (some i)
    VocabObj.new ws (some eix)

/-! ### Programs that use vocabularies -/

/-- What exists at some point of a program -/
structure World where
  objs : Objs
  ixs : List IxObj
  vocabs : List VocabObj
  deriving DecidableEq, Repr

/-- Steps of a program; lists, dicts, indexers and vocabularies are numbered. -/
inductive ObjStep where
  /-- A list or dict of the caller -/
  | list (xs : List PyStr)
  | dict (ps : List (PyStr × Int))
  /-- Constructors -/
  | fifu (b mn mx : Int)
  | ft (b mn mx : Int)
  | expl (gs : Nat) (mn mx : Int) (index : Option Nat)
  | vocab (words : Nat) (sub : Option Nat)
  /-- Conversion and loading -/
  | toExplicit (v : Nat)
  | load (bs : Bytes)
  /-- The caller changes a list or dict, however it was obtained -/
  | setList (r : Nat) (xs : List PyStr)
  | setW (r : Nat) (ps : List (PyStr × Nat))
  | setG (r : Nat) (ps : List (PyStr × Int))
  deriving DecidableEq, Repr

/-- The caller catches exceptions. -/
def World.addIx (w : World) (m : OM IxObj) : World :=
  match m w.objs with
  | (.ok ix, h) => ⟨h, w.ixs ++ [ix], w.vocabs⟩
  | (.error _, h) => ⟨h, w.ixs, w.vocabs⟩

def World.addVocab (w : World) (m : OM VocabObj) : World :=
  match m w.objs with
  | (.ok v, h) => ⟨h, w.ixs, w.vocabs ++ [v]⟩
  | (.error _, h) => ⟨h, w.ixs, w.vocabs⟩

def World.step (w : World) : ObjStep → World
  | .list xs => { w with objs := (OM.newList xs w.objs).2 }
  | .dict ps => { w with objs := (OM.newG (Dict.ofPairs ps) w.objs).2 }
  | .fifu b mn mx => w.addIx do
      let ix ← OM.lift (FifuIndexer.new b mn mx)
      return .fifu ix
  | .ft b mn mx => w.addIx do
      let ix ← OM.lift (FtIndexer.new b mn mx)
      return .ft ix
  | .expl gs mn mx index => w.addIx (IxObj.newExpl gs mn mx index)
  | .vocab words none => w.addVocab (VocabObj.new words none)
  | .vocab words (some i) => w.addVocab do
      let ix ← OM.get (fun _ => w.ixs) i
      VocabObj.new words (some ix)
  | .toExplicit v => w.addVocab do
      let v ← OM.get (fun _ => w.vocabs) v
      v.toExplicit
  | .load bs => w.addVocab do
      let v ← OM.lift (Rd.run loadVocab bs)
      VocabObj.ofFile v
  | .setList r xs => { w with objs := (OM.setList r xs w.objs).2 }
  | .setW r ps => { w with objs := (OM.setW r (Dict.ofPairs ps) w.objs).2 }
  | .setG r ps => { w with objs := (OM.setG r (Dict.ofPairs ps) w.objs).2 }

def World.run (w : World) (steps : List ObjStep) : World := steps.foldl World.step w

end FF
