import Verif.Model.Setters
import Verif.Model.NdArray
/-!
# Arguments of any type
embeddings.py, vocab/*.py, subword/*.pyx

`Verif.Model.Embeddings` and `Verif.Model.Vocab` take arguments of the right types.  These are the same functions with the
checks of the types, for callers that pass anything.
-/

namespace FF

/-- An argument that should be an `α`: `None`, an `α`, or any other object. -/
inductive Arg (α : Type) where
  | none
  | val (a : α)
  | other

/-- embeddings.py:643-655 `_check_requirements` with the `isinstance` checks -/
def checkArgs {K : Type} (storage : Arg (Storage K)) (vocab : Arg Vocab) (norms : NormsArg K) (metadata : MetaArg) :
    Res Unit :=
  match storage with
  | .val st =>
    match vocab with
    | .val v => do
      pyAssert ((st.nRows : Int) = v.upperBound)
      match norms with
      | .none => pure ()
      | n => normsCompatArg st v n
      match metadata with
      | .other => pyAssert false
      | _ => pure ()
    | _ => pyAssert false
  | _ => pyAssert false

/-- embeddings.py:77-121 `Embeddings.__init__` with arguments of any type -/
def Embeddings.init {K : Type} (storage : Arg (Storage K)) (vocab : Arg Vocab) (norms : NormsArg K) (metadata : MetaArg) :
    Res (Embeddings K) := do
  checkArgs storage vocab norms metadata
  match storage, vocab with
  | .val st, .val v =>
    return ⟨st, v, (match norms with | .norms n => some n | _ => none),
      (match metadata with | .metadata m => some m | _ => none)⟩
  | _, _ => .error .attributeError  -- unreachable: rejected by the check

/-- The class of an indexer object -/
inductive IndexerClass where
  | fifu | ft | expl
  deriving DecidableEq, Repr

/-- `type(indexer)` -/
def Indexer.cls : Indexer → IndexerClass
  | .fifu _ => .fifu
  | .ft _ => .ft
  | .expl _ => .expl

/-- subword.py:174-175 and 259-260: the indexer if none is given; `ExplicitVocab` has no default. -/
def indexerOr (cls : IndexerClass) (indexer : Arg Indexer) : Res (Arg Indexer) :=
  match indexer, cls with
  | .none, .fifu => (FifuIndexer.new 21 3 6).map fun ix => .val (.fifu ix)
  | .none, .ft => (FtIndexer.new 2000000 3 6).map fun ix => .val (.ft ix)
  | ix, _ => .ok ix

/-- subword.py:149-183, 236-265 and 317-345: the constructors `FinalfusionBucketVocab`, `FastTextVocab` and
`ExplicitVocab`.  `cls` is the class of indexers that the vocabulary takes. -/
def subwordVocabNew (cls : IndexerClass) (words : List PyStr) (indexer : Arg Indexer) : Res Vocab := do
  match ← indexerOr cls indexer with
  | .val ix => do
    pyAssert (ix.cls = cls)
    Vocab.new words (some ix)
  | _ => .error .assertionError

/-- Conversion of a Python int to a C `uint64_t` argument -/
def toU64 (n : Int) : Res Nat :=
  if 0 ≤ n ∧ n < 2 ^ 64 then .ok n.toNat else .error .overflowError

/-- ngrams.pyx:7-52 `ngrams`: Cython converts the C arguments first, then checks that `word` is `None` or a `str`. -/
def ngramsArg (word : Arg PyStr) (minN maxN : Int) (bracket : Bool) : Res (List PyStr) := do
  let mn ← toU32 minN
  let mx ← toU32 maxN
  match word with
  | .val w => ngrams w mn mx bracket
  | _ => .error .typeError

/-- hash_indexers.pyx:97-143, 223-280 and explicit_indexer.pyx:129-178 `subword_indices(word, offset, bracket,
with_ngrams=True)` -/
def Indexer.subwordIndicesArg (ix : Indexer) (word : Arg PyStr) (offset : Int) (bracket : Bool) :
    Res (List (PyStr × Int)) := do
  let off ← toU64 offset
  match word with
  | .val w => ix.subwordIndices w off bracket
  | _ => .error .typeError

/-- the same with `with_ngrams=False` -/
def Indexer.indicesArg (ix : Indexer) (word : Arg PyStr) (offset : Int) (bracket : Bool) : Res (List Int) := do
  let off ← toU64 offset
  match word with
  | .val w => ix.indices w off bracket
  | _ => .error .typeError

end FF
