import Verif.Model.Arguments
import Verif.Spec.FfOne
import Verif.Spec.Ngrams
/-!
# What the documentation says about exceptions

The conditions of the "Raises" sections, in terms of the arguments.
-/

namespace FF

/-- embeddings.py:90-96: what `Embeddings.__init__` asks for, apart from the types -/
def DocConditions {K : Type} (st : Storage K) (v : Vocab) (norms : Option (List K)) : Prop :=
  (st.nRows : Int) = v.upperBound ∧
    ∀ n, norms = some n → v.words.length = n.length ∧ n.length = v.words.length ∧ st.nRows ≤ n.length

/-- Some n-gram of the word in brackets has an embedding: any n-gram for hash based vocabularies, one of the listed n-grams
for others. -/
def KnowsNgram (ix : Indexer) (w : PyStr) : Prop :=
  ∃ start len, ix.minN ≤ len ∧ len ≤ ix.maxN ∧ start + len ≤ w.length + 2 ∧
    ∀ e, ix = .expl e → ((wrap true w).drop start).take len ∈ e.ngrams

/-- How many bytes there are from the current position on -/
def RFile.left (s : RFile) : Nat := s.data.length - s.pos

/-- The functions that load one part of a file -/
inductive Loader where
  | vocab | simple | bucket | fasttext | explicit | storage (mmap : Bool) | ndarray (mmap : Bool)
  | quantized (mmap : Bool) | norms | metadata

/-- The chunks that they look for, by the numbers of the format -/
def Loader.wanted : Loader → List Nat
  | .vocab => [1, 7, 8, 3]
  | .simple => [1]
  | .bucket => [3]
  | .fasttext => [7]
  | .explicit => [8]
  | .storage _ => [2, 4]
  | .ndarray _ => [2]
  | .quantized _ => [4]
  | .norms => [6]
  | .metadata => [5]

/-- The exception, if there is one -/
def Raised {α : Type} (r : Res α) : Option PyErr :=
  match r with
  | .ok _ => none
  | .error x => some x

/-- What a loader raises for a file -/
def Loader.raises (T : Toml) (bs : Bytes) : Loader → Option PyErr
  | .vocab => Raised (Rd.run loadVocab bs)
  | .simple => Raised (Rd.run loadSimpleVocab bs)
  | .bucket => Raised (Rd.run loadBucketVocab bs)
  | .fasttext => Raised (Rd.run loadFastTextVocab bs)
  | .explicit => Raised (Rd.run loadExplicitVocab bs)
  | .storage mmap => Raised (Rd.run (loadStorage mmap) bs)
  | .ndarray mmap => Raised (Rd.run (loadNdArray mmap) bs)
  | .quantized mmap => Raised (Rd.run (loadQuantizedArray mmap) bs)
  | .norms => Raised (Rd.run loadNorms bs)
  | .metadata => Raised (Rd.run (loadMetadata T) bs)

end FF
