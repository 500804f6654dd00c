import Verif.Model.Embeddings
/-!
# Values a user can build
Preconditions of the property theorems, in terms of the constructors.
-/

namespace FF

/-- Indexers returned by one of the constructors.  A dict passed as `ngram_index` has
distinct keys. -/
inductive BuiltIndexer : Indexer → Prop
  | fifu {b mn mx : Int} {ix : FifuIndexer} (h : FifuIndexer.new b mn mx = .ok ix) :
      BuiltIndexer (.fifu ix)
  | ft {b mn mx : Int} {ix : FtIndexer} (h : FtIndexer.new b mn mx = .ok ix) :
      BuiltIndexer (.ft ix)
  | expl {gs : List PyStr} {mn mx : Int} {ix : ExplIndexer}
      (h : ExplIndexer.new gs mn mx none = .ok ix) : BuiltIndexer (.expl ix)
  | explIdx {gs : List PyStr} {mn mx : Int} {d : Dict PyStr Int} {ix : ExplIndexer}
      (hd : (d.map Prod.fst).Nodup) (h : ExplIndexer.new gs mn mx (some d) = .ok ix) :
      BuiltIndexer (.expl ix)

/-- Vocabularies returned by one of the constructors. -/
def BuiltVocab (v : Vocab) : Prop :=
  (∀ ix, v.sub = some ix → BuiltIndexer ix) ∧ Vocab.new v.words v.sub = .ok v

/-- `numpy` has float32 matrices of this shape: their bytes can be counted with 63 bits, even if the dimensions that
are zero are left out. -/
def ShapeOk (rows cols : Nat) : Prop := 4 * (max 1 rows * max 1 cols) < 2 ^ 63

/-- Shapes of a quantized storage fit together, as for any storage read from a file. -/
structure QWF {K : Type} (q : QArr K) : Prop where
  qpos : 0 < q.qlen
  qlen : q.qlen = q.pq.quantizers.length
  cents : ∀ m ∈ q.pq.quantizers, m.length = q.pq.nCentroids
  subs : ∀ m ∈ q.pq.quantizers, ∀ r ∈ m, r.length = q.pq.sub
  proj : ∀ p, q.pq.projection = some p → p.WF ∧ p.rows.length = q.pq.reconstructedLen ∧
    p.cols = q.pq.reconstructedLen
  norms : ∀ n, q.norms = some n → n.length = q.codes.length
  codes : ∀ c ∈ q.codes, c.length = q.qlen
  fits : 4 * (max 1 q.pq.quantizers.length * (max 1 q.pq.nCentroids * max 1 q.pq.sub)) < 2 ^ 63
  codesFit : max 1 q.codes.length * q.qlen < 2 ^ 63

/-- Arrays have the shapes they claim to have, which are shapes of numpy arrays. -/
def StorageWF {K : Type} : Storage K → Prop
  | .nd m => m.WF ∧ ShapeOk m.rows.length m.cols
  | .quant q => QWF q

/-- The matrix has at least one element. -/
def Storage.nonempty {K : Type} : Storage K → Prop
  | .nd m => m.size ≠ 0
  | .quant q => q.codes.length ≠ 0

/-- Embeddings returned by the constructor. -/
structure BuiltEmb {K : Type} (e : Embeddings K) : Prop where
  vocab : BuiltVocab e.vocab
  storage : StorageWF e.storage
  new : Embeddings.new e.storage e.vocab e.norms e.metadata = .ok e

/-- The vocabulary is not an `ExplicitVocab` with an empty n-gram list. -/
def HasNgrams (v : Vocab) : Prop := ∀ ix, v.sub = some (.expl ix) → ix.ngrams ≠ []

/-- The TOML library reads back what it wrote for this metadata. -/
def TomlOk (T : Toml) (md : Option Meta) : Prop :=
  ∀ m s, md = some m → T.dumps m = .ok s → T.loads s = .ok m

/-! ### Observational equality -/

/-- Same indexer parameters, n-grams and n-gram indices. -/
def SameIndexer : Indexer → Indexer → Prop
  | .fifu a, .fifu b => a = b
  | .ft a, .ft b => a = b
  | .expl a, .expl b => a.ngrams = b.ngrams ∧ a.minN = b.minN ∧ a.maxN = b.maxN ∧
      a.bound = b.bound ∧ ∀ g, Dict.get? a.index g = Dict.get? b.index g
  | _, _ => False

/-- Same class, words in order, word index and indexer. -/
def SameVocab (a b : Vocab) : Prop :=
  a.words = b.words ∧ (∀ w, Dict.get? a.index w = Dict.get? b.index w) ∧
  match a.sub, b.sub with
  | none, none => True
  | some i, some j => SameIndexer i j
  | _, _ => False

/-- Same vocabulary, bit-identical storage and norms, equal metadata. -/
structure SameEmb (a b : Embeddings F32) : Prop where
  vocab : SameVocab a.vocab b.vocab
  storage : a.storage = b.storage
  norms : a.norms = b.norms
  metadata : a.metadata = b.metadata

end FF
