import Verif.Model.Similarity
import Verif.Spec.Num
/-!
# Embeddings whose vectors have the same directions
-/

namespace FF

/-- A vector times a number. -/
def times (c : ℝ) (v : List ℝ) : List ℝ := v.map fun x => c * x

/-- Every lookup and every query has the same outcome in `b` as in `a`, but for the norms: that of `w` is `c w` times
as large. -/
structure SameBearing (c : PyStr → ℝ) (a b : Embeddings ℝ) : Prop where
  vocab : b.vocab = a.vocab
  getItem : ∀ w, b.getItem w = a.getItem w
  embedding : ∀ w, b.embedding w = a.embedding w
  norm : ∀ w v n, a.embeddingWithNorm w = .ok (some (v, some n)) →
    b.embeddingWithNorm w = .ok (some (v, some (c w * n)))
  near : ∀ S query k skip, b.embeddingSimilarity S query k skip = a.embeddingSimilarity S query k skip
  nearWord : ∀ S w k, b.wordSimilarity S w k = a.wordSimilarity S w k
  analogy : ∀ S w1 w2 w3 k skip, b.analogy S w1 w2 w3 k skip = a.analogy S w1 w2 w3 k skip

/-- `b` knows the words of `a` and nothing else, and all queries for words of `a` or for vectors have the same outcome. -/
structure SameForWords (a b : Embeddings ℝ) : Prop where
  words : b.vocab.words = a.vocab.words
  getItem : ∀ w ∈ a.vocab.words, b.getItem w = a.getItem w
  embedding : ∀ w ∈ a.vocab.words, b.embedding w = a.embedding w
  withNorm : a.norms ≠ none → ∀ w ∈ a.vocab.words, b.embeddingWithNorm w = a.embeddingWithNorm w
  norms : b.norms ≠ none
  unknown : ∀ w, w ∉ a.vocab.words → b.embedding w = .ok none ∧ b.getItem w = .error .keyError
  near : ∀ S query k skip, b.embeddingSimilarity S query k skip = a.embeddingSimilarity S query k skip
  nearWord : ∀ w ∈ a.vocab.words, ∀ S k, b.wordSimilarity S w k = a.wordSimilarity S w k
  analogy : ∀ w1 ∈ a.vocab.words, ∀ w2 ∈ a.vocab.words, ∀ w3 ∈ a.vocab.words, ∀ S k skip,
    b.analogy S w1 w2 w3 k skip = a.analogy S w1 w2 w3 k skip

/-- The rows of the words have length one, and the norms, if there are any, are positive. -/
def UnitWords (e : Embeddings ℝ) : Prop :=
  ∃ m, e.storage = .nd m ∧
    (∀ (i : Nat) row, i < e.vocab.words.length → m.rows[i]? = some row → sumProd row row = 1) ∧
    ∀ ns, e.norms = some ns → ∀ n ∈ ns, 0 < n

end FF
