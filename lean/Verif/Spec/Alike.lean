import Verif.Model.Similarity
import Verif.Spec.Firsts
/-!
# Embeddings that cannot be told apart by queries
-/

namespace FF

section
variable {K : Type} [NumOps K]

/-- Every lookup and every query has the same outcome: the same value or the same exception. -/
structure Alike (a b : Embeddings K) : Prop where
  words : a.vocab.words = b.vocab.words
  len : a.vocab.len = b.vocab.len
  bound : a.vocab.upperBound = b.vocab.upperBound
  contains : ∀ w, a.vocab.contains w = b.vocab.contains w
  idx : ∀ w d, a.vocab.idx w d = b.vocab.idx w d
  index : ∀ w, a.vocab.getItem w = b.vocab.getItem w
  getItem : ∀ w, a.getItem w = b.getItem w
  embedding : ∀ w, a.embedding w = b.embedding w
  withNorm : ∀ w, a.embeddingWithNorm w = b.embeddingWithNorm w
  near : ∀ S query k skip, a.embeddingSimilarity S query k skip = b.embeddingSimilarity S query k skip
  nearWord : ∀ S w k, a.wordSimilarity S w k = b.wordSimilarity S w k
  analogy : ∀ S w1 w2 w3 k skip, a.analogy S w1 w2 w3 k skip = b.analogy S w1 w2 w3 k skip

/-- Words of the vocabulary, and other strings that have n-grams, all of which are n-grams of words of the vocabulary -/
def CarriedOver (v : Vocab) (w : PyStr) : Prop :=
  w ∈ v.words ∨ ∃ ix A gs, v.sub = some ix ∧ NgramsOfAll v.words ix.minN ix.maxN A ∧
    NgramsOf (wrap true w) ix.minN ix.maxN gs ∧ gs ≠ [] ∧ ∀ g ∈ gs, g ∈ A

end

end FF
