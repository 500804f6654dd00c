import Verif.Spec.Built
/-! What consistent embeddings are, without reference to how they were made. -/

namespace FF

/-- The words are distinct and numbered by their positions, every row of the storage is the row of a
word or of a subword index, there is a norm per word, rows have the length they should have, and
every index that a query gives is the number of a row; those of subwords come after the words. -/
structure Consistent {K : Type} (e : Embeddings K) : Prop where
  nodup : e.vocab.words.Nodup
  index : ∀ w i, Dict.get? e.vocab.index w = some i ↔ e.vocab.words[i]? = some w
  rows : (e.storage.nRows : Int) = e.vocab.upperBound
  norms : ∀ n, e.norms = some n → n.length = e.vocab.words.length
  shape : StorageWF e.storage
  one : ∀ q i, e.vocab.idx q = .ok (some (.one i)) → i < e.storage.nRows
  many : ∀ q is, e.vocab.idx q = .ok (some (.many is)) →
    ∀ i ∈ is, (e.vocab.words.length : Int) ≤ i ∧ i < e.storage.nRows
  subwords : ∀ q ix br is, e.vocab.sub = some ix → e.vocab.subwordIndices ix q br = .ok is →
    ∀ i ∈ is, (e.vocab.words.length : Int) ≤ i ∧ i < e.storage.nRows

end FF
