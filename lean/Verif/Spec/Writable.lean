import Verif.Spec.Built
/-! Conditions under which embeddings can be written to a finalfusion file. -/

namespace FF

/-- No lone surrogates, and the encoded length fits into the 32-bit length field. -/
def Storable (w : PyStr) : Prop :=
  (∀ c ∈ w, c.val < 0xD800 ∨ 0xDFFF < c.val) ∧ (utf8 w).length < 2 ^ 32

/-- Upper bound of the bytes needed for a storage. -/
def storageBytes : Storage F32 → Nat
  | .nd m => 4 * (m.rows.length * m.cols)
  | .quant q =>
      4 * (q.pq.reconstructedLen * q.pq.reconstructedLen) +
      4 * (q.pq.quantizers.length * q.pq.nCentroids * q.pq.sub) +
      4 * q.codes.length + q.codes.length * q.qlen

/-- Bytes needed for words and n-grams. -/
def vocabBytes (v : Vocab) : Nat :=
  (v.words.map fun w => 4 + (utf8 w).length).sum +
  match v.sub with
  | some (.expl ix) => (ix.ngrams.map fun g => 12 + (utf8 g).length).sum
  | _ => 0

/-- Everything fits into the fields of the file format. -/
structure Writable (T : Toml) (e : Embeddings F32) (metaText : PyStr) : Prop where
  words : ∀ w ∈ e.vocab.words, Storable w
  ngrams : ∀ ix, e.vocab.sub = some (.expl ix) →
    (∀ g ∈ ix.ngrams, Storable g) ∧ ∀ p ∈ ix.index, (0 : Int) ≤ p.2
  metadata : ∀ m, e.metadata = some m → T.dumps m = .ok metaText ∧
    ∀ c ∈ metaText, c.val < 0xD800 ∨ 0xDFFF < c.val
  shape : match e.storage with
    | .nd m => m.cols < 2 ^ 32
    | .quant q => q.qlen < 2 ^ 32 ∧ q.pq.reconstructedLen < 2 ^ 32 ∧ q.pq.nCentroids < 2 ^ 32
  size : (utf8 metaText).length + vocabBytes e.vocab + storageBytes e.storage +
    4 * ((e.norms.map List.length).getD 0) + 256 < 2 ^ 63

end FF
