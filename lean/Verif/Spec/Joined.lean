import Verif.Spec.Built
/-! Two embeddings put together. -/

namespace FF

/-- `e` has the words of `e1` and then those of `e2`, each with its row and norm; no subwords and no metadata. -/
def Joined {K : Type} (e1 e2 e : Embeddings K) : Prop :=
  e.vocab.words = e1.vocab.words ++ e2.vocab.words ∧ e.vocab.sub = none ∧ BuiltVocab e.vocab ∧ e.metadata = none ∧
  (∃ n1 n2, e1.norms = some n1 ∧ e2.norms = some n2 ∧ e.norms = some (n1 ++ n2)) ∧
  ∃ m1 m2 : Mat K, e1.storage = .nd m1 ∧ e2.storage = .nd m2 ∧ e.storage = .nd ⟨m1.cols, m1.rows ++ m2.rows⟩

end FF
