import Verif.Props.C33
/-! C34: similarity queries and storage types. -/

namespace FF

section
variable {K : Type} [NumOps K] [Score K]

/-- With an `NdArray` every query gives results.  Missing for the full claim: `QuantizedArray`,
for which it is false (`C34_quantized`). -/
theorem C34_ndarray_partial (S : Sel K) (hS : S.Admissible) (e : Embeddings K) (he : BuiltEmb e)
    (m : Mat K) (hm : e.storage = .nd m) (k : Nat) (h0 : e.vocab.words ≠ []) :
    (∀ query skips, query.length = m.cols →
      k + knownSkips e.vocab.words skips ≤ e.vocab.words.length →
      ∃ res, e.embeddingSimilarity S query k (some skips) = .ok res ∧ res.length = k) ∧
    (∀ w v, e.embedding w = .ok (some v) →
      k + knownSkips e.vocab.words [w] ≤ e.vocab.words.length →
      ∃ res, e.wordSimilarity S w k = .ok (some res) ∧ res.length = k) ∧
    (∀ w1 w2 w3 a b c, e.embedding w1 = .ok (some a) → e.embedding w2 = .ok (some b) →
      e.embedding w3 = .ok (some c) →
      k + knownSkips e.vocab.words [w1, w2, w3] ≤ e.vocab.words.length →
      ∃ res, e.analogy S w1 w2 w3 k none = .ok (some res) ∧ res.length = k) := by
  refine ⟨fun query skips hq hk => ?_, fun w v hv hk => ?_, fun w1 w2 w3 a b c ha hb hc hk => ?_⟩
  · obtain ⟨res, h1, h2, _⟩ := similarity_answer hS he hm hq h0 hk
    exact ⟨res, h1, h2⟩
  · have hl := embedding_length he.storage hv
    rw [hm] at hl
    obtain ⟨res, h1, h2, _⟩ := similarity_answer hS he hm hl h0 hk
    exact ⟨res, by rw [wordSimilarity_eq hv, h1]; rfl, h2⟩
  · have hla := embedding_length he.storage ha
    have hlb := embedding_length he.storage hb
    have hlc := embedding_length he.storage hc
    rw [hm] at hla hlb hlc
    obtain ⟨res, h1, h2, _⟩ := similarity_answer hS he hm (analogyVec_length hla hlb hlc) h0 hk
    exact ⟨res, by rw [analogy_eq ha hb hc, Option.getD_none, h1]; rfl, h2⟩

/-- With a `QuantizedArray` every similarity query of a word with an embedding raises
`AttributeError`, because `QuantizedArray` has no method `dot`. -/
theorem C34_quantized (S : Sel K) (e : Embeddings K) (he : BuiltEmb e) (q : QArr K)
    (hq : e.storage = .quant q) (k : Int) :
    (∀ query skip, e.embeddingSimilarity S query k skip = .error .attributeError) ∧
    (∀ w v, e.embedding w = .ok (some v) → e.wordSimilarity S w k = .error .attributeError) ∧
    (∀ w1 w2 w3 a b c skip, e.embedding w1 = .ok (some a) → e.embedding w2 = .ok (some b) →
      e.embedding w3 = .ok (some c) → e.analogy S w1 w2 w3 k skip = .error .attributeError) := by
  have main : ∀ query skips, e.similarity S query k skips = .error .attributeError := by
    intro query skips
    unfold Embeddings.similarity
    obtain ⟨s', is, h1, _, _⟩ := slice_ok he.storage (sl := .upTo e.vocab.len) (by simp [PySlice.upTo])
    rw [hq] at h1 ⊢
    have : ∃ q', s' = .quant q' := by
      unfold Storage.slice at h1
      simp only at h1
      obtain ⟨q', _, h⟩ := res_bind_inv h1
      cases h
      exact ⟨q', rfl⟩
    obtain ⟨q', rfl⟩ := this
    rw [h1]; rfl
  refine ⟨fun query skip => main _ _, fun w v hv => ?_, fun w1 w2 w3 a b c skip ha hb hc => ?_⟩
  · rw [wordSimilarity_eq hv, main]; rfl
  · rw [analogy_eq ha hb hc, main]; rfl

end

/-- Quantized embeddings of two words. -/
def Sample.embQ : Embeddings Int :=
  ⟨.quant ⟨⟨2, 1, [[[1], [2]], [[3], [5]]], none⟩, 2, [[0, 1], [1, 1]], none⟩,
    ⟨[[97], [98]], enumItems [[97], [98]], none⟩, none, none⟩

theorem Sample.builtEmbQ : BuiltEmb Sample.embQ :=
  ⟨⟨(by intro ix h; cases h), by decide⟩,
    ⟨by decide, rfl, by decide, by decide, (by intro p h; cases h), (by intro p h; cases h), by decide,
      by decide, by decide⟩, rfl⟩

/-- The claim fails: the row of `a` can be read, but its neighbours cannot be queried. -/
theorem C34_refuted : ∃ e : Embeddings Int, BuiltEmb e ∧ e.embedding [97] = .ok (some [1, 5]) ∧
    ∀ S : Sel Int, e.wordSimilarity S [97] 1 = .error .attributeError ∧
      e.embeddingSimilarity S [1, 5] 1 none = .error .attributeError ∧
      e.analogy S [97] [98] [97] 0 none = .error .attributeError := by
  refine ⟨Sample.embQ, Sample.builtEmbQ, by decide +kernel, fun S => ?_⟩
  have h := fun k => C34_quantized S Sample.embQ Sample.builtEmbQ _ rfl k
  exact ⟨(h 1).2.1 [97] [1, 5] (by decide +kernel), (h 1).1 _ _,
    (h 0).2.2 [97] [98] [97] [1, 5] [2, 5] [1, 5] none (by decide +kernel) (by decide +kernel)
      (by decide +kernel)⟩

/-! ### The hypotheses can be met -/

example : BuiltEmb Sample.embSim ∧ Sample.embSim.vocab.words ≠ [] ∧
    Sample.embSim.embedding [98] = .ok (some [1, 2]) ∧
    4 + knownSkips Sample.embSim.vocab.words [[98]] ≤ Sample.embSim.vocab.words.length ∧
    Sample.embSim.wordSimilarity (Sel.sorting Int) [98] (4 : Nat) =
      .ok (some [([99], 10), ([100], 6), ([101], 5), ([97], 3)]) :=
  ⟨Sample.builtEmbSim, by decide, by decide +kernel, by decide, by decide +kernel⟩

end FF
