import Verif.Props.C31
/-! C32: the number of results of a similarity query. -/

namespace FF

section
variable {K : Type} [NumOps K] [Score K]

/-- Never more than `k` results, for every integer `k` and every storage. -/
theorem C32_at_most (S : Sel K) (hS : S.Admissible) (e : Embeddings K) (he : BuiltEmb e) (k : Int) :
    (∀ query skip res, e.embeddingSimilarity S query k skip = .ok res → res.length ≤ k.toNat) ∧
    (∀ w res, e.wordSimilarity S w k = .ok (some res) → res.length ≤ k.toNat) ∧
    (∀ a b c skip res, e.analogy S a b c k skip = .ok (some res) → res.length ≤ k.toNat) := by
  refine ⟨fun query skip res h => (similarity_mem hS he h).1, fun w res h => ?_,
    fun a b c skip res h => ?_⟩
  · unfold Embeddings.wordSimilarity at h
    obtain ⟨o, _, h⟩ := res_bind_inv h
    cases o with
    | none => cases h
    | some v =>
      simp only at h
      obtain ⟨r, h1, h⟩ := res_bind_inv h
      cases h
      exact (similarity_mem hS he h1).1
  · unfold Embeddings.analogy at h
    obtain ⟨oa, _, h⟩ := res_bind_inv h
    obtain ⟨ob, _, h⟩ := res_bind_inv h
    obtain ⟨oc, _, h⟩ := res_bind_inv h
    cases oa with
    | none => cases h
    | some va =>
      cases ob with
      | none => cases h
      | some vb =>
        cases oc with
        | none => cases h
        | some vc =>
          simp only at h
          obtain ⟨r, h1, h⟩ := res_bind_inv h
          cases h
          exact (similarity_mem hS he h1).1

/-- If `k` plus the number of skipped words does not exceed the number of words, there are
`min(k, candidates)` results.  Missing for the full claim: larger `k` (see `C32_raises`). -/
theorem C32_count_partial (S : Sel K) (hS : S.Admissible) (e : Embeddings K) (he : BuiltEmb e)
    (m : Mat K) (hm : e.storage = .nd m) (query : List K) (hq : query.length = m.cols) (k : Nat)
    (skips : List PyStr) (h0 : e.vocab.words ≠ [])
    (hk : k + knownSkips e.vocab.words skips ≤ e.vocab.words.length) :
    ∃ res, e.embeddingSimilarity S query k (some skips) = .ok res ∧
      res.length = min k (e.vocab.words.filter fun w => decide (w ∉ skips)).length := by
  obtain ⟨res, h1, h2, _⟩ := similarity_answer hS he hm hq h0 hk
  refine ⟨res, h1, ?_⟩
  have := List.length_eq_length_filter_add (l := e.vocab.words) (fun w => decide (w ∈ skips))
  have heq : (e.vocab.words.filter fun i => !decide (i ∈ skips)) =
      (e.vocab.words.filter fun i => decide (i ∉ skips)) := by
    congr 1; funext i; simp
  rw [heq] at this
  unfold knownSkips at hk
  rw [h2]
  omega

/-- Otherwise the query raises `ValueError`, whatever the embeddings. -/
theorem C32_raises (S : Sel K) (hS : S.Admissible) (e : Embeddings K) (he : BuiltEmb e)
    (m : Mat K) (hm : e.storage = .nd m) (k : Nat) (h0 : e.vocab.words ≠ []) :
    (∀ query skips, query.length = m.cols →
      e.vocab.words.length < k + knownSkips e.vocab.words skips →
      e.embeddingSimilarity S query k (some skips) = .error .valueError) ∧
    (∀ w v, e.embedding w = .ok (some v) → e.vocab.words.length < k + knownSkips e.vocab.words [w] →
      e.wordSimilarity S w k = .error .valueError) ∧
    (∀ w1 w2 w3 a b c, e.embedding w1 = .ok (some a) → e.embedding w2 = .ok (some b) →
      e.embedding w3 = .ok (some c) →
      e.vocab.words.length < k + knownSkips e.vocab.words [w1, w2, w3] →
      e.analogy S w1 w2 w3 k none = .error .valueError) := by
  have main : ∀ query skips, query.length = m.cols →
      e.vocab.words.length < k + knownSkips e.vocab.words skips →
      e.similarity S query k skips = .error .valueError := by
    intro query skips hq hk
    obtain ⟨hl, heq⟩ := similarity_nd S he hm hq (k : Int) skips
    have hsl := skipIndices_length he.vocab skips
    rw [heq, hS.outOfBounds _ _ ?_ (Or.inl ?_)]
    · rfl
    · intro h
      rw [h] at hl
      exact h0 (List.length_eq_zero_iff.mp hl.symm)
    · rw [hl]; omega
  refine ⟨fun query skips hq hk => main query skips hq hk, fun w v hv hk => ?_,
    fun w1 w2 w3 a b c ha hb hc hk => ?_⟩
  · have hl := embedding_length he.storage hv
    rw [hm] at hl
    rw [wordSimilarity_eq hv, main v [w] hl hk]; rfl
  · have hla := embedding_length he.storage ha
    have hlb := embedding_length he.storage hb
    have hlc := embedding_length he.storage hc
    rw [hm] at hla hlb hlc
    rw [analogy_eq ha hb hc, Option.getD_none,
      main _ _ (analogyVec_length hla hlb hlc) hk]; rfl

end

/-- The claim fails: asking five words for the default 10 neighbours raises, and so does asking
for 5 when the query word itself is one of them. -/
theorem C32_refuted : ∃ e : Embeddings Int, BuiltEmb e ∧ [97] ∈ e.vocab.words ∧
    ∀ S : Sel Int, S.Admissible → e.wordSimilarity S [97] 10 = .error .valueError ∧
      e.wordSimilarity S [97] 5 = .error .valueError ∧
      e.embeddingSimilarity S [1, 1] 6 (some []) = .error .valueError ∧
      e.analogy S [97] [98] [99] 3 none = .error .valueError := by
  refine ⟨Sample.embSim, Sample.builtEmbSim, by decide, fun S hS => ?_⟩
  have h := fun k => C32_raises S hS Sample.embSim Sample.builtEmbSim _ rfl k (by decide)
  exact ⟨(h 10).2.1 [97] [3, 0] (by decide +kernel) (by decide),
    (h 5).2.1 [97] [3, 0] (by decide +kernel) (by decide),
    (h 6).1 [1, 1] [] (by decide) (by decide),
    (h 3).2.2 [97] [98] [99] [3, 0] [1, 2] [0, 5] (by decide +kernel) (by decide +kernel)
      (by decide +kernel) (by decide)⟩

/-! ### The hypotheses can be met -/

example : 4 + knownSkips Sample.embSim.vocab.words [[97]] ≤ Sample.embSim.vocab.words.length ∧
    Sample.embSim.wordSimilarity (Sel.sorting Int) [97] (4 : Nat) =
      .ok (some [([100], 6), ([101], 3), ([98], 3), ([99], 0)]) := by
  decide +kernel

example : Sample.embSim.embeddingSimilarity (Sel.sorting Int) [1, 1] (-3) none = .ok [] := by
  decide +kernel

end FF
