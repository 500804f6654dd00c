import Verif.Props.C31
/-! C33: query words are excluded from the answers. -/

namespace FF

section
variable {K : Type} [NumOps K] [Score K]

theorem wordSimilarity_some {S : Sel K} {e : Embeddings K} {q : PyStr} {k : Int}
    {res : List (PyStr × K)} :
    e.wordSimilarity S q k = .ok (some res) ↔
      ∃ v, e.embedding q = .ok (some v) ∧ e.similarity S v k [q] = .ok res := by
  constructor
  · intro h
    unfold Embeddings.wordSimilarity at h
    obtain ⟨o, h1, h⟩ := res_bind_inv h
    cases o with
    | none => cases h
    | some v =>
      simp only at h
      obtain ⟨r, h2, h⟩ := res_bind_inv h
      cases h
      exact ⟨v, h1, h2⟩
  · rintro ⟨v, h1, h2⟩
    rw [wordSimilarity_eq h1, h2]; rfl

theorem analogy_inv {S : Sel K} {e : Embeddings K} {w1 w2 w3 : PyStr} {k : Int}
    {skip : Option (List PyStr)} {o : Option (List (PyStr × K))}
    (h : e.analogy S w1 w2 w3 k skip = .ok o) :
    ∃ a b c, e.embedding w1 = .ok a ∧ e.embedding w2 = .ok b ∧ e.embedding w3 = .ok c ∧
      ((o = none ∧ (a = none ∨ b = none ∨ c = none)) ∨
       ∃ a' b' c' res, a = some a' ∧ b = some b' ∧ c = some c' ∧ o = some res ∧
        e.similarity S (analogyVec a' b' c') k (skip.getD [w1, w2, w3]) = .ok res) := by
  unfold Embeddings.analogy at h
  obtain ⟨a, h1, h⟩ := res_bind_inv h
  obtain ⟨b, h2, h⟩ := res_bind_inv h
  obtain ⟨c, h3, h⟩ := res_bind_inv h
  refine ⟨a, b, c, h1, h2, h3, ?_⟩
  cases a with
  | none => cases h; exact Or.inl ⟨rfl, Or.inl rfl⟩
  | some a =>
    cases b with
    | none => cases h; exact Or.inl ⟨rfl, Or.inr (Or.inl rfl)⟩
    | some b =>
      cases c with
      | none => cases h; exact Or.inl ⟨rfl, Or.inr (Or.inr rfl)⟩
      | some c =>
        simp only at h
        obtain ⟨r, h4, h⟩ := res_bind_inv h
        cases h
        exact Or.inr ⟨a, b, c, r, rfl, rfl, rfl, rfl, h4⟩

/-- `word_similarity(q)` never answers `q`, `analogy(a, b, c)` never answers `a`, `b` or `c`, and
with `skip` only words outside `skip`; all answers are words of the vocabulary. -/
theorem C33_excluded (S : Sel K) (hS : S.Admissible) (e : Embeddings K) (he : BuiltEmb e) (k : Int) :
    (∀ q res, e.wordSimilarity S q k = .ok (some res) →
      ∀ w x, (w, x) ∈ res → w ≠ q ∧ w ∈ e.vocab.words) ∧
    (∀ a b c res, e.analogy S a b c k none = .ok (some res) →
      ∀ w x, (w, x) ∈ res → w ≠ a ∧ w ≠ b ∧ w ≠ c ∧ w ∈ e.vocab.words) ∧
    (∀ a b c skip res, e.analogy S a b c k (some skip) = .ok (some res) →
      ∀ w x, (w, x) ∈ res → w ∉ skip ∧ w ∈ e.vocab.words) ∧
    (∀ query skip res, e.embeddingSimilarity S query k skip = .ok res →
      ∀ w x, (w, x) ∈ res → w ∉ skip.getD [] ∧ w ∈ e.vocab.words) := by
  refine ⟨?_, ?_, ?_, ?_⟩
  · intro q res h w x hw
    obtain ⟨v, _, h2⟩ := wordSimilarity_some.mp h
    have := (similarity_mem hS he h2).2 _ hw
    exact ⟨fun hq => this.2 (by simp [hq]), this.1⟩
  · intro a b c res h w x hw
    obtain ⟨_, _, _, _, _, _, h4⟩ := analogy_inv h
    rcases h4 with ⟨h5, _⟩ | ⟨_, _, _, r, _, _, _, h6, h7⟩
    · cases h5
    · cases h6
      have := (similarity_mem hS he h7).2 _ hw
      rw [Option.getD_none] at this
      refine ⟨?_, ?_, ?_, this.1⟩ <;>
      · intro hq; exact this.2 (by simp [hq])
  · intro a b c skip res h w x hw
    obtain ⟨_, _, _, _, _, _, h4⟩ := analogy_inv h
    rcases h4 with ⟨h5, _⟩ | ⟨_, _, _, r, _, _, _, h6, h7⟩
    · cases h5
    · cases h6
      have := (similarity_mem hS he h7).2 _ hw
      exact ⟨this.2, this.1⟩
  · intro query skip res h w x hw
    have := (similarity_mem hS he h).2 _ hw
    exact ⟨this.2, this.1⟩

/-- With `skip`, every word outside `skip` is a candidate, even a query word: nothing that is left
out of the answer is more similar than anything in it, if no similarity is NaN. -/
theorem C33_candidates (S : Sel K) (hS : S.Admissible) (e : Embeddings K) (he : BuiltEmb e)
    (m : Mat K) (hm : e.storage = .nd m) (a b c : PyStr) (k : Nat) (skip : List PyStr)
    (res : List (PyStr × K)) (h : e.analogy S a b c k (some skip) = .ok (some res)) :
    ∃ va vb vc, e.embedding a = .ok (some va) ∧ e.embedding b = .ok (some vb) ∧
      e.embedding c = .ok (some vc) ∧
      (Comparable e (analogyVec va vb vc) skip → IsTopK e (analogyVec va vb vc) skip res.length res) ∧
      (e.vocab.words ≠ [] → res.length = k) := by
  obtain ⟨_, _, _, h1, h2, h3, h4⟩ := analogy_inv h
  rcases h4 with ⟨h5, _⟩ | ⟨va, vb, vc, r, rfl, rfl, rfl, h6, h7⟩
  · cases h5
  · cases h6
    have hla := embedding_length he.storage h1
    have hlb := embedding_length he.storage h2
    have hlc := embedding_length he.storage h3
    rw [hm] at hla hlb hlc
    have hql := analogyVec_length hla hlb hlc
    refine ⟨va, vb, vc, h1, h2, h3, ?_⟩
    rw [Option.getD_some] at h7
    by_cases h0 : e.vocab.words = []
    · obtain ⟨_, hmem⟩ := similarity_mem hS he h7
      have hr : res = [] := by
        cases res with
        | nil => rfl
        | cons x xs => have := (hmem x (by simp)).1; rw [h0] at this; cases this
      subst hr
      exact ⟨fun _ => ⟨rfl, by simp, by simp, by simp, by simp⟩, fun h => absurd h0 h⟩
    · by_cases hk : k + knownSkips e.vocab.words skip ≤ e.vocab.words.length
      · obtain ⟨res', h8, h9, _, _, h10⟩ := similarity_answer hS he hm hql h0 hk
        rw [h7] at h8
        cases h8
        rw [h9]
        exact ⟨h10, fun _ => rfl⟩
      · exfalso
        obtain ⟨hl, heq⟩ := similarity_nd S he hm hql (k : Int) skip
        have hsl := skipIndices_length he.vocab skip
        rw [heq, hS.outOfBounds _ _ ?_ (Or.inl ?_)] at h7
        · cases h7
        · intro h
          rw [h] at hl
          exact h0 (List.length_eq_zero_iff.mp hl.symm)
        · rw [hl]; omega

/-- If nothing raises, `None` is returned iff one of the words has no embedding. -/
theorem C33_none (S : Sel K) (e : Embeddings K) (k : Int) :
    (∀ q o, e.wordSimilarity S q k = .ok o → (o = none ↔ e.embedding q = .ok none)) ∧
    (∀ q, e.embedding q = .ok none → e.wordSimilarity S q k = .ok none) ∧
    (∀ a b c skip o, e.analogy S a b c k skip = .ok o →
      (o = none ↔ e.embedding a = .ok none ∨ e.embedding b = .ok none ∨ e.embedding c = .ok none)) ∧
    (∀ a b c skip x y z, e.embedding a = .ok x → e.embedding b = .ok y → e.embedding c = .ok z →
      (x = none ∨ y = none ∨ z = none) → e.analogy S a b c k skip = .ok none) := by
  refine ⟨?_, ?_, ?_, ?_⟩
  · intro q o h
    cases o with
    | some res =>
      obtain ⟨v, h1, _⟩ := wordSimilarity_some.mp h
      rw [h1]
      exact ⟨(fun h => by cases h), (fun h => by cases h)⟩
    | none =>
      refine ⟨fun _ => ?_, fun _ => rfl⟩
      unfold Embeddings.wordSimilarity at h
      obtain ⟨o, h1, h⟩ := res_bind_inv h
      cases o with
      | none => exact h1
      | some v =>
        simp only at h
        obtain ⟨r, _, h⟩ := res_bind_inv h
        cases h
  · intro q h
    unfold Embeddings.wordSimilarity
    rw [h]; rfl
  · intro a b c skip o h
    obtain ⟨x, y, z, h1, h2, h3, h4⟩ := analogy_inv h
    rw [h1, h2, h3]
    rcases h4 with ⟨rfl, h5⟩ | ⟨x', y', z', res, rfl, rfl, rfl, rfl, _⟩
    · refine ⟨fun _ => ?_, fun _ => rfl⟩
      rcases h5 with rfl | rfl | rfl
      · exact Or.inl rfl
      · exact Or.inr (Or.inl rfl)
      · exact Or.inr (Or.inr rfl)
    · constructor
      · intro h; cases h
      · rintro (h | h | h) <;> cases h
  · intro a b c skip x y z h1 h2 h3 h4
    unfold Embeddings.analogy
    rw [h1, h2, h3]
    simp only [res_bind_ok]
    rcases h4 with rfl | rfl | rfl
    · rfl
    · cases x <;> rfl
    · cases x <;> cases y <;> rfl

end

/-! ### The hypotheses can be met -/

/-- Without `skip` the query words are left out, with an empty `skip` they are candidates. -/
example : Sample.embSim.analogy (Sel.sorting Int) [97] [98] [99] (2 : Nat) none =
      .ok (some [([101], -1), ([100], -2)]) ∧
    Sample.embSim.analogy (Sel.sorting Int) [97] [98] [99] (1 : Nat) (some []) =
      .ok (some [([99], 0)]) ∧
    Sample.embSim.analogy (Sel.sorting Int) [97] [120] [99] 2 none = .ok none ∧
    Sample.embSim.wordSimilarity (Sel.sorting Int) [120] 2 = .ok none := by
  refine ⟨?_, ?_, ?_, ?_⟩ <;> decide +kernel

end FF
