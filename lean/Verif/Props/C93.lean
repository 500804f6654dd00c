import Verif.Lemmas.Reorder
import Verif.Lemmas.Word2Vec
import Verif.Props.C31
import Verif.Props.C32
/-! C93: the order of the words does not matter. -/

namespace FF

section
variable {K : Type} [NumOps K]

/-- If the words of embeddings come in another order, each with its row and norm, every string has the same vector and
norm, or the lookup raises the same exception. -/
theorem C93_lookup {e e' : Embeddings K} (he : BuiltEmb e) (he' : BuiltEmb e') (h : Reordered e e')
    (hlen : e.vocab.words.length < 2 ^ 63) (hneg : ∀ ix, e.vocab.sub = some ix → NonNegIndex ix) (w : PyStr) :
    e.embedding w = e'.embedding w ∧ e.getItem w = e'.getItem w ∧ e.embeddingWithNorm w = e'.embeddingWithNorm w :=
  reordered_lookup he he' h hlen hneg w

variable [Score K]

theorem reordered_similarity {S S' : Sel K} (hS : S.Admissible) (hS' : S'.Admissible) {e e' : Embeddings K} (he : BuiltEmb e)
    (he' : BuiltEmb e') (h : Reordered e e') {m m' : Mat K} (hm : e.storage = .nd m) (hm' : e'.storage = .nd m')
    {query : List K} (hq : query.length = m.cols) {k : Nat} {skips : List PyStr} (h0 : e.vocab.words ≠ [])
    (hc : Comparable e query skips) :
    (∃ res res', e.similarity S query k skips = .ok res ∧ e'.similarity S' query k skips = .ok res' ∧ SameAnswers res res') ∨
    (e.similarity S query k skips = .error .valueError ∧ e'.similarity S' query k skips = .error .valueError) := by
  have hcols : m.cols = m'.cols := by have := h.cols; rwa [hm, hm'] at this
  have h0' : e'.vocab.words ≠ [] := fun hx => h0 (by have := h.words; rw [hx] at this; exact this.eq_nil)
  have hks : knownSkips e.vocab.words skips = knownSkips e'.vocab.words skips := (h.words.filter _).length_eq
  by_cases hk : k + knownSkips e.vocab.words skips ≤ e.vocab.words.length
  · obtain ⟨res, r1, t1⟩ := C31_top_k S hS e he m hm query hq k skips h0 hk hc
    have hc' : Comparable e' query skips := by
      intro i w row hw hrow hs
      obtain ⟨j, hj, hrj⟩ := h.symm.hasVector ⟨i, hw, hrow⟩
      exact hc j w row hj hrj hs
    obtain ⟨res', r2, t2⟩ := C31_top_k S' hS' e' he' m' hm' query (hq.trans hcols) k skips h0'
      (by rw [← hks, ← h.words.length_eq]; exact hk) hc'
    exact .inl ⟨res, res', r1, r2, topK_same he he' (fun w row => ⟨h.hasVector, h.symm.hasVector⟩) t1 t2 hc⟩
  · right
    exact ⟨(C32_raises S hS e he m hm k h0).1 query skips hq (by omega),
      (C32_raises S' hS' e' he' m' hm' k h0').1 query skips (hq.trans hcols)
        (by rw [← hks, ← h.words.length_eq]; omega)⟩

/-- `embedding_similarity` answers alike, whatever numpy and heapq do with equal similarities. -/
theorem C93_similarity {S S' : Sel K} (hS : S.Admissible) (hS' : S'.Admissible) {e e' : Embeddings K} (he : BuiltEmb e)
    (he' : BuiltEmb e') (h : Reordered e e') {m m' : Mat K} (hm : e.storage = .nd m) (hm' : e'.storage = .nd m')
    (query : List K) (hq : query.length = m.cols) (k : Nat) (skip : Option (List PyStr)) (h0 : e.vocab.words ≠ [])
    (hc : Comparable e query (skip.getD [])) :
    SameOutcome ((e.embeddingSimilarity S query k skip).map some) ((e'.embeddingSimilarity S' query k skip).map some) := by
  unfold Embeddings.embeddingSimilarity
  rcases reordered_similarity hS hS' he he' h hm hm' hq (k := k) h0 hc with ⟨a, b, h1, h2, h3⟩ | ⟨h1, h2⟩
  · rw [h1, h2]; exact h3
  · rw [h1, h2]; exact rfl

/-- So does `word_similarity`, for known and unknown words. -/
theorem C93_word_similarity {S S' : Sel K} (hS : S.Admissible) (hS' : S'.Admissible) {e e' : Embeddings K} (he : BuiltEmb e)
    (he' : BuiltEmb e') (h : Reordered e e') {m m' : Mat K} (hm : e.storage = .nd m) (hm' : e'.storage = .nd m')
    (hlen : e.vocab.words.length < 2 ^ 63) (hneg : ∀ ix, e.vocab.sub = some ix → NonNegIndex ix) (w : PyStr) (k : Nat)
    (h0 : e.vocab.words ≠ []) (hc : ∀ v, e.embedding w = .ok (some v) → Comparable e v [w]) :
    SameOutcome (e.wordSimilarity S w k) (e'.wordSimilarity S' w k) := by
  have hl := (C93_lookup he he' h hlen hneg w).1
  cases hx : e.embedding w with
  | error x =>
    unfold Embeddings.wordSimilarity
    rw [← hl, hx]
    exact rfl
  | ok o =>
    cases o with
    | none =>
      unfold Embeddings.wordSimilarity
      rw [← hl, hx]
      trivial
    | some v =>
      have hq : v.length = m.cols := by
        have := embedding_length he.storage hx
        rwa [hm] at this
      rw [wordSimilarity_eq hx, wordSimilarity_eq (hl ▸ hx)]
      exact C93_similarity hS hS' he he' h hm hm' v hq k (some [w]) h0 (hc v hx)

/-- And `analogy`. -/
theorem C93_analogy {S S' : Sel K} (hS : S.Admissible) (hS' : S'.Admissible) {e e' : Embeddings K} (he : BuiltEmb e)
    (he' : BuiltEmb e') (h : Reordered e e') {m m' : Mat K} (hm : e.storage = .nd m) (hm' : e'.storage = .nd m')
    (hlen : e.vocab.words.length < 2 ^ 63) (hneg : ∀ ix, e.vocab.sub = some ix → NonNegIndex ix) (w1 w2 w3 : PyStr) (k : Nat)
    (skip : Option (List PyStr)) (h0 : e.vocab.words ≠ [])
    (hc : ∀ a b c, e.embedding w1 = .ok (some a) → e.embedding w2 = .ok (some b) → e.embedding w3 = .ok (some c) →
      Comparable e (analogyVec a b c) (skip.getD [w1, w2, w3])) :
    SameOutcome (e.analogy S w1 w2 w3 k skip) (e'.analogy S' w1 w2 w3 k skip) := by
  have hl := fun w => (C93_lookup he he' h hlen hneg w).1
  have hlen' : ∀ w v, e.embedding w = .ok (some v) → v.length = m.cols := by
    intro w v hv
    have := embedding_length he.storage hv
    rwa [hm] at this
  by_cases hall : ∃ a b c, e.embedding w1 = .ok (some a) ∧ e.embedding w2 = .ok (some b) ∧ e.embedding w3 = .ok (some c)
  · obtain ⟨a, b, c, ha, hb, hc3⟩ := hall
    rw [analogy_eq ha hb hc3, analogy_eq (hl w1 ▸ ha) (hl w2 ▸ hb) (hl w3 ▸ hc3)]
    exact C93_similarity hS hS' he he' h hm hm' _
      (analogyVec_length (hlen' _ _ ha) (hlen' _ _ hb) (hlen' _ _ hc3)) k (some (skip.getD [w1, w2, w3])) h0
      (hc a b c ha hb hc3)
  · unfold Embeddings.analogy
    rw [← hl w1, ← hl w2, ← hl w3]
    cases h1 : e.embedding w1 with
    | error x => exact rfl
    | ok a =>
      cases h2 : e.embedding w2 with
      | error x => exact rfl
      | ok b =>
        cases h3 : e.embedding w3 with
        | error x => exact rfl
        | ok c =>
          cases a with
          | none => trivial
          | some a =>
            cases b with
            | none => trivial
            | some b =>
              cases c with
              | none => trivial
              | some c => exact absurd ⟨a, b, c, h1, h2, h3⟩ hall

/-- If no two words are equally similar to the query, the answers are the same words with the same similarities. -/
theorem C93_unique {S S' : Sel K} (hS : S.Admissible) (hS' : S'.Admissible) {e e' : Embeddings K} (he : BuiltEmb e)
    (he' : BuiltEmb e') (h : Reordered e e') {m m' : Mat K} (hm : e.storage = .nd m) (hm' : e'.storage = .nd m')
    (query : List K) (hq : query.length = m.cols) (k : Nat) (skips : List PyStr) (h0 : e.vocab.words ≠ [])
    (hk : k + knownSkips e.vocab.words skips ≤ e.vocab.words.length) (hc : Comparable e query skips)
    (hdist : ∀ w w' r r', HasVector e w r → HasVector e w' r' → Score.lt (NumOps.dot r query) (NumOps.dot r' query) = false →
      Score.lt (NumOps.dot r' query) (NumOps.dot r query) = false → w = w') :
    e.similarity S query k skips = e'.similarity S' query k skips := by
  rcases reordered_similarity hS hS' he he' h hm hm' hq (k := k) (skips := skips) h0 hc with ⟨a, b, h1, h2, h3⟩ | ⟨h1, h2⟩
  · rw [h1, h2]
    congr 1
    have hv : ∀ {S : Sel K}, S.Admissible → ∀ {e : Embeddings K}, BuiltEmb e → ∀ {res}, e.similarity S query k skips = .ok res →
        ∀ {m}, e.storage = .nd m → query.length = m.cols → e.vocab.words ≠ [] →
        k + knownSkips e.vocab.words skips ≤ e.vocab.words.length →
        ∀ r ∈ res, ∃ row, HasVector e r.1 row ∧ r.2 = NumOps.dot row query := by
      intro S hS e he res hres m hm hq h0 hk r hr
      obtain ⟨res', g1, _, _, g2, _⟩ := similarity_answer hS he hm hq h0 hk
      rw [hres] at g1; cases g1
      obtain ⟨_, i, row, g3, g4, g5⟩ := g2 r.1 r.2 hr
      exact ⟨row, ⟨i, g3, g4⟩, g5⟩
    have hcols : m.cols = m'.cols := by have := h.cols; rwa [hm, hm'] at this
    have h0' : e'.vocab.words ≠ [] := fun hx => h0 (by have := h.words; rw [hx] at this; exact this.eq_nil)
    have hks : knownSkips e.vocab.words skips = knownSkips e'.vocab.words skips := (h.words.filter _).length_eq
    have ha := hv hS he h1 hm hq h0 hk
    have hb := hv hS' he' h2 hm' (hq.trans hcols) h0' (by rw [← hks, ← h.words.length_eq]; exact hk)
    refine List.ext_getElem h3.scores.length_eq fun i i1 i2 => ?_
    have hi := (List.forall₂_iff_get.mp h3.scores).2 i i1 i2
    simp only [List.get_eq_getElem] at hi
    obtain ⟨r, r1, r2⟩ := ha _ (List.getElem_mem i1)
    obtain ⟨r', r1', r2'⟩ := hb _ (List.getElem_mem i2)
    have r1' := h.symm.hasVector r1'
    rw [r2, r2'] at hi
    have hw := hdist _ _ _ _ r1 r1' hi.1 hi.2
    rw [← hw] at r1'
    have hrow := HasVector.unique he r1 r1'
    exact Prod.ext hw (by rw [r2, r2', hrow])
  · rw [h1, h2]

/-- Words that are removed do not improve the answers: the answer at every position is at most as similar as before. -/
theorem C93_fewer {S S' : Sel K} (hS : S.Admissible) (hS' : S'.Admissible) {e e' : Embeddings K} (he : BuiltEmb e)
    (he' : BuiltEmb e') (hsub : ∀ w row, HasVector e' w row → HasVector e w row) {m m' : Mat K} (hm : e.storage = .nd m)
    (hm' : e'.storage = .nd m') (query : List K) (hq : query.length = m.cols) (hq' : query.length = m'.cols) (k : Nat)
    (skips : List PyStr) (h0 : e.vocab.words ≠ []) (h0' : e'.vocab.words ≠ [])
    (hk : k + knownSkips e.vocab.words skips ≤ e.vocab.words.length)
    (hk' : k + knownSkips e'.vocab.words skips ≤ e'.vocab.words.length) (hc : Comparable e query skips) :
    ∃ res res', e.similarity S query k skips = .ok res ∧ e'.similarity S' query k skips = .ok res' ∧
      List.Forall₂ (fun x y => Score.lt x.2 y.2 = false) res res' ∧
      ((∀ r ∈ res, r.1 ∈ e'.vocab.words) → SameAnswers res res') := by
  have hc' : Comparable e' query skips := by
    intro i w row hw hrow hs
    obtain ⟨j, hj, hrj⟩ := hsub w row ⟨i, hw, hrow⟩
    exact hc j w row hj hrj hs
  obtain ⟨res, r1, t1⟩ := C31_top_k S hS e he m hm query hq k skips h0 hk hc
  obtain ⟨res', r2, t2⟩ := C31_top_k S' hS' e' he' m' hm' query hq' k skips h0' hk' hc'
  refine ⟨res, res', r1, r2, List.forall₂_iff_get.mpr ⟨t1.length.trans t2.length.symm, fun i i1 i2 =>
    topK_le he hsub t1 t2 hc (List.getElem?_eq_getElem i1) (List.getElem?_eq_getElem i2)⟩, fun hall => ?_⟩
  have t1' : IsTopK e' query skips k res := by
    refine ⟨t1.length, t1.nodup, t1.sorted, fun w x hwx => ?_, fun i w row hw hrow hs hn r hr => ?_⟩
    · obtain ⟨hs, i, row, hw, hrow, hx⟩ := t1.scores w x hwx
      obtain ⟨j, hj⟩ := List.mem_iff_getElem?.mp (hall _ hwx)
      have hjl : j < m'.rows.length := by
        have hj' := (List.getElem?_eq_some_iff.mp hj).1
        have := he'.words_le
        rw [hm'] at this
        exact Nat.lt_of_lt_of_le hj' this
      have hjr : e'.storage.getOne j = .ok m'.rows[j] := by
        rw [hm']
        unfold Storage.getOne npGet npIndex
        simp only
        rw [if_pos (by omega)]
        simp only [res_bind_ok, Int.toNat_natCast, List.getElem?_eq_getElem hjl]
        rfl
      have := HasVector.unique he (hsub _ _ ⟨j, hj, hjr⟩) ⟨i, hw, hrow⟩
      exact ⟨hs, j, row, hj, this ▸ hjr, hx⟩
    · obtain ⟨j, hj, hrj⟩ := hsub w row ⟨i, hw, hrow⟩
      exact t1.best j w row hj hrj hs hn r hr
  exact topK_same he' he' (fun w row => Iff.rfl) t1' t2 hc'

end

/-! ### The hypotheses can be met -/

/-- Two words and two n-grams (`<a`, `a>`) with the indices `i` and 1 -/
def Sample.twoWords (i : Int) : Embeddings Int :=
  ⟨.nd ⟨2, [[-9, 0], [0, -9], [0, 5], [0, 2]]⟩, ⟨[[98], [99]], enumItems [[98], [99]],
    some (.expl ⟨[[60, 97], [97, 62]], 2, 3, [([60, 97], i), ([97, 62], 1)], 2⟩)⟩, some [7, 8], none⟩

/-- The same with the words swapped -/
def Sample.wordsTwo (i : Int) : Embeddings Int :=
  ⟨.nd ⟨2, [[0, -9], [-9, 0], [0, 5], [0, 2]]⟩, ⟨[[99], [98]], enumItems [[99], [98]],
    some (.expl ⟨[[60, 97], [97, 62]], 2, 3, [([60, 97], i), ([97, 62], 1)], 2⟩)⟩, some [8, 7], none⟩

theorem Sample.builtTwoWords (i : Int) (h : i = 0 ∨ i = -1) : BuiltEmb (Sample.twoWords i) ∧ BuiltEmb (Sample.wordsTwo i) := by
  have hx : BuiltIndexer (.expl ⟨[[60, 97], [97, 62]], 2, 3, [([60, 97], i), ([97, 62], 1)], 2⟩) := by
    rcases h with rfl | rfl
    · exact .explIdx (gs := [[60, 97], [97, 62]]) (mn := 2) (mx := 3) (d := [([60, 97], 0), ([97, 62], 1)]) (by decide)
        (by decide +kernel)
    · exact .explIdx (gs := [[60, 97], [97, 62]]) (mn := 2) (mx := 3) (d := [([60, 97], -1), ([97, 62], 1)]) (by decide)
        (by decide +kernel)
  exact ⟨⟨⟨fun ix h => by cases h; exact hx, rfl⟩, ⟨by unfold Mat.WF; decide, by unfold ShapeOk; decide⟩, rfl⟩,
    ⟨fun ix h => by cases h; exact hx, rfl⟩, ⟨by unfold Mat.WF; decide, by unfold ShapeOk; decide⟩, rfl⟩

theorem Sample.swapped (i : Int) : Reordered (Sample.twoWords i) (Sample.wordsTwo i) := by
  have hb : ∀ (a : Nat) w, (Sample.twoWords i).vocab.words[a]? = some w → a = 0 ∨ a = 1 := fun a w h => by
    have h : a < 2 := (List.getElem?_eq_some_iff.mp h).1
    omega
  have hb' : ∀ (a : Nat) w, (Sample.wordsTwo i).vocab.words[a]? = some w → a = 0 ∨ a = 1 := fun a w h => by
    have h : a < 2 := (List.getElem?_eq_some_iff.mp h).1
    omega
  refine ⟨List.Perm.swap _ _ _, ?_, ⟨⟨?_, ?_⟩, ?_⟩, rfl, ?_, rfl⟩
  · intro a b w h1 h2
    rcases hb a w h1 with rfl | rfl <;> rcases hb' b w h2 with rfl | rfl <;> cases h1 <;> cases h2 <;> rfl
  · intro h; cases h
  · intro h; cases h
  · intro a b w ns ns' h1 h2 h3 h4
    cases h3
    cases h4
    rcases hb a w h1 with rfl | rfl <;> rcases hb' b w h2 with rfl | rfl <;> cases h1 <;> cases h2 <;> rfl
  · intro a ha
    have ha : 2 ≤ a := ha
    by_cases h4 : a < 4
    · have h4 : a = 2 ∨ a = 3 := by omega
      rcases h4 with rfl | rfl <;> rfl
    · unfold Storage.getOne Sample.twoWords Sample.wordsTwo npGet npIndex
      simp only [List.length_cons, List.length_nil]
      rw [if_neg (by omega), if_neg (by omega)]
      rfl

/-- The unknown word `a` and the neighbours of `c` -/
example : (Sample.twoWords 0).embedding [97] = (Sample.wordsTwo 0).embedding [97] ∧
    (Sample.twoWords 0).embedding [97] = .ok (some [0, 1]) ∧
    SameOutcome ((Sample.twoWords 0).wordSimilarity (Sel.sorting Int) [97] (2 : Nat))
      ((Sample.wordsTwo 0).wordSimilarity (Sel.sorting Int) [97] (2 : Nat)) ∧
    (Sample.twoWords 0).wordSimilarity (Sel.sorting Int) [97] (2 : Nat) = .ok (some [([98], 0), ([99], -9)]) := by
  have hneg : ∀ ix, (Sample.twoWords 0).vocab.sub = some ix → NonNegIndex ix := by
    intro ix hx e he g i hi
    cases hx
    cases he
    have hm := expl_mem_values hi
    simp only [List.map_cons, List.map_nil, List.mem_cons, List.not_mem_nil, or_false] at hm
    omega
  obtain ⟨b1, b2⟩ := Sample.builtTwoWords 0 (.inl rfl)
  exact ⟨(C93_lookup b1 b2 (Sample.swapped 0) (by decide) hneg [97]).1, by decide +kernel,
    C93_word_similarity (sorting_admissible Int) (sorting_admissible Int) b1 b2 (Sample.swapped 0) rfl rfl (by decide) hneg [97] 2
      (by decide) (fun _ _ _ _ _ _ _ _ => rfl), by decide +kernel⟩

/-- The indices have to be non-negative: one that is not belongs to a word (C15), and after the words have been swapped
to the other one. -/
theorem C93_negative_refuted : ∃ e e' : Embeddings Int, BuiltEmb e ∧ BuiltEmb e' ∧ Reordered e e' ∧
    e.embedding [97] ≠ e'.embedding [97] :=
  ⟨_, _, (Sample.builtTwoWords (-1) (.inr rfl)).1, (Sample.builtTwoWords (-1) (.inr rfl)).2, Sample.swapped (-1),
    by decide +kernel⟩

/-- With one of five words removed, the answers are the same or less similar. -/
example : Sample.embSim.similarity (Sel.sorting Int) [1, 1] (2 : Nat) [] = .ok [([99], 5), ([100], 4)] ∧
    (⟨.nd ⟨2, [[1, 2], [2, 2], [3, 0], [1, 2]]⟩, ⟨[[98], [100], [97], [101]], enumItems [[98], [100], [97], [101]], none⟩,
      none, none⟩ : Embeddings Int).similarity (Sel.sorting Int) [1, 1] (2 : Nat) [] = .ok [([100], 4), ([101], 3)] :=
  ⟨by decide +kernel, by decide +kernel⟩

end FF
