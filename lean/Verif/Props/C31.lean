import Verif.Lemmas.Sim
/-! C31: similarity queries return the nearest neighbours. -/

namespace FF

section
variable {K : Type} [NumOps K] [Score K]

/-- Whatever order `argpartition`, `heappush` and `nlargest` leave equal candidates in, the answer is a list of
`k` nearest neighbours outside the skip set, best first, each with its dot product, if no dot product is NaN. -/
theorem C31_top_k (S : Sel K) (hS : S.Admissible) (e : Embeddings K) (he : BuiltEmb e)
    (m : Mat K) (hm : e.storage = .nd m) (query : List K) (hq : query.length = m.cols) (k : Nat)
    (skips : List PyStr) (h0 : e.vocab.words ≠ [])
    (hk : k + knownSkips e.vocab.words skips ≤ e.vocab.words.length) (hc : Comparable e query skips) :
    ∃ res, e.similarity S query k skips = .ok res ∧ IsTopK e query skips k res := by
  obtain ⟨res, h1, _, _, _, h2⟩ := similarity_answer hS he hm hq h0 hk
  exact ⟨res, h1, h2 hc⟩

/-- The public method `embedding_similarity`; without `skip` nothing is skipped. -/
theorem C31_embedding_similarity (S : Sel K) (hS : S.Admissible) (e : Embeddings K)
    (he : BuiltEmb e) (m : Mat K) (hm : e.storage = .nd m) (query : List K)
    (hq : query.length = m.cols) (k : Nat) (h0 : e.vocab.words ≠ []) :
    (∀ skips, k + knownSkips e.vocab.words skips ≤ e.vocab.words.length → Comparable e query skips →
      ∃ res, e.embeddingSimilarity S query k (some skips) = .ok res ∧
        IsTopK e query skips k res) ∧
    (k ≤ e.vocab.words.length → Comparable e query [] → ∃ res, e.embeddingSimilarity S query k none = .ok res ∧
      IsTopK e query [] k res) := by
  refine ⟨fun skips hk hc => C31_top_k S hS e he m hm query hq k skips h0 hk hc, fun hk hc => ?_⟩
  exact C31_top_k S hS e he m hm query hq k [] h0 (by simpa [knownSkips] using hk) hc

/-- `word_similarity` answers with the nearest neighbours of the word's embedding other than the
word itself. -/
theorem C31_word_similarity (S : Sel K) (hS : S.Admissible) (e : Embeddings K) (he : BuiltEmb e)
    (m : Mat K) (hm : e.storage = .nd m) (w : PyStr) (v : List K)
    (hv : e.embedding w = .ok (some v)) (k : Nat) (h0 : e.vocab.words ≠ [])
    (hk : k + knownSkips e.vocab.words [w] ≤ e.vocab.words.length) (hc : Comparable e v [w]) :
    ∃ res, e.wordSimilarity S w k = .ok (some res) ∧ IsTopK e v [w] k res := by
  have hl := embedding_length he.storage hv
  rw [hm] at hl
  obtain ⟨res, h1, h2⟩ := C31_top_k S hS e he m hm v hl k [w] h0 hk hc
  refine ⟨res, ?_, h2⟩
  rw [wordSimilarity_eq hv, h1]; rfl

/-- `analogy` answers with the nearest neighbours of `c + (b - a)`, normalised, outside the skip
set, by default the three query words. -/
theorem C31_analogy (S : Sel K) (hS : S.Admissible) (e : Embeddings K) (he : BuiltEmb e)
    (m : Mat K) (hm : e.storage = .nd m) (w1 w2 w3 : PyStr) (a b c : List K)
    (ha : e.embedding w1 = .ok (some a)) (hb : e.embedding w2 = .ok (some b))
    (hc : e.embedding w3 = .ok (some c)) (k : Nat) (skip : Option (List PyStr))
    (skips : List PyStr) (hskip : skip = some skips ∨ skip = none ∧ skips = [w1, w2, w3])
    (h0 : e.vocab.words ≠ []) (hk : k + knownSkips e.vocab.words skips ≤ e.vocab.words.length) :
    ∃ d q : List K, d.length = m.cols ∧ q.length = m.cols ∧
      (∀ (t : Nat) x y z, a[t]? = some x → b[t]? = some y → c[t]? = some z →
        d[t]? = some (NumOps.add z (NumOps.sub y x)) ∧
        q[t]? = some (NumOps.div (NumOps.add z (NumOps.sub y x)) (NumOps.norm d))) ∧
      (Comparable e q skips →
        ∃ res, e.analogy S w1 w2 w3 k skip = .ok (some res) ∧ IsTopK e q skips k res) := by
  have hla := embedding_length he.storage ha
  have hlb := embedding_length he.storage hb
  have hlc := embedding_length he.storage hc
  rw [hm] at hla hlb hlc
  refine ⟨vadd c (vsub b a), analogyVec a b c, ?_, analogyVec_length hla hlb hlc, ?_, ?_⟩
  · unfold vadd vsub
    rw [List.length_zipWith, List.length_zipWith, hla, hlb, hlc]
    simp [Storage.nCols]
  · intro t x y z hx hy hz
    have hd : (vadd c (vsub b a))[t]? = some (NumOps.add z (NumOps.sub y x)) := by
      unfold vadd vsub
      rw [List.getElem?_zipWith, List.getElem?_zipWith, hx, hy, hz]
    refine ⟨hd, ?_⟩
    unfold analogyVec vdiv
    simp only
    rw [List.getElem?_map, hd]; rfl
  · intro hcmp
    obtain ⟨res, h1, h2⟩ := C31_top_k S hS e he m hm (analogyVec a b c)
      (analogyVec_length hla hlb hlc) k skips h0 hk hcmp
    refine ⟨res, ?_, h2⟩
    rw [analogy_eq ha hb hc]
    have : skip.getD [w1, w2, w3] = skips := by
      rcases hskip with h | ⟨h, h'⟩
      · rw [h]; rfl
      · rw [h, h']; rfl
    rw [this, h1]; rfl

/-- If no two similarities are equal, the answer does not depend on the order `argpartition`, `heappush` and
`nlargest` choose. -/
theorem C31_unique (S S' : Sel K) (hS : S.Admissible) (hS' : S'.Admissible) (e : Embeddings K)
    (he : BuiltEmb e) (m : Mat K) (hm : e.storage = .nd m) (query : List K)
    (hq : query.length = m.cols) (k : Nat) (skips : List PyStr) (h0 : e.vocab.words ≠ [])
    (hk : k + knownSkips e.vocab.words skips ≤ e.vocab.words.length) (hc : Comparable e query skips)
    (hdist : ∀ (i j : Nat) r s, e.vocab.words[i]? ≠ none → e.vocab.words[j]? ≠ none →
      e.storage.getOne i = .ok r → e.storage.getOne j = .ok s →
      Score.lt (NumOps.dot r query) (NumOps.dot s query) = false →
      Score.lt (NumOps.dot s query) (NumOps.dot r query) = false → i = j) :
    e.similarity S query k skips = e.similarity S' query k skips := by
  obtain ⟨res, h1, t1⟩ := C31_top_k S hS e he m hm query hq k skips h0 hk hc
  obtain ⟨res', h2, t2⟩ := C31_top_k S' hS' e he m hm query hq k skips h0 hk hc
  rw [h1, h2]
  congr 1
  -- a member of one answer is a member of the other
  have sub : ∀ {a b : List (PyStr × K)}, IsTopK e query skips k a → IsTopK e query skips k b →
      a ⊆ b := by
    intro a b ta tb ⟨w, x⟩ hwx
    obtain ⟨hws, i, row, hw, hr, hx⟩ := ta.scores w x hwx
    by_contra hnb
    have hwb : w ∉ b.map Prod.fst := by
      intro hmem
      obtain ⟨⟨w', x'⟩, h3, h4⟩ := List.mem_map.mp hmem
      simp only at h4; subst h4
      obtain ⟨_, i', row', hw', hr', hx'⟩ := tb.scores _ _ h3
      have hii : i' = i := by
        have hlt := (List.getElem?_eq_some_iff.mp hw').1
        exact (List.getElem?_inj hlt he.vocab.nodup).mp (hw'.trans hw.symm)
      subst hii
      rw [hr] at hr'; cases hr'
      rw [hx'] at h3; rw [hx] at hnb
      exact hnb h3
    have hle := tb.best i w row hw hr hws hwb
    -- some member of `b` is not in `a`
    have hex : ∃ r ∈ b, r.1 ∉ a.map Prod.fst := by
      by_contra hcon
      push Not at hcon
      have hsub : b.map Prod.fst ⊆ a.map Prod.fst := by
        intro y hy
        obtain ⟨r, hr1, rfl⟩ := List.mem_map.mp hy
        exact hcon r hr1
      have hp := (List.subperm_of_subset tb.nodup hsub).perm_of_length_le
        (by rw [List.length_map, List.length_map, ta.length, tb.length])
      exact hwb (hp.mem_iff.mpr (List.mem_map.mpr ⟨_, hwx, rfl⟩))
    obtain ⟨⟨v, y⟩, hv, hva⟩ := hex
    obtain ⟨hvs, j, rowj, hvw, hvr, hy⟩ := tb.scores v y hv
    have hge := ta.best j v rowj hvw hvr hvs hva _ hwx
    have hle' := hle _ hv
    simp only at hge hle'
    rw [hx] at hge
    rw [hy] at hle'
    have hij := hdist i j row rowj (by rw [hw]; simp) (by rw [hvw]; simp) hr hvr hge hle'
    subst hij
    rw [hw] at hvw; cases hvw
    exact hva (List.mem_map.mpr ⟨_, hwx, rfl⟩)
  have hperm : res.Perm res' := by
    have hn1 : res.Nodup := t1.nodup.of_map
    have hn2 : res'.Nodup := t2.nodup.of_map
    exact (List.perm_ext_iff_of_nodup hn1 hn2).mpr fun x => ⟨fun h => sub t1 t2 h, fun h => sub t2 t1 h⟩
  refine hperm.eq_of_pairwise ?_ t1.sorted t2.sorted
  intro a b ha hb hab hba
  obtain ⟨_, i, row, hw, hr, hx⟩ := t1.scores a.1 a.2 ha
  obtain ⟨_, j, rowj, hvw, hvr, hy⟩ := t2.scores b.1 b.2 hb
  have hij := hdist i j row rowj (by rw [hw]; simp) (by rw [hvw]; simp) hr hvr
    (by rw [← hx, ← hy]; exact hab) (by rw [← hx, ← hy]; exact hba)
  subst hij
  have h3 : a.1 = b.1 := Option.some.inj (hw.symm.trans hvw)
  have h4 : row = rowj := Except.ok.inj (hr.symm.trans hvr)
  subst h4
  exact Prod.ext h3 (hx.trans hy.symm)

end

/-! ### The hypotheses can be met -/

/-- Five words with two-dimensional integer rows. -/
def Sample.embSim : Embeddings Int :=
  ⟨.nd ⟨2, [[3, 0], [1, 2], [0, 5], [2, 2], [1, 2]]⟩,
    ⟨[[97], [98], [99], [100], [101]], enumItems [[97], [98], [99], [100], [101]], none⟩, none, none⟩

theorem Sample.builtEmbSim : BuiltEmb Sample.embSim :=
  ⟨⟨(by intro ix h; cases h), by decide⟩, by unfold Sample.embSim StorageWF Mat.WF ShapeOk; decide, rfl⟩

/-- The neighbours of `[1, 1]` have the dot products 3, 3, 5, 4, 3; `c` is skipped. -/
example : (Sel.sorting Int).Admissible ∧ BuiltEmb Sample.embSim ∧ Sample.embSim.vocab.words ≠ [] ∧
    2 + knownSkips Sample.embSim.vocab.words [[99], [120]] ≤ Sample.embSim.vocab.words.length ∧
    Sample.embSim.similarity (Sel.sorting Int) [1, 1] (2 : Nat) [[99], [120]] =
      .ok [([100], 4), ([101], 3)] ∧
    Sample.embSim.wordSimilarity (Sel.sorting Int) [97] (2 : Nat) =
      .ok (some [([100], 6), ([101], 3)]) ∧ Comparable Sample.embSim [1, 1] [[99], [120]] :=
  ⟨sorting_admissible Int, Sample.builtEmbSim, by decide, by decide, by decide +kernel,
    by decide +kernel, fun _ _ _ _ _ _ => rfl⟩

/-- `c + (b - a)` is `[-2, 7]`, divided by 9 and rounded down `[-1, 0]`. -/
example : Sample.embSim.analogy (Sel.sorting Int) [97] [98] [99] (1 : Nat) none =
    .ok (some [([101], -1)]) := by decide +kernel

end FF
