import Verif.Lemmas.Direction
/-! Lemmas for C100: exported embeddings. -/

namespace FF

/-- The direction and length of the exported vector of a word are its row and norm. -/
theorem exported_unit {e : Embeddings ℝ} {m : Mat ℝ} (hm : e.storage = .nd m) {i : Nat} {v row : List ℝ}
    (hr : m.rows[i]? = some row) (hu : sumProd row row = 1) (hp : ∀ ns, e.norms = some ns → ∀ n ∈ ns, 0 < n)
    (h : Exported e i v) : vdiv v (NumOps.normAxis v) = row ∧
      ∀ ns, e.norms = some ns → ns[i]? = some (NumOps.normAxis v) := by
  have h1 : (NumOps.normAxis row : ℝ) = 1 := by
    show Real.sqrt (sumProd row row) = 1
    rw [hu, Real.sqrt_one]
  have h2 : vdiv row (1 : ℝ) = row := by
    unfold vdiv
    conv_rhs => rw [← List.map_id row]
    exact List.map_congr_left fun x _ => div_one x
  obtain ⟨row', g1, g2⟩ := h
  rw [hm] at g1
  replace g1 : m.rows[i]? = some row' := g1
  rw [hr] at g1
  cases g1
  cases hn : e.norms with
  | none =>
    rw [hn] at g2
    simp only at g2
    subst g2
    exact ⟨by rw [h1, h2], fun _ h => by cases h⟩
  | some ns =>
    rw [hn] at g2
    obtain ⟨n, g3, g4, g5⟩ := g2
    have hpos := hp ns hn n (List.mem_of_getElem? g3)
    have hv : v = times n row := by
      refine List.ext_getElem? fun t => ?_
      unfold times
      rw [List.getElem?_map]
      by_cases ht : t < row.length
      · rw [g5 t _ (List.getElem?_eq_getElem ht), List.getElem?_eq_getElem ht]
        exact congrArg some (mul_comm _ _)
      · rw [List.getElem?_eq_none (by omega), List.getElem?_eq_none (by omega)]; rfl
    subst hv
    refine ⟨by rw [unit_times hpos, h1, h2], fun ns' h => ?_⟩
    cases h
    rw [norm_times hpos, h1, mul_one, g3]

theorem sameForWords_of {e e' : Embeddings ℝ} (he : BuiltEmb e) (he' : BuiltEmb e') (hu : UnitWords e)
    {vs : List (List ℝ)} (hv : ExportedAll e vs) (hN : Normalized e.storage.nCols e.vocab.words vs e') :
    SameForWords e e' := by
  obtain ⟨m, hm, hu1, hu2⟩ := hu
  obtain ⟨a1, a2, a3, _, a5, a6⟩ := normalized_iff.mp hN
  have hlen := hv.1
  have key : ∀ (i : Nat) w, e.vocab.words[i]? = some w → ∃ row v, m.rows[i]? = some row ∧ vs[i]? = some v ∧
      e.storage.getOne i = .ok row ∧ e'.storage.getOne i = .ok row ∧
      ∀ ns, e.norms = some ns → ns[i]? = some (NumOps.normAxis v) := by
    intro i w hi
    have hlt := (List.getElem?_eq_some_iff.mp hi).1
    have hle := he.words_le
    rw [hm] at hle
    replace hle : e.vocab.words.length ≤ m.rows.length := hle
    have hr : m.rows[i]? = some m.rows[i] := List.getElem?_eq_getElem (by omega)
    have hvi : vs[i]? = some vs[i] := List.getElem?_eq_getElem (by omega)
    obtain ⟨g1, g2⟩ := exported_unit hm hr (hu1 i _ hlt hr) hu2 (hv.2 i _ hvi)
    refine ⟨_, _, hr, hvi, ?_, ?_, g2⟩
    · rw [hm]; exact npGet_nat.mpr hr
    · rw [a6]
      refine npGet_nat.mpr ?_
      rw [List.getElem?_map, hvi]
      exact congrArg some g1
  have hget : ∀ i : Nat, i < e.vocab.words.length → e'.storage.getOne i = e.storage.getOne i := by
    intro i hi
    obtain ⟨row, v, _, _, k1, k2, _⟩ := key i _ (List.getElem?_eq_getElem hi)
    rw [k1, k2]
  have look : ∀ w ∈ e.vocab.words, e'.getItem w = e.getItem w ∧ e'.embedding w = e.embedding w ∧
      (e.norms ≠ none → e'.embeddingWithNorm w = e.embeddingWithNorm w) := by
    intro w hw
    obtain ⟨i, hi⟩ := List.mem_iff_getElem?.mp hw
    obtain ⟨row, v, _, hvi, k1, k2, k3⟩ := key i w hi
    obtain ⟨p1, p2, p3⟩ := C28_known e he i w row hi k1
    obtain ⟨q1, q2, q3⟩ := C28_known e' he' i w row (a1 ▸ hi) k2
    refine ⟨by rw [p1, q1], by rw [p2, q2], fun hn => ?_⟩
    cases hns : e.norms with
    | none => exact absurd hns hn
    | some ns =>
      obtain ⟨n, r1, r2⟩ := p3 ns hns
      obtain ⟨n', s1, s2⟩ := q3 _ a5
      rw [List.getElem?_map, hvi] at s1
      rw [k3 ns hns] at r1
      cases r1
      cases s1
      rw [r2, s2]
  have hsim : ∀ S q k sk, e'.similarity S q k sk = e.similarity S q k sk :=
    fun S q k sk => similarity_rows S he he' a1 hm a6 (by rw [hm]; rfl) hget q k sk
  refine ⟨a1, fun w hw => (look w hw).1, fun w hw => (look w hw).2.1, fun hn w hw => (look w hw).2.2 hn, by rw [a5]; simp, ?_,
    fun S q k sk => hsim S q k _, ?_, ?_⟩
  · intro w hw
    have hidx : e'.vocab.idx w = .ok none := by
      unfold Vocab.idx
      rw [a2]
      simp only
      cases hg : Dict.get? e'.vocab.index w with
      | none => rfl
      | some i => exact absurd (a1 ▸ List.mem_of_getElem? (a3.get.mp hg)) hw
    constructor
    · unfold Embeddings.embedding
      rw [hidx]
      rfl
    · unfold Embeddings.getItem
      rw [idx_getItem, hidx]
      rfl
  · intro w hw S k
    unfold Embeddings.wordSimilarity
    simp only [(look w hw).2.1, hsim]
  · intro w1 h1 w2 h2 w3 h3 S k sk
    unfold Embeddings.analogy
    simp only [(look w1 h1).2.1, (look w2 h2).2.1, (look w3 h3).2.1, hsim]

end FF
