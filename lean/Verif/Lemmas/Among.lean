import Verif.Spec.Among
import Verif.Lemmas.Reorder
import Verif.Lemmas.Word2Vec
import Verif.Props.C28
import Verif.Props.C45
/-! Lemmas for C94: selections. -/

namespace FF

section
variable {K : Type} [NumOps K]

theorem word_row {e : Embeddings K} (he : BuiltEmb e) {m : Mat K} (hm : e.storage = .nd m) {w : PyStr}
    (hw : w ∈ e.vocab.words) : ∃ row, HasVector e w row ∧ e.embedding w = .ok (some row) := by
  obtain ⟨i, hi⟩ := List.mem_iff_getElem?.mp hw
  have hlt : i < m.rows.length := by
    have h1 := (List.getElem?_eq_some_iff.mp hi).1
    have := he.words_le
    rw [hm] at this
    exact Nat.lt_of_lt_of_le h1 this
  have hr : e.storage.getOne i = .ok m.rows[i] := by
    rw [hm]
    exact npGet_nat.mpr (List.getElem?_eq_getElem hlt)
  exact ⟨_, ⟨i, hi, hr⟩, (C28_known e he i w _ hi hr).2.1⟩

/-- The vectors of a selection are those of its source. -/
theorem selected_vector {e e' : Embeddings K} (he : BuiltEmb e) {ign : Bool} {input : PyStr} {words : List PyStr}
    (h : selectEmbeddings e ign input words = .ok e') (hr : ∀ w ∈ words, ∃ v, e.embedding w = .ok (some v)) {w : PyStr}
    {row : List K} : HasVector e' w row ↔ w ∈ words ∧ e.embedding w = .ok (some row) := by
  obtain ⟨_, rows, h1, hb, hv, _, hs, _⟩ := selectEmbeddings_ok he h
  have h2 := (selectRows_ok he.storage).mp h1
  have hat : ∀ (i : Nat) w, words[i]? = some w → ∃ row, rows[i]? = some row ∧ e.embedding w = .ok (some row) := by
    intro i w hi
    obtain ⟨hi1, hi2⟩ := List.getElem?_eq_some_iff.mp hi
    have hl := h2.length_eq
    have hx := (List.forall₂_iff_get.mp h2).2 i hi1 (by omega)
    simp only [List.get_eq_getElem, hi2] at hx
    refine ⟨rows[i]'(by omega), List.getElem?_eq_getElem _, ?_⟩
    rcases hx with hx | ⟨hx, _⟩
    · exact ((C27_agree e w).2.1 _).mp hx
    · obtain ⟨v, hv'⟩ := hr w (List.mem_of_getElem? hi)
      rw [((C27_agree e w).2.1 v).mpr hv'] at hx
      cases hx
  unfold HasVector
  rw [hv, hs]
  constructor
  · rintro ⟨i, hi, hg⟩
    obtain ⟨row', r1, r2⟩ := hat i w hi
    have hg : rows[i]? = some row := npGet_nat.mp hg
    rw [r1] at hg
    cases hg
    exact ⟨List.mem_of_getElem? hi, r2⟩
  · rintro ⟨hw, hg⟩
    obtain ⟨i, hi⟩ := List.mem_iff_getElem?.mp hw
    obtain ⟨row', r1, r2⟩ := hat i w hi
    rw [hg] at r2
    cases r2
    exact ⟨i, hi, npGet_nat.mpr r1⟩

variable [Score K]

omit [NumOps K] [Score K] in
theorem knownSkips_compl (words skips : List PyStr) :
    (words.filter fun w => decide (w ∉ skips)).length + knownSkips words skips = words.length := by
  unfold knownSkips
  have := List.length_eq_length_filter_add (l := words) (fun w => decide (w ∈ skips))
  simp only [← decide_not] at this
  omega

/-- A complete ranking has all words. -/
theorem topK_all {e : Embeddings K} (he : BuiltEmb e) {q : List K} {sk : List PyStr} {n : Nat} {all : List (PyStr × K)}
    (ta : IsTopK e q sk n all) (hn : n + knownSkips e.vocab.words sk = e.vocab.words.length) :
    (all.map Prod.fst).Perm (e.vocab.words.filter fun w => decide (w ∉ sk)) := by
  have hsub : all.map Prod.fst ⊆ e.vocab.words.filter fun w => decide (w ∉ sk) := by
    intro w hw
    obtain ⟨r, hr, rfl⟩ := List.mem_map.mp hw
    obtain ⟨h1, i, _, h2, _⟩ := ta.scores r.1 r.2 hr
    exact List.mem_filter.mpr ⟨List.mem_of_getElem? h2, by simpa using h1⟩
  refine (List.subperm_of_subset ta.nodup hsub).perm_of_length_le ?_
  have := knownSkips_compl e.vocab.words sk
  rw [List.length_map, ta.length]
  omega

theorem topK_restrict {e e' : Embeddings K} (he : BuiltEmb e) (he' : BuiltEmb e')
    (hsub : ∀ w row, HasVector e' w row → HasVector e w row) (hrow : ∀ w ∈ e'.vocab.words, ∃ row, HasVector e' w row)
    {q : List K} {sk : List PyStr} {n k : Nat} {all : List (PyStr × K)} (ta : IsTopK e q sk n all)
    (hn : n + knownSkips e.vocab.words sk = e.vocab.words.length)
    (hk : k + knownSkips e'.vocab.words sk ≤ e'.vocab.words.length) :
    IsTopK e' q sk k (firstAmong k e'.vocab.words all) := by
  unfold firstAmong
  set fil := all.filter fun r => decide (r.1 ∈ e'.vocab.words) with hfil
  have hall := topK_all he ta hn
  have hin : ∀ w ∈ e'.vocab.words, w ∈ e.vocab.words := by
    intro w hw
    obtain ⟨row, hr⟩ := hrow w hw
    obtain ⟨i, hi, _⟩ := hsub w row hr
    exact List.mem_of_getElem? hi
  have hfnd : (fil.map Prod.fst).Nodup := ((List.filter_sublist (l := all)).map _).nodup ta.nodup
  have hmem : ∀ w, w ∈ fil.map Prod.fst ↔ w ∈ e'.vocab.words ∧ w ∉ sk := by
    intro w
    constructor
    · intro hw
      obtain ⟨r, hr, rfl⟩ := List.mem_map.mp hw
      obtain ⟨h1, h2⟩ := List.mem_filter.mp hr
      exact ⟨by simpa using h2, (ta.scores r.1 r.2 h1).1⟩
    · rintro ⟨h1, h2⟩
      have : w ∈ all.map Prod.fst := hall.mem_iff.mpr (List.mem_filter.mpr ⟨hin w h1, by simpa using h2⟩)
      obtain ⟨r, hr, rfl⟩ := List.mem_map.mp this
      exact List.mem_map.mpr ⟨r, List.mem_filter.mpr ⟨hr, by simpa using h1⟩, rfl⟩
  have hperm : (fil.map Prod.fst).Perm (e'.vocab.words.filter fun w => decide (w ∉ sk)) := by
    refine (List.perm_ext_iff_of_nodup hfnd (he'.vocab.nodup.filter _)).mpr fun w => ?_
    rw [hmem, List.mem_filter]
    simp
  have hlen : k ≤ fil.length := by
    have h1 := hperm.length_eq
    rw [List.length_map] at h1
    have := knownSkips_compl e'.vocab.words sk
    omega
  have hsort : fil.Pairwise fun a b => Score.lt a.2 b.2 = false := ta.sorted.filter _
  have hscore : ∀ r ∈ fil, ∃ row, HasVector e' r.1 row ∧ r.2 = NumOps.dot row q := by
    intro r hr
    obtain ⟨h1, h2⟩ := List.mem_filter.mp hr
    obtain ⟨_, i, row, h3, h4, h5⟩ := ta.scores r.1 r.2 h1
    obtain ⟨row', hr'⟩ := hrow r.1 (by simpa using h2)
    have := HasVector.unique he ⟨i, h3, h4⟩ (hsub _ _ hr')
    exact ⟨row', hr', this ▸ h5⟩
  refine ⟨by rw [List.length_take]; omega, ((List.take_sublist _ _).map _).nodup hfnd,
    hsort.sublist (List.take_sublist _ _), fun w x hw => ?_, fun i w row hi hg hs hnot r hr => ?_⟩
  · have hw := List.mem_of_mem_take hw
    obtain ⟨row, ⟨i, hi, hg⟩, hx⟩ := hscore _ hw
    exact ⟨((hmem w).mp (List.mem_map.mpr ⟨_, hw, rfl⟩)).2, i, row, hi, hg, hx⟩
  · obtain ⟨s, hs', rfl⟩ := List.mem_map.mp ((hmem w).mpr ⟨List.mem_of_getElem? hi, hs⟩)
    obtain ⟨row', hr', hx⟩ := hscore s hs'
    rw [HasVector.unique he' ⟨i, hi, hg⟩ hr', ← hx]
    have hd : s ∈ fil.drop k := by
      rw [← List.take_append_drop k fil] at hs'
      rcases List.mem_append.mp hs' with h | h
      · exact absurd (List.mem_map.mpr ⟨s, h, rfl⟩) hnot
      · exact h
    rw [← List.take_append_drop k fil] at hsort
    exact (List.pairwise_append.mp hsort).2.2 r hr s hd

end

end FF
