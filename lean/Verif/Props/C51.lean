import Verif.Lemmas.VocabLookup
import Verif.Spec.Samples
/-! C51: vocabulary equality. -/

namespace FF

theorem dict_pyEq {α β : Type} [DecidableEq α] [DecidableEq β] {a b : Dict α β}
    (ha : (Dict.keys a).Nodup) (hb : (Dict.keys b).Nodup) :
    Dict.pyEq a b = true ↔ ∀ k, Dict.get? a k = Dict.get? b k := by
  unfold Dict.pyEq
  rw [Bool.and_eq_true, beq_iff_eq, List.all_eq_true]
  have la : a.length = (Dict.keys a).length := by simp [Dict.keys]
  have lb : b.length = (Dict.keys b).length := by simp [Dict.keys]
  constructor
  · rintro ⟨hl, h⟩ k
    have hsub : (Dict.keys a).Subperm (Dict.keys b) := by
      refine List.subperm_of_subset ha ?_
      intro k hk
      obtain ⟨p, hp, rfl⟩ := List.mem_map.mp hk
      have := beq_iff_eq.mp (h p hp)
      rw [← Dict.get?_isSome, this]; rfl
    have hperm : (Dict.keys a).Perm (Dict.keys b) :=
      hsub.perm_of_length_le (by omega)
    cases hk : Dict.get? a k with
    | some v => exact (beq_iff_eq.mp (h _ (Dict.get?_mem hk))).symm
    | none =>
      symm
      rw [Dict.get?_eq_none] at hk ⊢
      rwa [← hperm.mem_iff]
  · intro h
    refine ⟨?_, ?_⟩
    · rw [la, lb]
      refine List.Perm.length_eq ((List.perm_ext_iff_of_nodup ha hb).mpr fun k => ?_)
      rw [← Dict.get?_isSome, ← Dict.get?_isSome, h]
    · rintro ⟨k, v⟩ hp
      rw [← h, Dict.get?_of_mem ha hp]
      exact beq_self_eq_true _

theorem indexer_pyEq {a b : Indexer} (ha : BuiltIndexer a) (hb : BuiltIndexer b) :
    a.pyEq b = true ↔ SameIndexer a b := by
  have wa := builtIndexer_wf ha
  have wb := builtIndexer_wf hb
  cases a with
  | fifu a =>
    cases b with
    | fifu b =>
      cases a; cases b
      simp only [Indexer.pyEq, SameIndexer, Bool.and_eq_true, beq_iff_eq, FifuIndexer.mk.injEq]
      tauto
    | ft b => simp [Indexer.pyEq, SameIndexer]
    | expl b => simp [Indexer.pyEq, SameIndexer]
  | ft a =>
    cases b with
    | fifu b => simp [Indexer.pyEq, SameIndexer]
    | ft b =>
      cases a; cases b
      simp only [Indexer.pyEq, SameIndexer, Bool.and_eq_true, beq_iff_eq, FtIndexer.mk.injEq]
      tauto
    | expl b => simp [Indexer.pyEq, SameIndexer]
  | expl a =>
    cases b with
    | fifu b => simp [Indexer.pyEq, SameIndexer]
    | ft b => simp [Indexer.pyEq, SameIndexer]
    | expl b =>
      have va : ExplValid a := wa
      have vb : ExplValid b := wb
      simp only [Indexer.pyEq, SameIndexer, ExplIndexer.pyEq, Bool.and_eq_true, beq_iff_eq,
        dict_pyEq (va.keys.nodup_iff.mpr va.nodup) (vb.keys.nodup_iff.mpr vb.nodup)]
      tauto

/-- `==` holds exactly for vocabularies of the same class with the same words, word index and
indexer. -/
theorem C51_eq_iff (a b : Vocab) (ha : BuiltVocab a) (hb : BuiltVocab b) :
    a.pyEq b = true ↔ SameVocab a b := by
  have ka : (Dict.keys a.index).Nodup := by
    rw [ha.wf.index]; unfold Dict.keys; rw [enumItems_fst]; exact ha.nodup
  have kb : (Dict.keys b.index).Nodup := by
    rw [hb.wf.index]; unfold Dict.keys; rw [enumItems_fst]; exact hb.nodup
  unfold Vocab.pyEq SameVocab
  cases hsa : a.sub with
  | none =>
    cases hsb : b.sub with
    | none => simp [dict_pyEq ka kb]
    | some ib => simp
  | some ia =>
    cases hsb : b.sub with
    | none => simp
    | some ib =>
      simp only [Bool.and_eq_true, beq_iff_eq, dict_pyEq ka kb,
        indexer_pyEq (ha.1 ia hsa) (hb.1 ib hsb)]
      tauto

theorem sameIndexer_symm {a b : Indexer} (h : SameIndexer a b) : SameIndexer b a := by
  cases a <;> cases b <;> simp only [SameIndexer] at h ⊢
  · exact h.symm
  · exact h.symm
  · exact ⟨h.1.symm, h.2.1.symm, h.2.2.1.symm, h.2.2.2.1.symm, fun g => (h.2.2.2.2 g).symm⟩

theorem sameIndexer_trans {a b c : Indexer} (h : SameIndexer a b) (h' : SameIndexer b c) :
    SameIndexer a c := by
  cases a <;> cases b <;> simp only [SameIndexer] at h <;> cases c <;>
    simp only [SameIndexer] at h' ⊢
  · exact h.trans h'
  · exact h.trans h'
  · exact ⟨h.1.trans h'.1, h.2.1.trans h'.2.1, h.2.2.1.trans h'.2.2.1,
      h.2.2.2.1.trans h'.2.2.2.1, fun g => (h.2.2.2.2 g).trans (h'.2.2.2.2 g)⟩

/-- `==` is reflexive, symmetric and transitive. -/
theorem C51_equivalence (a b c : Vocab) (ha : BuiltVocab a) (hb : BuiltVocab b)
    (hc : BuiltVocab c) :
    a.pyEq a = true ∧ a.pyEq b = b.pyEq a ∧
      (a.pyEq b = true → b.pyEq c = true → a.pyEq c = true) := by
  refine ⟨(C51_eq_iff a a ha ha).mpr (SameVocab.refl a), ?_, ?_⟩
  · rw [Bool.eq_iff_iff, C51_eq_iff a b ha hb, C51_eq_iff b a hb ha]
    have sym : ∀ x y : Vocab, SameVocab x y → SameVocab y x := by
      rintro x y ⟨h1, h2, h3⟩
      refine ⟨h1.symm, fun w => (h2 w).symm, ?_⟩
      cases hx : x.sub <;> cases hy : y.sub <;> rw [hx, hy] at h3 <;> simp only at h3 ⊢
      exact sameIndexer_symm h3
    exact ⟨sym a b, sym b a⟩
  · rw [C51_eq_iff a b ha hb, C51_eq_iff b c hb hc, C51_eq_iff a c ha hc]
    rintro ⟨h1, h2, h3⟩ ⟨k1, k2, k3⟩
    refine ⟨h1.trans k1, fun w => (h2 w).trans (k2 w), ?_⟩
    cases hx : a.sub <;> cases hy : b.sub <;> rw [hx, hy] at h3 <;> simp only at h3 ⊢ <;>
      cases hz : c.sub <;> rw [hy, hz] at k3 <;> simp only at k3 ⊢
    exact sameIndexer_trans h3 k3

theorem sameIndexer_indices {a b : Indexer} (h : SameIndexer a b) :
    a.indices = b.indices ∧ a.subwordIndices = b.subwordIndices ∧ a.call = b.call ∧
      a.upperBound = b.upperBound ∧ a.minN = b.minN ∧ a.maxN = b.maxN := by
  cases a <;> cases b <;> simp only [SameIndexer] at h
  · subst h; exact ⟨rfl, rfl, rfl, rfl, rfl, rfl⟩
  · subst h; exact ⟨rfl, rfl, rfl, rfl, rfl, rfl⟩
  · obtain ⟨h1, h2, h3, h4, h5⟩ := h
    have hd := funext h5
    refine ⟨?_, ?_, ?_, h4, h2, h3⟩
    · funext w o br
      simp only [Indexer.indices, ExplIndexer.indices, ExplIndexer.subwordLoop, h2, h3, hd]
    · funext w o br
      simp only [Indexer.subwordIndices, ExplIndexer.subwordIndices, ExplIndexer.subwordLoop, h2,
        h3, hd]
    · funext g
      simp only [Indexer.call, ExplIndexer.call, hd]

/-- Vocabularies that are observably the same answer every lookup alike. -/
theorem sameVocab_lookup {a b : Vocab} (h : SameVocab a b) (hl : a.len = b.len) (w : PyStr)
    (d : Option Idx) :
    a.idx w d = b.idx w d ∧ a.getItem w = b.getItem w ∧ a.contains w = b.contains w ∧
      a.upperBound = b.upperBound := by
  obtain ⟨h1, h2, h3⟩ := h
  unfold Vocab.idx Vocab.getItem Vocab.contains Vocab.upperBound
  rw [h2 w, hl]
  cases hx : a.sub <;> cases hy : b.sub <;> rw [hx, hy] at h3 <;> simp only at h3 ⊢
  · exact ⟨trivial, trivial, trivial, trivial⟩
  · rename_i i j
    obtain ⟨e1, e2, e3, e4, _⟩ := sameIndexer_indices h3
    simp only [Vocab.subwordIndices, e1, e4, h1]
    exact ⟨trivial, trivial, trivial, trivial⟩

/-- Equal vocabularies answer every lookup alike: `idx`, `[]`, `in`, `upper_bound`, n-grams and
subword indices. -/
theorem C51_lookups (a b : Vocab) (ha : BuiltVocab a) (hb : BuiltVocab b) (h : a.pyEq b = true)
    (w : PyStr) (d : Option Idx) (br : Bool) :
    a.idx w d = b.idx w d ∧ a.getItem w = b.getItem w ∧ a.contains w = b.contains w ∧
      a.upperBound = b.upperBound ∧ a.len = b.len ∧
      ∀ i j, a.sub = some i → b.sub = some j →
        a.subwordIndices i w br = b.subwordIndices j w br ∧
        a.subwordIndicesG i w br = b.subwordIndicesG j w br ∧
        a.subwords i w br = b.subwords j w br := by
  have hs := (C51_eq_iff a b ha hb).mp h
  have hl : a.len = b.len := by rw [ha.len, hb.len, hs.1]
  obtain ⟨h1, h2, h3, h4⟩ := sameVocab_lookup hs hl w d
  refine ⟨h1, h2, h3, h4, hl, ?_⟩
  intro i j hi hj
  obtain ⟨e0, _, e3⟩ := hs
  rw [hi, hj] at e3
  obtain ⟨e1, e2, _, _, e4, e5⟩ := sameIndexer_indices e3
  simp only [Vocab.subwordIndices, Vocab.subwordIndicesG, Vocab.subwords, e0, e1, e2, e4, e5]
  exact ⟨trivial, trivial, trivial⟩

/-! ### The hypotheses can be met -/

/-- Equal although the n-gram dicts are in different order; not equal to another class with the
same words. -/
example : ∃ b, BuiltVocab Sample.expl ∧ BuiltVocab b ∧ Sample.expl ≠ b ∧
    Sample.expl.pyEq b = true ∧ Sample.expl.pyEq Sample.bucket = false := by
  refine ⟨⟨Sample.words, enumItems Sample.words, some (.expl ⟨[[60, 97], [97, 62], [60, 0xDF]], 2, 3,
    [([60, 97], 0), ([97, 62], 1), ([60, 0xDF], 0)], 2⟩)⟩, Sample.builtExpl, ⟨?_, by decide⟩,
    by decide, by decide, by decide⟩
  intro ix h
  cases h
  exact .explIdx (gs := [[60, 97], [97, 62], [60, 0xDF]]) (mn := 2) (mx := 3)
    (d := [([60, 97], 0), ([97, 62], 1), ([60, 0xDF], 0)]) (by decide) (by decide)

end FF
