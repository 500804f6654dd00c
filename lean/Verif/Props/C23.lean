import Verif.Lemmas.VocabLookup
import Verif.Spec.Samples
/-! C23: an accepted explicit n-gram index covers exactly `0 … upper_bound - 1`. -/

namespace FF

/-- With an `ngram_index` without negative values: exactly the listed n-grams are indexed and
the values are exactly `0 … upper_bound - 1`.  Missing for the full claim: negative values are
accepted, see `C23_negative_refuted`. -/
theorem C23_covers_partial (gs : List PyStr) (mn mx : Int) (d : Dict PyStr Int) (ix : ExplIndexer)
    (hd : (d.map Prod.fst).Nodup) (h : ExplIndexer.new gs mn mx (some d) = .ok ix)
    (hn : ∀ p ∈ d, 0 ≤ p.2) :
    (∀ g, g ∈ gs ↔ ∃ i, ix.call g = some i) ∧ gs.Nodup ∧
    (∀ i : Int, (0 ≤ i ∧ i < ix.bound) ↔ ∃ g ∈ gs, ix.call g = some i) := by
  obtain ⟨hv, rfl, rfl, _, _, _⟩ := (explNew_some hd).mp h
  have hg : ∀ g, g ∈ ix.ngrams ↔ ∃ i, ix.call g = some i := by
    intro g
    rw [← hv.keys.mem_iff, ← Dict.get?_isSome, Option.isSome_iff_exists]
    rfl
  refine ⟨hg, hv.nodup, ?_⟩
  intro i
  rw [expl_values hv (by
    intro x hx
    rw [List.mem_map] at hx
    obtain ⟨p, hp, rfl⟩ := hx
    exact hn p hp)]
  constructor
  · intro hi
    rw [List.mem_map] at hi
    obtain ⟨⟨g, j⟩, hp, rfl⟩ := hi
    have : ix.call g = some j := Dict.get?_of_mem hd hp
    exact ⟨g, (hg g).mpr ⟨j, this⟩, this⟩
  · rintro ⟨g, _, hi⟩
    exact expl_mem_values hi

/-- Without an `ngram_index`: n-gram `i` has index `i`. -/
theorem C23_enumerated (gs : List PyStr) (mn mx : Int) (ix : ExplIndexer)
    (h : ExplIndexer.new gs mn mx none = .ok ix) :
    gs.Nodup ∧ ix.bound = gs.length ∧ ∀ g i, ix.call g = some i ↔ 0 ≤ i ∧ gs[i.toNat]? = some g := by
  obtain ⟨hv, rfl, hi, _, _⟩ := explNew_none.mp h
  refine ⟨hv.nodup, ?_, ?_⟩
  · rw [hv.bound, hi, enumInt_snd, List.Nodup.dedup]
    · simp
    · exact List.Nodup.map (fun a b h => by simpa using h) List.nodup_range
  · intro g i
    unfold ExplIndexer.call
    rw [hi]
    have hk : (Dict.keys (enumInt ix.ngrams)).Nodup := by
      unfold Dict.keys; rw [enumInt_fst]; exact hv.nodup
    have hm : ((g, i) ∈ enumInt ix.ngrams) ↔ 0 ≤ i ∧ ix.ngrams[i.toNat]? = some g := by
      unfold enumInt
      rw [List.mem_map]
      constructor
      · rintro ⟨⟨g', n⟩, hp, he⟩
        cases he
        exact ⟨by omega, mem_enumItems.mp hp⟩
      · rintro ⟨h1, h2⟩
        refine ⟨(g, i.toNat), mem_enumItems.mpr h2, ?_⟩
        simp only [Prod.mk.injEq, true_and]
        omega
    rw [← hm]
    exact ⟨Dict.get?_mem, Dict.get?_of_mem hk⟩

/-- Which arguments the constructor accepts: the number of different indices has to be one more than the
largest of them. -/
theorem C23_accepts (gs : List PyStr) (mn mx : Int) (d : Dict PyStr Int)
    (hd : (d.map Prod.fst).Nodup) :
    (∃ ix, ExplIndexer.new gs mn mx (some d) = .ok ix) ↔
      0 < mn ∧ mn ≤ mx ∧ mx < 2 ^ 32 ∧ gs ≠ [] ∧ gs.Nodup ∧ (∀ g, g ∈ gs ↔ g ∈ d.map Prod.fst) ∧
      ∃ top ∈ d.map Prod.snd, (∀ x ∈ d.map Prod.snd, x ≤ top) ∧
        ((d.map Prod.snd).dedup.length : Int) = top + 1 := by
  constructor
  · rintro ⟨ix, h⟩
    obtain ⟨hv, rfl, rfl, h1, h2, h3⟩ := (explNew_some hd).mp h
    have := hv.minPos
    have := hv.minMax
    have := hv.max32
    exact ⟨by omega, by omega, by omega, h3, hv.nodup, fun g => hv.keys.mem_iff.symm, ix.bound - 1,
      hv.topMem h3, fun x hx => by have := hv.top x hx; omega, by rw [← hv.bound]; omega⟩
  · rintro ⟨h1, h2, h3, h4, h5, h6, top, h7, h8, h9⟩
    refine ⟨⟨gs, mn.toNat, mx.toNat, d, top + 1⟩, (explNew_some hd).mpr ⟨⟨?_, ?_, ?_, h5, ?_, h9.symm, ?_, ?_⟩,
      rfl, rfl, ?_, ?_, h4⟩⟩
    · show 0 < mn.toNat; omega
    · show mn.toNat ≤ mx.toNat; omega
    · show mx.toNat < 2 ^ 32; omega
    · exact (List.perm_ext_iff_of_nodup hd h5).mpr fun g => (h6 g).symm
    · intro x hx
      have := h8 x hx
      show x < top + 1
      omega
    · intro _
      show top + 1 - 1 ∈ d.map Prod.snd
      rwa [Int.add_sub_cancel]
    · show ((mn.toNat : Nat) : Int) = mn; omega
    · show ((mx.toNat : Nat) : Int) = mx; omega

/-- Without an `ngram_index` any list without repetitions is accepted, even an empty one. -/
theorem C23_accepts_list (gs : List PyStr) (mn mx : Int) :
    (∃ ix, ExplIndexer.new gs mn mx none = .ok ix) ↔ 0 < mn ∧ mn ≤ mx ∧ mx < 2 ^ 32 ∧ gs.Nodup := by
  constructor
  · rintro ⟨ix, h⟩
    obtain ⟨hv, rfl, _, h1, h2⟩ := explNew_none.mp h
    have := hv.minPos
    have := hv.minMax
    have := hv.max32
    exact ⟨by omega, by omega, by omega, hv.nodup⟩
  · rintro ⟨h1, h2, h3, h4⟩
    have hs : ((enumInt gs).map Prod.snd).dedup.length = gs.length := by
      rw [enumInt_snd, List.Nodup.dedup]
      · simp
      · exact List.Nodup.map (fun a b h => by simpa using h) List.nodup_range
    refine ⟨⟨gs, mn.toNat, mx.toNat, enumInt gs, gs.length⟩, explNew_none.mpr ⟨⟨?_, ?_, ?_, h4, ?_, ?_, ?_, ?_⟩,
      rfl, rfl, ?_, ?_⟩⟩
    · show 0 < mn.toNat; omega
    · show mn.toNat ≤ mx.toNat; omega
    · show mx.toNat < 2 ^ 32; omega
    · show (Dict.keys (enumInt gs)).Perm gs
      unfold Dict.keys
      rw [enumInt_fst]
    · show (gs.length : Int) = ((enumInt gs).map Prod.snd).dedup.length
      rw [hs]
    · show ∀ x ∈ (enumInt gs).map Prod.snd, x < (gs.length : Int)
      rw [enumInt_snd]
      intro x hx
      obtain ⟨n, hn, rfl⟩ := List.mem_map.mp hx
      have := List.mem_range.mp hn
      omega
    · intro hne
      show (gs.length : Int) - 1 ∈ (enumInt gs).map Prod.snd
      have hpos : 0 < gs.length := List.length_pos_iff.mpr hne
      rw [enumInt_snd]
      exact List.mem_map.mpr ⟨gs.length - 1, List.mem_range.mpr (by omega), by omega⟩
    · show ((mn.toNat : Nat) : Int) = mn; omega
    · show ((mx.toNat : Nat) : Int) = mx; omega

/-- An accepted `ngram_index` covers exactly `0 … upper_bound - 1` if and only if it has no negative value. -/
theorem C23_covers_exact (gs : List PyStr) (mn mx : Int) (d : Dict PyStr Int) (ix : ExplIndexer)
    (hd : (d.map Prod.fst).Nodup) (h : ExplIndexer.new gs mn mx (some d) = .ok ix) :
    (∀ i : Int, (0 ≤ i ∧ i < ix.bound) ↔ ∃ g ∈ gs, ix.call g = some i) ↔ ∀ p ∈ d, 0 ≤ p.2 := by
  constructor
  · intro hc p hp
    obtain ⟨hv, rfl, rfl, _, _, _⟩ := (explNew_some hd).mp h
    refine ((hc p.2).mpr ⟨p.1, ?_, Dict.get?_of_mem hd hp⟩).1
    exact hv.keys.mem_iff.mp (List.mem_map_of_mem hp)
  · intro hn
    exact (C23_covers_partial gs mn mx d ix hd h hn).2.2

/-- The cover check counts distinct values but does not look at their lower end. -/
theorem C23_negative_refuted : ∃ (gs : List PyStr) (d : Dict PyStr Int) (ix : ExplIndexer),
    (d.map Prod.fst).Nodup ∧ ExplIndexer.new gs 3 6 (some d) = .ok ix ∧
      (∃ g, ix.call g = some (-1)) ∧ ix.bound = 2 ∧ ¬ ∃ g, ix.call g = some 0 := by
  refine ⟨[[97], [98]], [([97], -1), ([98], 1)], ⟨[[97], [98]], 3, 6, [([97], -1), ([98], 1)], 2⟩,
    by decide, by decide +kernel, ⟨[97], by decide +kernel⟩, rfl, ?_⟩
  rintro ⟨g, hg⟩
  have := expl_mem_values hg
  revert this
  decide

/-- Two n-grams share an index. -/
example : ∃ ix, ExplIndexer.new Sample.explIx.ngrams 2 3 (some Sample.explIx.index) = .ok ix ∧
    (Sample.explIx.index.map Prod.fst).Nodup ∧ ∀ p ∈ Sample.explIx.index, 0 ≤ p.2 :=
  ⟨Sample.explIx, by decide +kernel, by decide, by decide⟩

example : ∃ ix, ExplIndexer.new [[97], [98]] 3 6 none = .ok ix := ⟨_, rfl⟩

/-- Five different values from -3 to 4 are accepted, five from 0 to 5 are not. -/
example : (∃ ix, ExplIndexer.new [[97], [98], [99], [100], [101]] 3 6
      (some [([97], -3), ([98], 0), ([99], 1), ([100], 4), ([101], 3)]) = .ok ix) ∧
    ¬ ∃ ix, ExplIndexer.new [[97], [98], [99], [100], [101]] 3 6
      (some [([97], 2), ([98], 0), ([99], 1), ([100], 5), ([101], 3)]) = .ok ix := by
  constructor
  · exact (C23_accepts _ 3 6 _ (by decide)).mpr ⟨by decide, by decide, by decide, by decide, by decide,
      fun g => Iff.rfl, 4, by decide, by decide, by decide⟩
  · rw [C23_accepts _ 3 6 _ (by decide)]
    rintro ⟨_, _, _, _, _, _, top, h1, h2, h3⟩
    have h2 := h2 5 (by decide)
    have h3 : (5 : Int) = top + 1 := h3
    omega

end FF
