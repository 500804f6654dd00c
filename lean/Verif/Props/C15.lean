import Verif.Lemmas.VocabLookup
import Verif.Props.C20
import Verif.Spec.Samples
/-! C15: every produced index is below `upper_bound`. -/

namespace FF

/-- An index is a word index or a subword index of `v`. -/
def InRange (v : Vocab) : Idx → Prop
  | .one i => i < v.words.length ∧ (i : Int) < v.upperBound
  | .many is => ∀ i ∈ is, (v.words.length : Int) ≤ i ∧ i < v.upperBound

/-- Full claim, for vocabularies whose n-gram index (if explicit) has no negative values.  Lists
in memory have fewer than `2^63` items. -/
theorem C15_bounds_partial (v : Vocab) (hv : BuiltVocab v) (hlen : v.words.length < 2 ^ 63)
    (hneg : ∀ ix, v.sub = some ix → NonNegIndex ix) (item : PyStr) :
    (∀ i, v.getItem item = .ok i → InRange v i) ∧
    (∀ i, v.idx item = .ok (some i) → InRange v i) ∧
    (∀ ix br is, v.sub = some ix → v.subwordIndices ix item br = .ok is → InRange v (.many is)) ∧
    ∀ ix br gs, v.sub = some ix → v.subwordIndicesG ix item br = .ok gs →
      InRange v (.many (gs.map Prod.snd)) := by
  have hsub : ∀ ix br is, v.sub = some ix → v.subwordIndices ix item br = .ok is →
      InRange v (.many is) := by
    intro ix br is hs h i hi
    obtain ⟨g, k, hc, rfl⟩ := indices_mem (hv.1 ix hs) hlen h hi
    have := call_lt (hv.1 ix hs) (hneg ix hs) hc
    unfold Vocab.upperBound
    rw [hs, hv.len]
    simp only
    omega
  have hone : ∀ i, Dict.get? v.index item = some i → InRange v (.one i) := by
    intro i hi
    obtain ⟨h1, _⟩ := List.getElem?_eq_some_iff.mp (hv.get.mp hi)
    refine ⟨h1, ?_⟩
    unfold Vocab.upperBound
    rw [hv.len]
    cases hs : v.sub with
    | none => simp only; omega
    | some ix =>
      have : 0 ≤ ix.upperBound := by
        cases ix with
        | fifu ix => exact Int.natCast_nonneg _
        | ft ix => exact Int.natCast_nonneg _
        | expl ix =>
          have := (ExplValid.bound (builtIndexer_wf (hv.1 _ hs)))
          show 0 ≤ ix.bound
          omega
      simp only
      omega
  refine ⟨?_, ?_, hsub, ?_⟩
  · intro i h
    unfold Vocab.getItem at h
    cases hs : v.sub with
    | none =>
      rw [hs] at h
      simp only at h
      cases hg : Dict.get? v.index item with
      | none => rw [hg] at h; cases h
      | some j => rw [hg] at h; cases h; exact hone j hg
    | some ix =>
      rw [hs] at h
      simp only at h
      cases hg : Dict.get? v.index item with
      | some j => rw [hg] at h; cases h; exact hone j hg
      | none =>
        rw [hg] at h
        simp only at h
        obtain ⟨is, h1, h⟩ := res_bind_inv h
        split at h
        · cases h; exact hsub ix _ is hs h1
        · cases h
  · intro i h
    unfold Vocab.idx at h
    cases hs : v.sub with
    | none =>
      rw [hs] at h
      simp only at h
      cases hg : Dict.get? v.index item with
      | none => rw [hg] at h; cases h
      | some j => rw [hg] at h; cases h; exact hone j hg
    | some ix =>
      rw [hs] at h
      simp only at h
      cases hg : Dict.get? v.index item with
      | some j => rw [hg] at h; cases h; exact hone j hg
      | none =>
        rw [hg] at h
        simp only at h
        obtain ⟨is, h1, h⟩ := res_bind_inv h
        split at h
        · cases h; exact hsub ix _ is hs h1
        · cases h
  · intro ix br gs hs h
    refine hsub ix br _ hs ?_
    unfold Vocab.subwordIndices
    rw [indices_eq_snd]
    unfold Vocab.subwordIndicesG at h
    rw [h]
    rfl

/-- An accepted explicit index with a negative value yields an index of a word. -/
theorem C15_negative_refuted : ∃ (ix : ExplIndexer) (v : Vocab) (is : List Int),
    ExplIndexer.new [[60, 97], [97, 62]] 2 3 (some [([60, 97], -1), ([97, 62], 1)]) = .ok ix ∧
    Vocab.new [[98]] (some (.expl ix)) = .ok v ∧
    v.getItem [97] = .ok (.many is) ∧ (0 : Int) ∈ is ∧ (0 : Int) < v.words.length := by
  refine ⟨⟨[[60, 97], [97, 62]], 2, 3, [([60, 97], -1), ([97, 62], 1)], 2⟩, ⟨[[98]], _, _⟩, [0, 2],
    by decide +kernel, rfl, by decide +kernel, by decide, by decide⟩

/-- For a vocabulary with explicit n-grams: all subword indices of all strings are in range if and only if no
n-gram of admissible length has a negative index. -/
theorem C15_explicit_exact (v : Vocab) (hv : BuiltVocab v) (ix : ExplIndexer) (hs : v.sub = some (.expl ix)) :
    (∀ item br is, v.subwordIndices (.expl ix) item br = .ok is → InRange v (.many is)) ↔
      ∀ g i, ix.call g = some i → ix.minN ≤ g.length → g.length ≤ ix.maxN → 0 ≤ i := by
  have hb := hv.1 _ hs
  have hx : ExplValid ix := builtIndexer_wf hb
  constructor
  · intro h g i hg h1 h2
    obtain ⟨gs, h3, _, h4⟩ := C20_bulk ix hb g v.words.length false
    have hin : g ∈ gs := by
      rw [ngrams_occs hx.minPos hx.minMax] at h3
      cases h3
      refine List.mem_map.mpr ⟨(0, g.length), (mem_occs hx.minPos).mpr ⟨h1, h2, ?_⟩, ?_⟩
      · show 0 + g.length ≤ g.length; omega
      · show (g.drop 0).take g.length = g; simp
    have hm : (v.words.length : Int) + i ∈ ix.indices g v.words.length false := by
      rw [h4]
      exact List.mem_filterMap.mpr ⟨g, hin, by rw [hg]; rfl⟩
    have := h g false _ rfl _ hm
    omega
  · intro h item br is his i hi
    obtain ⟨gs, h3, _, h4⟩ := C20_bulk ix hb item v.words.length br
    have his : ix.indices item v.words.length br = is := Except.ok.inj his
    rw [← his, h4] at hi
    obtain ⟨g, hg, hi⟩ := List.mem_filterMap.mp hi
    obtain ⟨k, hk, rfl⟩ := Option.map_eq_some_iff.mp hi
    rw [ngrams_occs hx.minPos hx.minMax] at h3
    cases h3
    obtain ⟨⟨a, b⟩, hab, rfl⟩ := List.mem_map.mp hg
    obtain ⟨h5, h6, h7⟩ := (mem_occs hx.minPos).mp hab
    have h8 := h _ k hk (by simp only [List.length_take, List.length_drop]; omega)
      (by simp only [List.length_take, List.length_drop]; omega)
    have h9 := hx.top k (expl_mem_values hk)
    unfold Vocab.upperBound
    rw [hs, hv.len]
    show _ ∧ _ < (v.words.length : Int) + ix.bound
    omega

/-- All four classes have instances that satisfy the hypotheses, with known and unknown words. -/
example : Sample.simple.getItem [0xDF] = .ok (.one 1) := by decide +kernel
example : BuiltVocab Sample.bucket ∧ Sample.bucket.getItem [97, 97] = .ok (.many [3, 3, 3, 4, 3]) :=
  ⟨Sample.builtBucket, by decide +kernel⟩
example : BuiltVocab Sample.ft ∧ Sample.ft.getItem [97, 97] = .ok (.many [4, 3, 4, 4, 3]) :=
  ⟨Sample.builtFt, by decide +kernel⟩
example : BuiltVocab Sample.expl ∧ (∀ ix, Sample.expl.sub = some ix → NonNegIndex ix) ∧
    Sample.expl.getItem [97, 97] = .ok (.many [3, 4]) := by
  refine ⟨Sample.builtExpl, ?_, by decide +kernel⟩
  intro ix h e he g i hc
  cases h
  cases he
  have : i ∈ Sample.explIx.index.map Prod.snd := expl_mem_values hc
  revert this
  have : ∀ i ∈ Sample.explIx.index.map Prod.snd, 0 ≤ i := by decide
  exact this i

/-- Negative indices of n-grams that are too long are harmless. -/
example : ∀ item br is, Vocab.subwordIndices ⟨[[98]], [([98], 0)], some (.expl ⟨[[97, 98, 99], [97, 62]], 2, 2,
      [([97, 98, 99], -1), ([97, 62], 1)], 2⟩)⟩ (.expl ⟨[[97, 98, 99], [97, 62]], 2, 2,
      [([97, 98, 99], -1), ([97, 62], 1)], 2⟩) item br = .ok is →
    InRange ⟨[[98]], [([98], 0)], some (.expl ⟨[[97, 98, 99], [97, 62]], 2, 2,
      [([97, 98, 99], -1), ([97, 62], 1)], 2⟩)⟩ (.many is) := by
  refine (C15_explicit_exact _ ⟨?_, by decide⟩ _ rfl).mpr ?_
  · intro ix h
    cases h
    exact .explIdx (gs := [[97, 98, 99], [97, 62]]) (mn := 2) (mx := 2)
      (d := [([97, 98, 99], -1), ([97, 62], 1)]) (by decide) (by decide +kernel)
  · intro g i hg h1 h2
    have := Dict.get?_mem hg
    simp only [List.mem_cons, Prod.mk.injEq, List.not_mem_nil, or_false] at this
    rcases this with ⟨rfl, rfl⟩ | ⟨rfl, rfl⟩
    · exact absurd h2 (by decide)
    · decide

end FF
