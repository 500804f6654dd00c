import Mathlib.Data.Finset.Card
import Mathlib.Data.Int.Interval
import Mathlib.Order.Interval.Finset.Nat
import Verif.Lemmas.HashSpec
import Verif.Lemmas.Built
/-! Lookups in vocabularies. -/

namespace FF

theorem BuiltVocab.nodup {v : Vocab} (h : BuiltVocab v) : v.words.Nodup := h.wf.nodup

theorem BuiltVocab.get {v : Vocab} (h : BuiltVocab v) {w : PyStr} {i : Nat} :
    Dict.get? v.index w = some i ↔ v.words[i]? = some w := by
  rw [h.wf.index]; exact get?_enumItems h.nodup

theorem BuiltVocab.get_none {v : Vocab} (h : BuiltVocab v) {w : PyStr} :
    Dict.get? v.index w = none ↔ w ∉ v.words := by
  rw [h.wf.index]; exact get?_enumItems_none

theorem BuiltVocab.len {v : Vocab} (h : BuiltVocab v) : v.len = v.words.length := by
  unfold Vocab.len
  rw [h.wf.index, enumItems_length]

/-- The n-gram index of an explicit indexer has no negative values. -/
def NonNegIndex (ix : Indexer) : Prop :=
  ∀ e, ix = .expl e → ∀ g i, e.call g = some i → 0 ≤ i

theorem expl_mem_values {ix : ExplIndexer} {g : PyStr} {i : Int} (h : ix.call g = some i) :
    i ∈ ix.index.map Prod.snd := by
  have := Dict.get?_mem h
  rw [List.mem_map]
  exact ⟨_, this, rfl⟩

/-- N-grams of an accepted range. -/
theorem ngrams_occs {lo hi : Nat} (h0 : 0 < lo) (h1 : lo ≤ hi) (word : PyStr) (b : Bool) :
    ngrams word lo hi b = .ok ((occs (bracketed b word).length lo hi).map fun p =>
        ((bracketed b word).drop p.1).take p.2) := by
  rw [ngrams_eq, if_pos ⟨h1, h0⟩]

theorem BuiltIndexer.range {ix : Indexer} (h : BuiltIndexer ix) :
    0 < ix.minN ∧ ix.minN ≤ ix.maxN := by
  have := builtIndexer_wf h
  cases ix with
  | fifu ix => obtain ⟨_, _, _, h0, h1, _⟩ := fifuNew_ok.mp this; exact ⟨h0, h1⟩
  | ft ix => obtain ⟨_, _, _, h0, h1, _⟩ := ftNew_ok.mp this; exact ⟨h0, h1⟩
  | expl ix => exact ⟨ExplValid.minPos this, ExplValid.minMax this⟩

/-- Indices produced by the bulk lookup are those of the single lookups, shifted. -/
theorem indices_mem {ix : Indexer} (h : BuiltIndexer ix) {word : PyStr} {off : Nat}
    (ho : off < 2 ^ 63) {b : Bool} {l : List Int} (hl : ix.indices word off b = .ok l) {i : Int}
    (hi : i ∈ l) : ∃ g k, ix.call g = .ok (some k) ∧ i = off + k := by
  have hwf := builtIndexer_wf h
  cases ix with
  | fifu ix =>
    obtain ⟨_, _, _, h0, _, _, _, h2⟩ := fifuNew_ok.mp hwf
    have hub : ix.upperBound ≤ 2 ^ 63 := Nat.pow_le_pow_right (by omega) (by omega)
    unfold Indexer.indices at hl
    simp only at hl
    cases hl
    unfold FifuIndexer.indices at hi
    rw [fifuSub_call _ ix h0 h2 word off (by omega) b] at hi
    simp only [List.map_map, List.mem_map, Function.comp] at hi
    obtain ⟨p, _, rfl⟩ := hi
    exact ⟨_, _, rfl, by push_cast; rfl⟩
  | ft ix =>
    obtain ⟨_, _, _, h0, _, _, h2, h3⟩ := ftNew_ok.mp hwf
    have hub : ix.upperBound < 2 ^ 32 := h3
    unfold Indexer.indices FtIndexer.indices at hl
    simp only at hl
    cases hs : (bracketed b word).any isSurrogate with
    | true =>
      rw [ftSub_eq, encode_err hs] at hl
      cases hl
    | false =>
      rw [ftSub_call _ ix h0 h2 word off (by omega) b hs] at hl
      cases hl
      simp only [List.map_map, List.mem_map, Function.comp] at hi
      obtain ⟨p, _, rfl⟩ := hi
      refine ⟨((bracketed b word).drop p.1).take p.2, _, ?_, by push_cast; rfl⟩
      unfold Indexer.call
      simp only
      rw [ftCall_eq (noSurrogate_slice hs _ _)]
      rfl
  | expl ix =>
    unfold Indexer.indices ExplIndexer.indices at hl
    simp only at hl
    cases hl
    rw [explSub_eq] at hi
    simp only [List.mem_filterMap, Option.map_eq_some_iff] at hi
    obtain ⟨g, _, k, hk, rfl⟩ := hi
    refine ⟨g, k, ?_, by omega⟩
    unfold Indexer.call ExplIndexer.call
    simp only
    rw [hk]

/-- Single lookups stay below the upper bound. -/
theorem call_lt {ix : Indexer} (h : BuiltIndexer ix) (hn : NonNegIndex ix) {g : PyStr} {k : Int}
    (hc : ix.call g = .ok (some k)) : 0 ≤ k ∧ k < ix.upperBound := by
  have hwf := builtIndexer_wf h
  cases ix with
  | fifu ix =>
    obtain ⟨_, _, _, h0, _, _, _, h2⟩ := fifuNew_ok.mp hwf
    unfold Indexer.call at hc
    cases hc
    have := fifuCall_lt ix h2 g
    unfold Indexer.upperBound
    simp only
    omega
  | ft ix =>
    obtain ⟨_, _, _, h0, _, _, h2, h3⟩ := ftNew_ok.mp hwf
    unfold Indexer.call at hc
    obtain ⟨n, hn, hc⟩ := res_bind_inv hc
    cases hc
    have := ftCall_lt h2 hn
    unfold Indexer.upperBound
    simp only
    omega
  | expl ix =>
    unfold Indexer.call at hc
    simp only at hc
    have hc' : ix.call g = some k := by cases hx : ix.call g <;> rw [hx] at hc <;> cases hc; rfl
    exact ⟨hn ix rfl g k hc', ExplValid.top hwf k (expl_mem_values hc')⟩

/-- `with_ngrams=False` gives the second components of `with_ngrams=True`. -/
theorem indices_eq_snd (ix : Indexer) (word : PyStr) (off : Nat) (b : Bool) :
    ix.indices word off b = (do
      let l ← ix.subwordIndices word off b
      return l.map Prod.snd) := by
  cases ix with
  | fifu ix =>
    unfold Indexer.indices Indexer.subwordIndices FifuIndexer.indices FifuIndexer.subwordIndices
    simp only [fifuSub_eq, res_bind_ok, res_pure, List.map_map]
    rfl
  | ft ix =>
    unfold Indexer.indices Indexer.subwordIndices FtIndexer.indices FtIndexer.subwordIndices
    simp only [ftSub_eq]
    cases encode (bracketed b word) with
    | error e => rfl
    | ok e =>
      simp only [res_bind_ok, res_pure, List.map_map]
      rfl
  | expl ix =>
    unfold Indexer.indices Indexer.subwordIndices ExplIndexer.indices ExplIndexer.subwordIndices
    simp only [explSub_eq, res_bind_ok, res_pure, List.map_filterMap]
    congr 2
    funext g
    cases Dict.get? ix.index g <;> rfl

/-- Values of a valid explicit index without negative values are exactly `0 … bound - 1`. -/
theorem expl_values {ix : ExplIndexer} (h : ExplValid ix)
    (hn : ∀ x ∈ ix.index.map Prod.snd, 0 ≤ x) (i : Int) :
    (0 ≤ i ∧ i < ix.bound) ↔ i ∈ ix.index.map Prod.snd := by
  constructor
  · intro hi
    have hsub : (ix.index.map Prod.snd).toFinset ⊆ Finset.Ico 0 ix.bound := by
      intro x hx
      rw [List.mem_toFinset] at hx
      rw [Finset.mem_Ico]
      exact ⟨hn x hx, h.top x hx⟩
    have hcard : (Finset.Ico 0 ix.bound).card ≤ (ix.index.map Prod.snd).toFinset.card := by
      rw [Int.card_Ico, List.card_toFinset]
      have := h.bound
      omega
    have := Finset.eq_of_subset_of_card_le hsub hcard
    rw [← List.mem_toFinset, this, Finset.mem_Ico]
    exact hi
  · intro hi
    exact ⟨hn i hi, h.top i hi⟩

end FF
