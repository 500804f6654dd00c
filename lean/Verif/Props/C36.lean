import Verif.Props.C35
/-! C36: indexing, converting, slicing and iterating agree. -/

namespace FF

section
variable {K : Type} [NumOps K]

theorem toArray_getOne {s : Storage K} (hs : StorageWF s) {rows : List (List K)}
    (h : s.toArray = .ok rows) : rows.length = s.nRows ∧
      ∀ (i : Nat) v, rows[i]? = some v ↔ s.getOne i = .ok v := by
  rw [toArray_ok hs, mapRes_ok] at h
  have hl := h.length_eq
  simp only [List.length_map, List.length_range] at hl
  have key : ∀ i (hi : i < rows.length), s.getOne i = .ok rows[i] := by
    intro i hi
    have h1 : i < ((List.range s.nRows).map fun i : Nat => (i : Int)).length := by
      simp; omega
    have := (List.forall₂_iff_get.mp h).2 i h1 hi
    simpa using this
  refine ⟨hl.symm, fun i v => ?_⟩
  constructor
  · intro hi
    obtain ⟨h1, h2⟩ := List.getElem?_eq_some_iff.mp hi
    rw [← h2]; exact key i h1
  · intro hi
    have := getOne_range hi
    have h1 : i < rows.length := by omega
    rw [key i h1] at hi
    cases hi
    exact List.getElem?_eq_getElem h1

/-- `numpy.asarray(storage)[i]` and `storage[i]`: when the conversion succeeds all rows agree, and
it succeeds if every row can be read. -/
theorem C36_array (s : Storage K) (hs : StorageWF s) :
    (∀ rows, s.toArray = .ok rows → rows.length = s.nRows ∧
      ∀ (i : Nat) v, rows[i]? = some v ↔ s.getOne i = .ok v) ∧
    ((∀ i : Nat, i < s.nRows → ∃ v, s.getOne i = .ok v) → ∃ rows, s.toArray = .ok rows) := by
  refine ⟨fun rows h => toArray_getOne hs h, fun h => ?_⟩
  cases ht : s.toArray with
  | ok rows => exact ⟨rows, rfl⟩
  | error e =>
    exfalso
    cases hm : mapRes s.getOne ((List.range s.nRows).map fun i : Nat => (i : Int)) with
    | ok rows => rw [(toArray_ok hs).mpr hm] at ht; cases ht
    | error e' =>
      obtain ⟨x, hx, hxe⟩ := mapRes_err hm
      obtain ⟨i, hi, rfl⟩ := List.mem_map.mp hx
      obtain ⟨v, hv⟩ := h i (List.mem_range.mp hi)
      rw [hv] at hxe; cases hxe

/-- `storage[:]` has the rows of `storage`, and converts to the same array. -/
theorem C36_full_slice (s : Storage K) (hs : StorageWF s) :
    ∃ s', s.slice ⟨none, none, none⟩ = .ok s' ∧ s'.nRows = s.nRows ∧
      (∀ i : Nat, i < s.nRows → s'.getOne i = s.getOne i) ∧ s'.toArray = s.toArray := by
  obtain ⟨s', is, h1, h2, h3, h4, h5, h6⟩ := slice_ok (s := s) hs (sl := ⟨none, none, none⟩) (by simp)
  have his : is = List.range s.nRows := by
    have hsel := slicePos_sel h2
    refine sliceSel_unique hsel ?_
    left
    refine ⟨by decide, List.pairwise_lt_range, 0, by simp, fun x => ?_⟩
    simp
  subst his
  have hn : s'.nRows = s.nRows := by rw [h4, List.length_range]
  have hrow : ∀ i : Nat, i < s.nRows → s'.getOne i = s.getOne i :=
    fun i hi => h6 i i (List.getElem?_range hi)
  refine ⟨s', h1, hn, hrow, ?_⟩
  refine bothErr (fun e h => toArray_err h3 h) (fun e h => toArray_err hs h) fun rows => ?_
  rw [toArray_ok h3, toArray_ok hs, hn]
  rw [mapRes_congr]
  intro x hx
  obtain ⟨i, hi, rfl⟩ := List.mem_map.mp hx
  exact hrow i (List.mem_range.mp hi)

/-- `list(storage)` is the converted array for an `NdArray` and for a `QuantizedArray` without
norms.

Partial: with norms it is not (`C36_iter_refuted`). -/
theorem C36_iter_partial (s : Storage K) (hn : ∀ q, s = .quant q → q.norms = none) :
    s.iter = s.toArray := by
  cases s with
  | nd m => rfl
  | quant q =>
    show q.iter = q.toArray
    unfold QArr.iter QArr.toArray
    rw [hn q rfl]

/-- With norms iteration gives the unscaled rows: element `i` multiplied by `norms[i]` is
`storage[i]`. -/
theorem C36_iter_norms (q : QArr K) (hq : QWF q) (norms : List K) (hn : q.norms = some norms)
    (rows : List (List K)) (h : q.iter = .ok rows) :
    rows.length = q.codes.length ∧ ∀ (i : Nat) r, rows[i]? = some r →
      ∃ n, norms[i]? = some n ∧ q.getOne i = .ok (scale n r) := by
  unfold QArr.iter at h
  have hl := mapRes_length h
  refine ⟨hl, fun i r hr => ?_⟩
  obtain ⟨h1, h2⟩ := List.getElem?_eq_some_iff.mp hr
  have hc : i < q.codes.length := by omega
  have hrec := (List.forall₂_iff_get.mp (mapRes_ok.mp h)).2 i hc h1
  have hni : i < norms.length := by rw [hq.norms norms hn]; exact hc
  refine ⟨_, List.getElem?_eq_getElem hni, qGetOne_iff.mpr ⟨_, r,
    npGet_nat.mpr (List.getElem?_eq_getElem hc), ?_, ?_⟩⟩
  · rw [← h2]; exact hrec
  · rw [hn]
    exact ⟨_, npGet_nat.mpr (List.getElem?_eq_getElem hni), rfl⟩

end

/-- quantized.py:273-274 ignores the norms: iterating gives other vectors than indexing. -/
theorem C36_iter_refuted : ∃ q : QArr Int, QWF q ∧
    (∀ c ∈ q.codes, ∀ x ∈ c, x.toNat < q.pq.nCentroids) ∧
    q.iter = .ok [[1, 3]] ∧ q.getOne 0 = .ok [5, 15] ∧ q.toArray = .ok [[5, 15]] :=
  ⟨⟨⟨1, 1, [[[1]], [[3]]], none⟩, 2, [[0, 0]], some [5]⟩,
    ⟨by decide, rfl, by decide, by decide, by simp, by simp, by decide, by decide, by decide⟩, by decide, by decide,
    by decide, by decide⟩

/-! ### The hypotheses can be met -/

example : ∃ q : QArr Int, QWF q ∧ q.norms = none ∧
    (Storage.quant q).iter = .ok [[1, 3], [2, 3]] ∧ q.getOne 1 = .ok [2, 3] :=
  ⟨⟨⟨2, 1, [[[1], [2]], [[3], [4]]], none⟩, 2, [[0, 0], [1, 0]], none⟩,
    ⟨by decide, rfl, by decide, by decide, by simp, by simp, by decide, by decide, by decide⟩, rfl, by decide,
    by decide⟩

end FF
