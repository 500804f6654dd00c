import Verif.Lemmas.StorageRows
import Verif.Spec.Samples
import Verif.Spec.Num
/-! C37: slicing. -/

namespace FF

theorem sliceSel_unique {n : Nat} {s : PySlice} {is js : List Nat} (h : SliceSel n s is)
    (h' : SliceSel n s js) : is = js := by
  unfold SliceSel at h h'
  simp only at h h'
  rcases h with ⟨h1, h2, lo, rfl, h3⟩ | ⟨h1, h2, hi, rfl, h3⟩ <;>
    rcases h' with ⟨k1, k2, lo', rfl, k3⟩ | ⟨k1, k2, hi', rfl, k3⟩
  · refine List.Perm.eq_of_pairwise (le := (· < ·)) ?_ h2 k2
      ((List.perm_ext_iff_of_nodup (h2.imp Nat.ne_of_lt) (k2.imp Nat.ne_of_lt)).mpr fun x => by
        rw [h3, k3])
    intro a b _ _ hab hba; omega
  · omega
  · omega
  · refine List.Perm.eq_of_pairwise (le := (· > ·)) ?_ h2 k2
      ((List.perm_ext_iff_of_nodup (h2.imp Nat.ne_of_gt) (k2.imp Nat.ne_of_gt)).mpr fun x => by
        rw [h3, k3])
    intro a b _ _ hab hba; omega

/-- Slicing a sequence (`Norms`, words, the rows of an `NdArray`) selects exactly the items at the
positions of the specification, in that order; a zero step is a `ValueError` and nothing else
is. -/
theorem C37_sequence {α : Type} (xs : List α) (s : PySlice) :
    (s.step = some 0 → npSlice xs s = .error .valueError) ∧
    (s.step ≠ some 0 → ∃ ys, npSlice xs s = .ok ys) ∧
    ∀ ys, npSlice xs s = .ok ys ↔ s.step ≠ some 0 ∧ ∃ is, SliceSel xs.length s is ∧
      List.Forall₂ (fun i y => xs[i]? = some y) is ys := by
  refine ⟨npSlice_zero, npSlice_total, fun ys => ?_⟩
  rw [npSlice_ok]
  constructor
  · rintro ⟨is, h1, h2⟩
    exact ⟨slicePos_step h1, is, slicePos_sel h1, h2⟩
  · rintro ⟨h0, is, h1, h2⟩
    cases hp : slicePos xs.length s with
    | error e => exact absurd (slicePos_err.mp hp).2 h0
    | ok js =>
      rw [sliceSel_unique h1 (slicePos_sel hp)] at h2
      exact ⟨js, rfl, h2⟩

section
variable {K : Type} [NumOps K]

/-- Slicing a storage, `NdArray` or `QuantizedArray`: row `j` of the slice is row `is[j]` of the
storage, where `is` are the positions of the specification.  Both single rows raise the same
exception if there is one. -/
theorem C37_storage (st : Storage K) (hst : StorageWF st) (s : PySlice) :
    (s.step = some 0 → st.slice s = .error .valueError) ∧
    (s.step ≠ some 0 → ∃ st' is, st.slice s = .ok st' ∧ SliceSel st.nRows s is ∧ StorageWF st' ∧
      st'.nRows = is.length ∧ st'.nCols = st.nCols ∧
      ∀ (j i : Nat), is[j]? = some i → st'.getOne j = st.getOne i) := by
  refine ⟨slice_zero, fun h0 => ?_⟩
  obtain ⟨st', is, h1, h2, h3⟩ := slice_ok hst h0
  exact ⟨st', is, h1, slicePos_sel h2, h3⟩

/-- `storage[s]` has exactly the rows `list(range(n))[s]`, and slicing composes: the rows of
`storage[s][t]` are `list(range(n))[s][t]`. -/
theorem C37_compose (st st1 st2 : Storage K) (hst : StorageWF st) (s t : PySlice)
    (h1 : st.slice s = .ok st1) (h2 : st1.slice t = .ok st2) :
    ∃ a b, npSlice (List.range st.nRows) s = .ok a ∧ npSlice a t = .ok b ∧
      st1.nRows = a.length ∧ (∀ (j i : Nat), a[j]? = some i → st1.getOne j = st.getOne i) ∧
      st2.nRows = b.length ∧ ∀ (j i : Nat), b[j]? = some i → st2.getOne j = st.getOne i := by
  have step : ∀ (x y : Storage K) sl, x.slice sl = .ok y → sl.step ≠ some 0 := by
    intro x y sl h h0
    rw [slice_zero h0] at h; cases h
  obtain ⟨s1, is, e1, p1, w1, n1, _, r1⟩ := slice_ok hst (step _ _ _ h1)
  rw [h1] at e1; cases e1
  obtain ⟨s2, js, e2, p2, w2, n2, _, r2⟩ := slice_ok w1 (step _ _ _ h2)
  rw [h2] at e2; cases e2
  have ha : npSlice (List.range st.nRows) s = .ok is := by
    rw [npSlice_ok]
    refine ⟨is, by rw [List.length_range]; exact p1, ?_⟩
    refine forall₂_range rfl fun i x y hx hy => ?_
    rw [hx] at hy; cases hy
    exact List.getElem?_range (slicePos_lt p1 x (List.mem_of_getElem? hx))
  obtain ⟨b, hb⟩ := npSlice_total (xs := is) (step _ _ _ h2)
  obtain ⟨js', q1, q2⟩ := npSlice_ok.mp hb
  rw [← n1, p2] at q1
  cases q1
  refine ⟨is, b, ha, hb, n1, r1, by rw [n2, q2.length_eq], ?_⟩
  intro j i hj
  have hjb := (List.getElem?_eq_some_iff.mp hj).1
  have hjj : j < js.length := by rw [q2.length_eq]; exact hjb
  have := (List.forall₂_iff_get.mp q2).2 j hjj hjb
  rw [List.get_eq_getElem, List.get_eq_getElem, (List.getElem?_eq_some_iff.mp hj).2] at this
  rw [r2 j _ (List.getElem?_eq_getElem hjj)]
  exact r1 _ _ this

end

/-! ### The hypotheses can be met -/

example : npSlice [10, 11, 12, 13, 14] ⟨some (-2), none, some (-2)⟩ = .ok [13, 11] := by decide
example : npSlice [10, 11, 12, 13, 14] ⟨some (-9), some 99, some 3⟩ = .ok [10, 13] := by decide
example : npSlice [10, 11, 12] ⟨none, none, some 0⟩ = .error .valueError := by decide

/-- A quantized storage with norms: a slice of a slice, backwards. -/
example : ∃ q : QArr Int, QWF q ∧ q.norms ≠ none ∧ ∃ s1 s2, (Storage.quant q).slice ⟨some 1, none, none⟩
    = .ok s1 ∧ s1.slice ⟨none, none, some (-1)⟩ = .ok s2 ∧
    s2.toArray = .ok [[15, 60], [20, 40]] := by
  refine ⟨⟨⟨2, 1, [[[1], [2]], [[3], [4]]], none⟩, 2, [[0, 0], [1, 1], [0, 1]], some [1, 10, 15]⟩,
    ⟨by decide, rfl, by decide, by decide, by simp, by simp, by decide, by decide, by decide⟩, by decide, ?_⟩
  refine ⟨.quant ⟨⟨2, 1, [[[1], [2]], [[3], [4]]], none⟩, 2, [[1, 1], [0, 1]], some [10, 15]⟩,
    .quant ⟨⟨2, 1, [[[1], [2]], [[3], [4]]], none⟩, 2, [[0, 1], [1, 1]], some [15, 10]⟩, by decide,
    by decide, ?_⟩
  decide

end FF
