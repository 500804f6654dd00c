import Verif.Lemmas.QuantizedCalls
import Verif.Props.C36
import Verif.Props.C71
import Verif.Spec.NdArray
/-! Lemmas about indexing `NdArray`. -/

namespace FF

section
variable {K : Type} {P : Nat → Nat → Prop} {base : Nat} {h : Heap K} {m : HMat}

theorem npGet_int_sel {α : Type} {xs : List α} {i : Int} {s is : List Nat} (hk : KeySel xs.length (.int i) s is) :
    s = [] ∧ ∃ j x, is = [j] ∧ xs[j]? = some x ∧ npGet xs i = .ok x := by
  obtain ⟨ys, h1, h2⟩ := key_take_total hk
  obtain ⟨hs, j, rfl, _⟩ := hk
  refine ⟨hs, j, ?_⟩
  cases h2 with
  | @cons _ x _ _ a b =>
    cases b
    refine ⟨x, rfl, a, ?_⟩
    unfold Key.take at h1
    dsimp only at h1
    obtain ⟨y, h3, h4⟩ := res_bind_inv h1
    cases h4
    exact h3

theorem npSlice_sel {α : Type} {xs : List α} {sl : PySlice} {s is : List Nat} (hk : KeySel xs.length (.slice sl) s is) :
    ∃ ys, npSlice xs sl = .ok ys ∧ List.Forall₂ (fun i y => xs[i]? = some y) is ys := by
  obtain ⟨ys, h1, h2⟩ := key_take_total hk
  refine ⟨ys, ?_, h2⟩
  unfold Key.take at h1
  dsimp only at h1
  obtain ⟨y, h3, h4⟩ := res_bind_inv h1
  cases h4
  exact h3

theorem denseRows_of {m : Mat K} (hw : m.WF) {is : List Nat} {ys : List (List K)}
    (hy : List.Forall₂ (fun i y => m.rows[i]? = some y) is ys) : DenseRows m is ys.flatten := by
  have hl : ∀ r ∈ ys, r.length = m.cols := by
    intro r hr
    obtain ⟨t, ht, rfl⟩ := List.getElem_of_mem hr
    have := (List.forall₂_iff_get.mp hy).2 t (by rw [hy.length_eq]; exact ht) ht
    exact hw _ (List.mem_of_getElem? this)
  refine ⟨by rw [flatten_const_length hl, hy.length_eq], fun k i hi => ?_⟩
  obtain ⟨h1, h2⟩ := List.getElem?_eq_some_iff.mp hi
  have h3 : k < ys.length := by rw [← hy.length_eq]; exact h1
  have := (List.forall₂_iff_get.mp hy).2 k h1 h3
  rw [List.get_eq_getElem, h2] at this
  rw [this, flatten_take hl (List.getElem?_eq_getElem h3)]
  rfl

theorem forall₂_read {is : List Nat} {rs : List (List Nat)}
    (hr : List.Forall₂ (fun i r => m.rows[i]? = some r) is rs) :
    List.Forall₂ (fun i y => (m.val h).rows[i]? = some y) is (rs.map fun r => h.read ⟨m.loc, r⟩) :=
  forall₂_get_map (fun r => h.read ⟨m.loc, r⟩) hr

theorem read_flatten {loc : Nat} {rs : List (List Nat)} :
    h.read ⟨loc, rs.flatten⟩ = (rs.map fun r => h.read ⟨loc, r⟩).flatten := by
  unfold Heap.read
  dsimp only
  cases h[loc]? with
  | none => simp
  | some b =>
    dsimp only
    induction rs with
    | nil => rfl
    | cons r rs ih => simp [List.filterMap_append, ih]

theorem range_get {n i x : Nat} (h : (List.range n)[i]? = some x) : x = i ∧ i < n := by
  obtain ⟨h1, h2⟩ := List.getElem?_eq_some_iff.mp h
  rw [List.length_range] at h1
  rw [List.getElem_range] at h2
  exact ⟨h2.symm, h1⟩

/-- Integers -/
theorem getItem_int {i : Int} {s is : List Nat} (hk : KeySel m.rows.length (.int i) s is) :
    s = [] ∧ ∃ j r, is = [j] ∧ m.rows[j]? = some r ∧
      m.getItem (some (.int i)) h = (.ok (.array ⟨[m.cols], ⟨m.loc, r⟩⟩), h) := by
  obtain ⟨h1, j, r, h2, h3, h4⟩ := npGet_int_sel hk
  refine ⟨h1, j, r, h2, h3, ?_⟩
  unfold HMat.getItem
  dsimp only
  rw [h4, hm_lift_ok]
  rfl

theorem getItem_copy {key : Key} (h1 : ∀ i, key ≠ .int i) (h2 : ∀ s, key ≠ .slice s) {s is : List Nat}
    (hk : KeySel m.rows.length key s is) :
    ∃ rs, List.Forall₂ (fun i r => m.rows[i]? = some r) is rs ∧
      m.getItem (some key) h = (.ok (.array ⟨s ++ [m.cols],
        ⟨h.length, List.range (rs.map fun r => h.read ⟨m.loc, r⟩).flatten.length⟩⟩),
        h ++ [⟨(rs.map fun r => h.read ⟨m.loc, r⟩).flatten, true⟩]) := by
  obtain ⟨rs, e1, e2⟩ := key_take_total hk
  refine ⟨rs, e2, ?_⟩
  unfold HMat.getItem
  cases key with
  | int i => exact absurd rfl (h1 i)
  | slice s => exact absurd rfl (h2 s)
  | arr a b => dsimp only; rw [e1, hm_lift_ok, hm_look_bind]; rfl
  | mask a => dsimp only; rw [e1, hm_lift_ok, hm_look_bind]; rfl

theorem getItem_slice {sl : PySlice} {s is : List Nat} (hk : KeySel m.rows.length (.slice sl) s is) :
    ∃ rs, List.Forall₂ (fun i r => m.rows[i]? = some r) is rs ∧
      m.getItem (some (.slice sl)) h = (.ok (.storage (.nd ⟨m.loc, m.cols, rs⟩)), h) := by
  obtain ⟨rs, e1, e2⟩ := npSlice_sel hk
  refine ⟨rs, e2, ?_⟩
  unfold HMat.getItem
  dsimp only
  rw [e1, hm_lift_ok]
  rfl

theorem getItem_error {key : Key} (hk : ∀ s is, ¬ KeySel m.rows.length key s is) :
    m.getItem (some key) h = (.error key.err, h) := by
  have h0 := key_take_none hk
  unfold HMat.getItem
  cases key with
  | int i =>
    dsimp only
    unfold Key.take at h0
    dsimp only at h0
    cases hg : npGet m.rows i with
    | ok x => rw [hg] at h0; cases h0
    | error e => rw [hg] at h0; cases h0; exact hm_bind_error rfl
  | slice sl =>
    dsimp only
    unfold Key.take at h0
    dsimp only at h0
    cases hg : npSlice m.rows sl with
    | ok x => rw [hg] at h0; cases h0
    | error e => rw [hg] at h0; cases h0; exact hm_bind_error rfl
  | arr a b => dsimp only; rw [h0]; exact hm_bind_error rfl
  | mask a => dsimp only; rw [h0]; exact hm_bind_error rfl

variable [NumOps K]

/-- `numpy.asarray(storage)` of a `QuantizedArray`: a new matrix of this shape -/
theorem toArray_owned (hf : Frame P base h) {q : HQArr} (hs : Safe P h q.views) (hw : QWF (q.val h)) :
    Refines P h (HStorage.toArray (.quant q)) ((q.val h).toArray)
      (fun h' a b => a.cols = q.pq.reconstructedLen ∧ OwnedMat base h' a b) := by
  have hsp : Safe P h q.pq.views := hs.mono fun v hv => List.mem_append_left _ hv
  show Refines P h (q.pq.reconstructMany q.codes >>= _) ((q.val h).toArray) _
  unfold QArr.toArray
  have hnorm : (q.val h).norms = q.norms.map h.read := rfl
  cases hn : q.norms with
  | none =>
    rw [hnorm, hn]
    refine Refines.last (reconstructMany_refines hf hsp hw.pq q.codes) ?_
    rintro h2 o b hle hb ho
    exact Refines.pure ho
  | some v =>
    rw [hnorm, hn]
    refine Refines.bind (reconstructMany_refines hf hsp hw.pq q.codes) ?_
    rintro h2 o b hle hb ⟨hcols, ho⟩
    have hv : v ∈ q.views := by unfold HQArr.views; rw [hn]; simp
    refine Refines.step hm_read_bind (.refl _ _) ?_
    refine Refines.step hm_look_bind (.refl _ _) ?_
    rw [hs.read hle hv, ho.val]
    dsimp only
    by_cases hl : (h.read v).length ≠ b.length
    · rw [if_pos hl, if_pos hl]
      exact ⟨_, _, hm_bind_error rfl, .refl _ _, rfl⟩
    · rw [if_neg hl, if_neg hl]
      exact (Refines.allocMat (hf.le hle) _ _).mono fun _ _ _ _ _ h3 => ⟨h3.1.trans hcols, h3.2⟩

/-- A matrix with the numbers of a `QuantizedArray`: the rows are those that the codes stand for. -/
theorem areRows_dense {q : QArr K} (hq : QWF q) {m : Mat K} (ha : q.toArray = .ok m.rows)
    (hc : m.cols = q.pq.reconstructedLen) {is : List Nat} {xs : List K} (hd : DenseRows m is xs) :
    AreRows q is xs := by
  refine ⟨by rw [← hc]; exact hd.1, fun k i hi => ?_⟩
  have := hd.2 k i hi
  rw [hc] at this
  have h1 := ((toArray_getOne (s := .quant q) hq ha).2 i _).mp this
  obtain ⟨j, hj, hr⟩ := (qGetOne_ok hq).mp h1
  have : i < m.rows.length := (List.getElem?_eq_some_iff.mp this).1
  have hlen := (toArray_getOne (s := .quant q) hq ha).1
  have hji : j = i := by
    have hi' : i < q.codes.length := by rw [hlen] at this; exact this
    unfold npIndex at hj
    split_ifs at hj <;> simp_all
  rw [← hji]
  exact hr

theorem rowsCoded_array {q : QArr K} (hq : QWF q) {rows : List (List K)} (ha : q.toArray = .ok rows) (is : List Nat) :
    RowsCoded q is := by
  intro i _ c hc
  refine (getOne_coded hq hc).mp ?_
  have h1 := toArray_getOne (s := .quant q) hq ha
  have hi : i < q.codes.length := (List.getElem?_eq_some_iff.mp hc).1
  have hi' : i < rows.length := by rw [h1.1]; exact hi
  exact ⟨_, (h1.2 i _).mp (List.getElem?_eq_getElem hi')⟩

end

end FF
