import Verif.Lemmas.NdArray
/-!
# C78: indexing `NdArray` and `Norms`

`storage[key]` for a matrix in memory and for a `QuantizedArray` holding the same numbers.
-/

namespace FF

/-- The constructor accepts exactly the two-dimensional float32 arrays. -/
theorem C78_new (a : NormArray) :
    (∀ b, ndArrayNew a = .ok b ↔ a.dtype = .float32 ∧ a.ndim = 2 ∧ b = a) ∧
    (¬ (a.dtype = .float32 ∧ a.ndim = 2) → ndArrayNew a = .error .typeError) := by
  unfold ndArrayNew issubdtypeF32
  by_cases h1 : a.dtype = .float32 <;> by_cases h2 : a.ndim = 2 <;> simp [h1, h2, eq_comm]

section
variable {K : Type} {h : Heap K} {m : HMat}

/-! ### Matrices -/

/-- An integer: the row itself, not a copy.  Writing to it changes this row of the storage and no other. -/
theorem C78_int (hv : Valids h m.views) (i : Int) (j : Nat) (hj : At m.rows.length i j) :
    ∃ v, m.getItem (some (.int i)) h = (.ok (.array ⟨[m.cols], v⟩), h) ∧ (m.val h).rows[j]? = some (h.read v) ∧
      (m.rows.flatten.Nodup → (∀ b, h[m.loc]? = some b → b.writable = true) → ∀ xs, xs.length = v.idxs.length →
        ∃ h', HM.write v xs h = (.ok (), h') ∧ (m.val h').rows = (m.val h).rows.set j xs) := by
  obtain ⟨_, j', r, h1, h2, h3⟩ := getItem_int (h := h) (m := m) (i := i) (s := []) (is := [j]) ⟨rfl, j, rfl, hj⟩
  cases h1
  refine ⟨⟨m.loc, r⟩, h3, ?_, fun hn hwr xs hx => ?_⟩
  · unfold HMat.val
    rw [List.getElem?_map, h2]
    rfl
  · have hmem : (⟨m.loc, r⟩ : View) ∈ m.views := List.mem_map_of_mem (List.mem_of_getElem? h2)
    have hvr := hv _ hmem
    have hnr : r.Nodup := (List.nodup_flatten.mp hn).1 r (List.mem_of_getElem? h2)
    obtain ⟨h', e1, e2, e3⟩ := write_buffer (o := ⟨m.loc, r⟩) (n := r.length) ⟨hvr, hnr, hwr, rfl⟩ hx
    refine ⟨h', e1, ?_⟩
    refine List.ext_getElem? fun k => ?_
    unfold HMat.val
    dsimp only
    rw [List.getElem?_map, List.getElem?_set, List.getElem?_map, List.length_map]
    by_cases hkj : j = k
    · subst hkj
      rw [if_pos rfl, if_pos hj.1, h2]
      show some (h'.read ⟨m.loc, r⟩) = _
      rw [e3]
    · rw [if_neg hkj]
      cases hk : m.rows[k]? with
      | none => rfl
      | some r' =>
        show some (h'.read ⟨m.loc, r'⟩) = some (h.read ⟨m.loc, r'⟩)
        rw [e2.read (hv _ (List.mem_map_of_mem (List.mem_of_getElem? hk)))]
        rintro i hi ⟨_, hir⟩
        have hd := (List.nodup_flatten.mp hn).2
        have hjl := (List.getElem?_eq_some_iff.mp h2)
        have hkl := (List.getElem?_eq_some_iff.mp hk)
        rw [List.pairwise_iff_getElem] at hd
        rcases Nat.lt_or_gt_of_ne hkj with hlt | hlt
        · have := hd j k hjl.1 hkl.1 hlt
          rw [hjl.2, hkl.2] at this
          exact this hir hi
        · have := hd k j hkl.1 hjl.1 hlt
          rw [hjl.2, hkl.2] at this
          exact this hi hir

/-- An array of integers or booleans: a new array of the shape of the key and one dimension more with the selected rows.
No existing array changes, and the storage does not change if the result is written to. -/
theorem C78_array (hv : Valids h m.views) (hw : (m.val h).WF) (key : Key) (h1 : ∀ i, key ≠ .int i)
    (h2 : ∀ s, key ≠ .slice s) (s is : List Nat) (hk : KeySel m.rows.length key s is) :
    ∃ a h', m.getItem (some key) h = (.ok (.array a), h') ∧ a.shape = s ++ [m.cols] ∧
      DenseRows (m.val h) is (h'.read a.view) ∧ Buffer h' a.view (is.length * m.cols) ∧ Heap.Le Never h h' ∧
      ∀ xs, m.val (HM.write a.view xs h').2 = m.val h := by
  obtain ⟨rs, e1, e2⟩ := getItem_copy h1 h2 hk
  have hd : DenseRows (m.val h) is (rs.map fun r => h.read ⟨m.loc, r⟩).flatten := denseRows_of hw (forall₂_read e1)
  have ho := alloc_owned (h := h) (Nat.le_refl _) (rs.map fun r => h.read ⟨m.loc, r⟩).flatten
  refine ⟨_, _, e2, rfl, by rw [ho.read]; exact hd, ⟨ho.valid, ho.nodup, ho.writable, ?_⟩, le_append _ _ _, fun xs => ?_⟩
  · rw [List.length_range]; exact hd.1
  · have hle := le_append (K := K) (New h.length) h ⟨(rs.map fun r => h.read ⟨m.loc, r⟩).flatten, true⟩
    refine HMat.val_le hv.new (hle.trans (write_le (r := (HM.write _ xs _).1) rfl ?_))
    intro i _
    exact Nat.le_refl _

/-- A slice: a storage of the selected rows in the same memory. -/
theorem C78_slice (hv : Valids h m.views) (sl : PySlice) (s is : List Nat) (hk : KeySel m.rows.length (.slice sl) s is) :
    ∃ m' : HMat, m.getItem (some (.slice sl)) h = (.ok (.storage (.nd m')), h) ∧ m'.cols = m.cols ∧
      m'.loc = m.loc ∧ Valids h m'.views ∧
      ∀ h' : Heap K, List.Forall₂ (fun i r => (m.val h').rows[i]? = some r) is (m'.val h').rows := by
  obtain ⟨rs, e1, e2⟩ := getItem_slice (h := h) hk
  refine ⟨_, e2, rfl, rfl, fun v hv' => ?_, fun h' => forall₂_read e1⟩
  obtain ⟨r, hr, rfl⟩ := List.mem_map.mp hv'
  obtain ⟨t, ht, rfl⟩ := List.getElem_of_mem hr
  have := (List.forall₂_iff_get.mp e1).2 t (by rw [e1.length_eq]; exact ht) ht
  exact hv _ (List.mem_map_of_mem (List.mem_of_getElem? this))

/-- A key that selects nothing raises, `ValueError` for a slice and `IndexError` otherwise. -/
theorem C78_error (key : Key) (hk : ∀ s is, ¬ KeySel m.rows.length key s is) :
    m.getItem (some key) h = (.error (match key with | .slice _ => .valueError | _ => .indexError), h) := by
  rw [getItem_error hk]
  cases key <;> rfl

/-- `None`: the whole matrix with a dimension of length one before the others, in the same memory. -/
theorem C78_none (hw : (m.val h).WF) :
    ∃ v, m.getItem none h = (.ok (.array ⟨[1, m.rows.length, m.cols], v⟩), h) ∧ v.loc = m.loc ∧
      DenseRows (m.val h) (List.range m.rows.length) (h.read v) := by
  refine ⟨_, rfl, rfl, ?_⟩
  rw [read_flatten]
  have hl : (m.val h).rows.length = m.rows.length := List.length_map _
  refine denseRows_of hw (forall₂_range (by rw [List.length_range, List.length_map]) fun i x y hx hy => ?_)
  rw [(range_get hx).1]
  exact hy

end

/-! ### Both storages agree -/

section
variable {K : Type} [NumOps K] {h : Heap K} {m : HMat} {q : HQArr}

/-- `numpy.asarray` of a `QuantizedArray` is a matrix of its shape, in new memory. -/
theorem C78_asarray (hv : Valids h q.views) (hw : QWF (q.val h)) (hc : RowsCoded (q.val h) (List.range q.codes.length)) :
    ∃ m h', HStorage.toArray (.quant q) h = (.ok m, h') ∧ Heap.Le Never h h' ∧ Valids h' m.views ∧ h.length ≤ m.loc ∧
      m.cols = q.pq.reconstructedLen ∧ m.rows.length = q.codes.length ∧
      ((q.val h').toArray = .ok (m.val h').rows) := by
  have ht : ∃ rows, (q.val h).toArray = .ok rows := by
    refine (C36_array (.quant (q.val h)) hw).2 fun i hi => ?_
    exact (getOne_coded hw (List.getElem?_eq_getElem hi)).mpr (hc i (List.mem_range.mpr hi) _ (List.getElem?_eq_getElem hi))
  obtain ⟨rows, ht⟩ := ht
  obtain ⟨x, h', e1, e2, e3⟩ := toArray_owned (frame_new h) hv.new hw
  rw [ht] at e3
  cases x with
  | error e => exact e3.elim
  | ok m =>
    obtain ⟨c1, ho⟩ : m.cols = q.pq.reconstructedLen ∧ OwnedMat h.length h' m rows := e3
    refine ⟨m, h', e1, e2.never, ho.safe, ho.base, c1, ?_, ?_⟩
    · rw [ho.len]; exact (toArray_getOne (s := .quant (q.val h)) hw ht).1
    · rw [HQArr.val_le hv.new e2, ho.val]; exact ht

/-- A matrix with the numbers of a `QuantizedArray`: every key except `None` gives the same result for both storages,
arrays of the same shape with the same elements, storages for the same matrix, or the same exception. -/
theorem C78_agree (hm : Valids h m.views) (hv : Valids h q.views) (hw : QWF (q.val h))
    (hc : m.cols = q.pq.reconstructedLen) (ha : (q.val h).toArray = .ok (m.val h).rows) (key : Key) :
    match m.getItem (some key) h, q.getItem (some key) h with
    | (.ok a, h1), (.ok b, h2) => SameItem h1 h2 a b
    | (.error a, _), (.error b, _) => a = b
    | _, _ => False := by
  have hlen : m.rows.length = q.codes.length := by
    have := (toArray_getOne (s := .quant (q.val h)) hw ha).1
    have h2 : (m.val h).rows.length = m.rows.length := List.length_map _
    rw [← h2]; exact this
  have hmw : (m.val h).WF := by
    intro r hr
    have := toArray_lengths (s := .quant (q.val h)) hw ha r hr
    rw [this]
    have h1 := nCols_val (h := h) (.quant q)
    exact h1.trans hc.symm
  have hcq : (q.val h).pq.reconstructedLen = q.pq.reconstructedLen := nCols_val (h := h) (.quant q)
  have hcm : (m.val h).cols = (q.val h).pq.reconstructedLen := hc.trans hcq.symm
  have hg := C71_getitem (h := h) (q := q)
  by_cases hk : ∃ s is, KeySel m.rows.length key s is
  · obtain ⟨s, is, hk⟩ := hk
    have hkq : KeySel q.codes.length key s is := hlen ▸ hk
    cases key with
    | slice sl =>
      obtain ⟨m', d1, d2, _, _, d3⟩ := C78_slice hm sl s is hk
      rw [d1, hg.2.1 sl]
      have h0 : sl.step ≠ some 0 := hk.2.1
      obtain ⟨x, h', e1, e2, e3⟩ := slice_refines (s := .quant q) hv.never sl
      obtain ⟨s', is', f1, f2, f3, f4, f5, f6⟩ := slice_ok (s := .quant (q.val h)) hw h0
      rw [show ((HStorage.quant q).val h).slice sl = _ from f1] at e3
      cases x with
      | error e => exact e3.elim
      | ok t =>
        obtain ⟨rfl, g1, _⟩ : h' = h ∧ t.val h = s' ∧ _ := e3
        rw [e1]
        dsimp only
        have his : is' = is := sliceSel_unique (slicePos_sel f2) (by
          have := hkq.2.2; exact this)
        subst his
        have hmr := (d3 h').length_eq
        have hml : m'.rows.length = is'.length := by
          have : (m'.val h').rows.length = m'.rows.length := List.length_map _
          omega
        have hta : (t.val h').toArray = .ok (m'.val h').rows := by
          rw [g1, toArray_ok f3, mapRes_ok, f4]
          refine forall₂_range (by rw [List.length_map, List.length_range, hmr]) fun k x r hx hr => ?_
          rw [List.getElem?_map] at hx
          obtain ⟨y, hy, rfl⟩ := Option.map_eq_some_iff.mp hx
          obtain ⟨rfl, hki⟩ := range_get hy
          rw [f6 y _ (List.getElem?_eq_getElem hki)]
          have hr' := List.getElem?_eq_some_iff.mp hr
          have := (List.forall₂_iff_get.mp (d3 h')).2 y hki hr'.1
          rw [List.get_eq_getElem, List.get_eq_getElem, hr'.2] at this
          exact ((toArray_getOne (s := .quant (q.val h')) hw ha).2 _ _).mp this
        refine ⟨?_, ?_, _, rfl, hta⟩
        · show m'.rows.length = t.nRows
          rw [hml, ← nRows_val (h := h'), g1, f4]
        · show m'.cols = t.nCols
          rw [d2, ← nCols_val (h := h'), g1, f5, hc]
          exact (nCols_val (h := h') (.quant q)).symm
    | int i =>
      rw [hg.2.2 _ (fun sl => by simp)]
      obtain ⟨b, h2, e1, e2, e3, _⟩ := C71_fresh hv hw _ s is hkq (rowsCoded_array hw ha is)
      obtain ⟨rfl, j, r, rfl, d2, d1⟩ := getItem_int (h := h) hk
      rw [e1, d1]
      have hd : DenseRows (m.val h) [j] (h.read ⟨m.loc, r⟩) := by
        have := denseRows_of hmw (forall₂_read (h := h) (m := m) (is := [j]) (rs := [r]) (.cons d2 .nil))
        simpa using this
      exact ⟨by rw [e2, hc]; rfl, C71_unique _ _ _ _ (areRows_dense hw ha hcm hd) e3⟩
    | arr c d =>
      rw [hg.2.2 _ (fun sl => by simp)]
      obtain ⟨b, h2, e1, e2, e3, _⟩ := C71_fresh hv hw _ s is hkq (rowsCoded_array hw ha is)
      obtain ⟨a, h1, d1, d2, d3, _⟩ := C78_array hm hmw _ (by simp) (by simp) s is hk
      rw [e1, d1]
      exact ⟨by rw [d2, e2, hc], C71_unique _ _ _ _ (areRows_dense hw ha hcm d3) e3⟩
    | mask c =>
      rw [hg.2.2 _ (fun sl => by simp)]
      obtain ⟨b, h2, e1, e2, e3, _⟩ := C71_fresh hv hw _ s is hkq (rowsCoded_array hw ha is)
      obtain ⟨a, h1, d1, d2, d3, _⟩ := C78_array hm hmw _ (by simp) (by simp) s is hk
      rw [e1, d1]
      exact ⟨by rw [d2, e2, hc], C71_unique _ _ _ _ (areRows_dense hw ha hcm d3) e3⟩
  · have hk1 : ∀ s is, ¬ KeySel m.rows.length key s is := fun s is h => hk ⟨s, is, h⟩
    have hk2 : ∀ s is, ¬ KeySel q.codes.length key s is := hlen ▸ hk1
    rw [getItem_error hk1]
    cases key with
    | slice sl =>
      rw [hg.2.1 sl]
      have h0 : sl.step = some 0 := by
        by_contra h0
        obtain ⟨ys, hy⟩ := (C37_sequence m.rows sl).2.1 h0
        have := getItem_error (h := h) hk1
        unfold HMat.getItem at this
        dsimp only at this
        rw [hy] at this
        cases this
      have : HStorage.slice (.quant q) sl h = (.error .valueError, h) := by
        unfold HStorage.slice
        dsimp only
        rw [npSlice_zero h0]
        exact hm_bind_error rfl
      rw [this]
      rfl
    | int i => rw [hg.2.2 _ (fun sl => by simp), C71_key _ hk2]; rfl
    | arr a b => rw [hg.2.2 _ (fun sl => by simp), C71_key _ hk2]; rfl
    | mask b => rw [hg.2.2 _ (fun sl => by simp), C71_key _ hk2]; rfl

/-- `None` is a key of matrices only. -/
theorem C78_none_differs (hw : QWF (q.val h)) (ha : (q.val h).toArray = .ok (m.val h).rows)
    (hc : m.cols = q.pq.reconstructedLen) :
    (∃ a, m.getItem none h = (.ok (.array a), h) ∧ a.shape = [1, q.codes.length, q.pq.reconstructedLen]) ∧
    q.getItem none h = (.error .typeError, h) := by
  refine ⟨⟨_, rfl, ?_⟩, rfl⟩
  have := (toArray_getOne (s := .quant (q.val h)) hw ha).1
  have h2 : (m.val h).rows.length = m.rows.length := List.length_map _
  rw [hc, ← h2, this]
  rfl

end

/-! ### Norms -/

section
variable {K : Type} {h : Heap K} {v : View}

/-- An integer: a number -/
theorem C78_norms_int (hv : v.Valid h) (i : Int) (j : Nat) (hj : At v.idxs.length i j) :
    ∃ x, normsGetItem v (some (.int i)) h = (.ok (.number x), h) ∧ (h.read v)[j]? = some x := by
  have hl := read_length hv
  obtain ⟨_, j', x, h1, h2, h3⟩ := npGet_int_sel (xs := h.read v) (i := i) (s := []) (is := [j])
    ⟨rfl, j, rfl, by rw [hl]; exact hj⟩
  cases h1
  refine ⟨x, ?_, h2⟩
  unfold normsGetItem
  dsimp only
  rw [hm_read_bind, h3, hm_lift_ok]
  rfl

/-- An array of integers or booleans: new `Norms` of its shape with the selected numbers -/
theorem C78_norms_array (hv : v.Valid h) (key : Key) (h1 : ∀ i, key ≠ .int i) (h2 : ∀ s, key ≠ .slice s)
    (s is : List Nat) (hk : KeySel v.idxs.length key s is) :
    ∃ w h', normsGetItem v (some key) h = (.ok (.norms ⟨s, w⟩), h') ∧ h.length ≤ w.loc ∧ Heap.Le Never h h' ∧
      List.Forall₂ (fun i x => (h.read v)[i]? = some x) is (h'.read w) := by
  rw [← read_length hv] at hk
  obtain ⟨xs, e1, e2⟩ := key_take_total hk
  refine ⟨_, _, ?_, Nat.le_refl _, le_append _ _ ⟨xs, true⟩, by rw [alloc_read h xs true]; exact e2⟩
  unfold normsGetItem
  cases key with
  | int i => exact absurd rfl (h1 i)
  | slice s => exact absurd rfl (h2 s)
  | arr a b => dsimp only; rw [hm_read_bind, e1, hm_lift_ok]; rfl
  | mask a => dsimp only; rw [hm_read_bind, e1, hm_lift_ok]; rfl

/-- A slice: one-dimensional `Norms` in the same memory -/
theorem C78_norms_slice [NumOps K] (hv : v.Valid h) (sl : PySlice) (s is : List Nat) (hk : KeySel v.idxs.length (.slice sl) s is) :
    ∃ w, normsGetItem v (some (.slice sl)) h = (.ok (.norms ⟨[is.length], w⟩), h) ∧ w.loc = v.loc ∧
      List.Forall₂ (fun i x => (h.read v)[i]? = some x) is (h.read w) := by
  obtain ⟨ys, e1, e2⟩ := npSlice_sel hk
  refine ⟨⟨v.loc, ys⟩, ?_, rfl, ?_⟩
  · unfold normsGetItem
    dsimp only
    rw [e1, hm_lift_ok, e2.length_eq]
    rfl
  · obtain ⟨f, hf⟩ := read_map hv
    have h1 : h.read v = v.idxs.map f := hf v.idxs fun _ h => h
    rw [h1, hf ys (npSlice_mem e1)]
    exact forall₂_get_map f e2

/-- A key that selects nothing raises, `ValueError` for a slice and `IndexError` otherwise. -/
theorem C78_norms_error (hv : v.Valid h) (key : Key) (hk : ∀ s is, ¬ KeySel v.idxs.length key s is) :
    normsGetItem v (some key) h = (.error (match key with | .slice _ => .valueError | _ => .indexError), h) := by
  have hl := read_length hv
  cases key with
  | slice sl =>
    have h0 := key_take_none hk
    unfold normsGetItem
    dsimp only
    unfold Key.take at h0
    dsimp only at h0
    cases hg : npSlice v.idxs sl with
    | ok x => rw [hg] at h0; cases h0
    | error e => rw [hg] at h0; cases h0; exact hm_bind_error rfl
  | int i =>
    have h0 := key_take_none (xs := h.read v) (by rw [hl]; exact hk)
    unfold normsGetItem
    dsimp only
    unfold Key.take at h0
    dsimp only at h0
    rw [hm_read_bind]
    cases hg : npGet (h.read v) i with
    | ok x => rw [hg] at h0; cases h0
    | error e => rw [hg] at h0; cases h0; exact hm_bind_error rfl
  | arr a b =>
    have h0 := key_take_none (xs := h.read v) (by rw [hl]; exact hk)
    unfold normsGetItem
    dsimp only
    rw [hm_read_bind, h0]
    exact hm_bind_error rfl
  | mask a =>
    have h0 := key_take_none (xs := h.read v) (by rw [hl]; exact hk)
    unfold normsGetItem
    dsimp only
    rw [hm_read_bind, h0]
    exact hm_bind_error rfl

end

/-! ### The hypotheses can be met -/

example : ndArrayNew ⟨.float32, 2, []⟩ = .ok ⟨.float32, 2, []⟩ ∧ ndArrayNew ⟨.float64, 2, []⟩ = .error .typeError ∧
    ndArrayNew ⟨.float32, 1, []⟩ = .error .typeError := by decide

/-- The memory of `Sample.hq` and a matrix with the same numbers -/
def Sample.heapQM : Heap Rat := Sample.heapQ' ++ [⟨[28, 22, 39, 36], true⟩]

def Sample.hmQ : HMat := ⟨6, 2, [[0, 1], [2, 3]]⟩

example : Valids Sample.heapQM Sample.hmQ.views ∧ Valids Sample.heapQM Sample.hq.views ∧
    QWF (Sample.hq.val Sample.heapQM) ∧ Sample.hmQ.cols = Sample.hq.pq.reconstructedLen ∧
    (Sample.hq.val Sample.heapQM).toArray = .ok (Sample.hmQ.val Sample.heapQM).rows ∧
    RowsCoded (Sample.hq.val Sample.heapQM) (List.range Sample.hq.codes.length) := by
  have hle : Heap.Le Never Sample.heapQ' Sample.heapQM := le_append _ _ _
  have hv := Sample.hq_ok.1
  have hq : Sample.hq.val Sample.heapQM = Sample.hq.val Sample.heapQ' := HQArr.val_le hv.never hle
  refine ⟨?_, hv.le hle, by rw [hq]; exact Sample.hq_ok.2.1, rfl, by decide +kernel, ?_⟩
  · intro v hv
    have hv : v ∈ [⟨6, [0, 1]⟩, (⟨6, [2, 3]⟩ : View)] := hv
    simp only [List.mem_cons, List.not_mem_nil, or_false] at hv
    rcases hv with rfl | rfl <;> exact Sample.valid_of (by decide)
  · rw [hq]
    exact Sample.hq_ok.2.2 _ fun i hi => List.mem_range.mp hi

/-- A row is part of the storage, rows selected by an array are copies. -/
example : (∃ v h', Sample.hmQ.getItem (some (.int (-1))) Sample.heapQM = (.ok (.array ⟨[2], v⟩), Sample.heapQM) ∧
      HM.write v [5, 6] Sample.heapQM = (.ok (), h') ∧ (Sample.hmQ.val h').rows = [[28, 22], [5, 6]]) ∧
    At Sample.hmQ.rows.length (-1) 1 ∧ Sample.hmQ.rows.flatten.Nodup ∧
    (Sample.hmQ.getItem (some (.arr [2, 1] [1, -2])) Sample.heapQM).2[7]? = some ⟨[39, 36, 28, 22], true⟩ ∧
    (Sample.hmQ.val Sample.heapQM).WF := by
  refine ⟨⟨⟨6, [2, 3]⟩, _, rfl, rfl, by decide +kernel⟩, ⟨by decide, by decide⟩, by decide, by decide +kernel, ?_⟩
  unfold Mat.WF
  decide +kernel

example : (Sample.hmQ.getItem (some (.int 2)) Sample.heapQM).1.toOption.isNone = true ∧
    (Sample.hmQ.getItem (some (.mask [true])) Sample.heapQM).1.toOption.isNone = true ∧
    (∀ s is, ¬ KeySel 2 (.int 2) s is) ∧ KeySel 2 (.mask [false, true]) [1] [1] := by
  refine ⟨by decide +kernel, by decide +kernel, ?_, rfl, rfl, by simp, fun j => ?_⟩
  · rintro s is ⟨_, j, _, h1, h2⟩
    omega
  · rcases j with _ | _ | j <;> simp

/-- Norms -/
example : View.Valid Sample.heapQM ⟨2, [0, 1]⟩ ∧
    (∃ x, normsGetItem ⟨2, [0, 1]⟩ (some (.int (-1))) Sample.heapQM = (.ok (.number x), Sample.heapQM) ∧ x = 3) ∧
    (normsGetItem ⟨2, [0, 1]⟩ (some (.arr [3] [1, 0, 1])) Sample.heapQM).2[7]? = some ⟨[3, 2, 3], true⟩ ∧
    (∃ w, normsGetItem ⟨2, [0, 1]⟩ (some (.slice ⟨none, none, some (-1)⟩)) Sample.heapQM =
      (.ok (.norms ⟨[2], w⟩), Sample.heapQM) ∧ w = ⟨2, [1, 0]⟩) := by
  refine ⟨Sample.valid_of (by decide), ⟨3, rfl, rfl⟩, by decide +kernel, ⟨2, [1, 0]⟩, rfl, rfl⟩

end FF
