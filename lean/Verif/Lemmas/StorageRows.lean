import Verif.Lemmas.Quant
/-! Rows, slices and conversions of storages. -/

namespace FF

section
variable {K : Type} [NumOps K]

theorem qGetMany_err {q : QArr K} {js : List Int} {e : PyErr} (h : q.getMany js = .error e) :
    e = .indexError := by
  unfold QArr.getMany npTake at h
  cases h1 : mapRes (npGet q.codes) js with
  | error e' =>
    rw [h1] at h; cases h
    obtain ⟨x, _, hx⟩ := mapRes_err h1
    exact (npGet_err hx).1
  | ok cs =>
    rw [h1] at h
    change (mapRes q.pq.reconstruct cs >>= _) = _ at h
    cases h2 : mapRes q.pq.reconstruct cs with
    | error e' =>
      rw [h2] at h; cases h
      obtain ⟨x, _, hx⟩ := mapRes_err h2
      exact reconstruct_err hx
    | ok w =>
      rw [h2] at h
      cases hn : q.norms with
      | none => rw [hn] at h; cases h
      | some ns =>
        rw [hn] at h
        change (mapRes (npGet ns) js >>= _) = _ at h
        cases h3 : mapRes (npGet ns) js with
        | error e' =>
          rw [h3] at h; cases h
          obtain ⟨x, _, hx⟩ := mapRes_err h3
          exact (npGet_err hx).1
        | ok n => rw [h3] at h; cases h

theorem qGetMany_eq (q : QArr K) (js : List Int) : q.getMany js = mapRes q.getOne js := by
  refine bothErr (fun e h => qGetMany_err h) (fun e h => ?_) fun vs => qGetMany_ok
  obtain ⟨x, _, hx⟩ := mapRes_err h
  exact qGetOne_err hx

/-- Several rows are single rows. -/
theorem getMany_eq (s : Storage K) (js : List Int) : s.getMany js = mapRes s.getOne js := by
  cases s with
  | nd m => rfl
  | quant q => exact qGetMany_eq q js

theorem getOne_err {s : Storage K} {i : Int} {e : PyErr} (h : s.getOne i = .error e) :
    e = .indexError := by
  cases s with
  | nd m => exact (npGet_err h).1
  | quant q => exact qGetOne_err h

/-- Rows outside the range do not exist. -/
theorem getOne_range {s : Storage K} {i : Int} {v : List K} (h : s.getOne i = .ok v) :
    -(s.nRows : Int) ≤ i ∧ i < s.nRows := by
  have key : ∀ {α : Type} (xs : List α) x, npGet xs i = .ok x →
      -(xs.length : Int) ≤ i ∧ i < xs.length := by
    intro α xs x hx
    obtain ⟨j, hj, _⟩ := npGet_ok.mp hx
    have := npIndex_ok.mp hj
    omega
  cases s with
  | nd m => exact key _ _ h
  | quant q =>
    obtain ⟨c, w, h1, _⟩ := qGetOne_iff.mp h
    exact key _ _ h1

/-- Negative indices count from the end. -/
theorem getOne_neg {s : Storage K} (hs : StorageWF s) {i : Int} {j : Nat}
    (hj : npIndex s.nRows i = .ok j) : s.getOne i = s.getOne j := by
  have hlt := (npIndex_ok.mp hj).1
  have key : ∀ {α : Type} (xs : List α), xs.length = s.nRows → npGet xs i = npGet xs (j : Int) := by
    intro α xs hl
    have := List.getElem?_eq_getElem (l := xs) (i := j) (by omega)
    rw [npGet_of (j := j) (by rw [hl]; exact hj) this, npGet_nat.mpr this]
  cases s with
  | nd m => exact key _ rfl
  | quant q =>
    show q.getOne i = q.getOne j
    unfold QArr.getOne
    rw [key q.codes rfl]
    cases hn : q.norms with
    | none => rfl
    | some ns => simp only [key ns (QWF.norms hs ns hn)]

/-- Positions of a slice. -/
theorem slicePos_step {n : Nat} {s : PySlice} {is : List Nat} (h : slicePos n s = .ok is) :
    s.step ≠ some 0 := by
  intro h0
  have := slicePos_err (n := n) (s := s) (e := .valueError)
  rw [h] at this
  simp only [reduceCtorEq, true_and, h0] at this
  exact this.mpr trivial

theorem npSlice_err {α : Type} {xs : List α} {s : PySlice} {e : PyErr}
    (h : npSlice xs s = .error e) : e = .valueError ∧ s.step = some 0 := by
  by_cases h0 : s.step = some 0
  · refine ⟨?_, h0⟩
    rw [npSlice_eq, slicePos_err.mpr ⟨rfl, h0⟩] at h
    cases h; rfl
  · obtain ⟨ys, hy⟩ := npSlice_total (xs := xs) h0
    rw [hy] at h; cases h

theorem npSlice_zero {α : Type} {xs : List α} {s : PySlice} (h : s.step = some 0) :
    npSlice xs s = .error .valueError := by
  rw [npSlice_eq, slicePos_err.mpr ⟨rfl, h⟩]; rfl

/-- There are not more positions than items. -/
theorem slicePos_length {n : Nat} {s : PySlice} {is : List Nat} (h : slicePos n s = .ok is) : is.length ≤ n := by
  have hlt := slicePos_lt h
  have hnd : is.Nodup := by
    rcases slicePos_sel h with ⟨_, hp, _⟩ | ⟨_, hp, _⟩
    · exact hp.imp fun hab => ne_of_lt hab
    · exact hp.imp fun hab => ne_of_gt hab
  have := (List.subperm_of_subset hnd fun i hi => List.mem_range.mpr (hlt i hi)).length_le
  rwa [List.length_range] at this

theorem ShapeOk.mono {r r' c : Nat} (h : ShapeOk r c) (hr : r' ≤ r) : ShapeOk r' c := by
  have : max 1 r' * max 1 c ≤ max 1 r * max 1 c := Nat.mul_le_mul_right _ (by omega)
  unfold ShapeOk at *
  omega

/-- Slicing a storage selects rows. -/
theorem slice_ok {s : Storage K} (hs : StorageWF s) {sl : PySlice} (h0 : sl.step ≠ some 0) :
    ∃ s' is, s.slice sl = .ok s' ∧ slicePos s.nRows sl = .ok is ∧ StorageWF s' ∧
      s'.nRows = is.length ∧ s'.nCols = s.nCols ∧
      ∀ (j i : Nat), is[j]? = some i → s'.getOne j = s.getOne i := by
  cases s with
  | nd m =>
    obtain ⟨ys, hy⟩ := npSlice_total (xs := m.rows) h0
    obtain ⟨is, h1, h2⟩ := npSlice_ok.mp hy
    refine ⟨.nd ⟨m.cols, ys⟩, is, ?_, h1, ?_, h2.length_eq.symm, rfl, ?_⟩
    · show (npSlice m.rows sl >>= _) = _
      rw [hy]; rfl
    · refine ⟨?_, hs.2.mono (by rw [← h2.length_eq]; exact slicePos_length h1)⟩
      intro r hr
      obtain ⟨j, hj, rfl⟩ := List.getElem_of_mem hr
      have := (List.forall₂_iff_get.mp h2).2 j (by rw [h2.length_eq]; exact hj) hj
      exact hs.1 _ (List.mem_of_getElem? this)
    · intro j i hj
      obtain ⟨hjl, hje⟩ := List.getElem?_eq_some_iff.mp hj
      have hjy : j < ys.length := by rw [← h2.length_eq]; exact hjl
      have := (List.forall₂_iff_get.mp h2).2 j hjl hjy
      rw [List.get_eq_getElem, hje] at this
      show npGet ys j = npGet m.rows i
      rw [npGet_nat.mpr this, npGet_nat.mpr (List.getElem?_eq_getElem hjy)]; rfl
  | quant q =>
    have hq : QWF q := hs
    obtain ⟨cs, hc⟩ := npSlice_total (xs := q.codes) h0
    obtain ⟨is, h1, h2⟩ := npSlice_ok.mp hc
    have sel : ∀ {α : Type} {xs ys : List α} {j i : Nat},
        List.Forall₂ (fun i y => xs[i]? = some y) is ys → is[j]? = some i →
        npGet ys (j : Int) = npGet xs (i : Int) := by
      intro α xs ys j i hf hj
      obtain ⟨hjl, hje⟩ := List.getElem?_eq_some_iff.mp hj
      have hjy : j < ys.length := by rw [← hf.length_eq]; exact hjl
      have := (List.forall₂_iff_get.mp hf).2 j hjl hjy
      rw [List.get_eq_getElem, hje] at this
      rw [npGet_nat.mpr this, npGet_nat.mpr (List.getElem?_eq_getElem hjy)]; rfl
    have hcs : ∀ c ∈ cs, c ∈ q.codes := by
      intro c hcm
      obtain ⟨j, hj, rfl⟩ := List.getElem_of_mem hcm
      have := (List.forall₂_iff_get.mp h2).2 j (by rw [h2.length_eq]; exact hj) hj
      exact List.mem_of_getElem? this
    have hcf : max 1 cs.length * q.qlen < 2 ^ 63 := by
      have h3 := slicePos_length h1
      rw [h2.length_eq] at h3
      have h4 := hq.codesFit
      have : max 1 cs.length * q.qlen ≤ max 1 q.codes.length * q.qlen := Nat.mul_le_mul_right _ (by omega)
      omega
    cases hn : q.norms with
    | none =>
      refine ⟨.quant ⟨q.pq, q.qlen, cs, none⟩, is, ?_, h1, ?_, h2.length_eq.symm, rfl, ?_⟩
      · show (q.slice sl >>= _) = _
        unfold QArr.slice
        rw [hc, hn]; rfl
      · exact ⟨hq.qpos, hq.qlen, hq.cents, hq.subs, hq.proj, by simp,
          fun c hcm => hq.codes c (hcs c hcm), hq.fits, hcf⟩
      · intro j i hj
        show QArr.getOne _ _ = QArr.getOne _ _
        unfold QArr.getOne
        rw [sel h2 hj, hn]
    | some ns =>
      have hnl := hq.norms ns hn
      obtain ⟨nv, hnv⟩ := npSlice_total (xs := ns) h0
      obtain ⟨is', h1', h2'⟩ := npSlice_ok.mp hnv
      rw [hnl, h1] at h1'
      cases h1'
      refine ⟨.quant ⟨q.pq, q.qlen, cs, some nv⟩, is, ?_, h1, ?_, h2.length_eq.symm, rfl, ?_⟩
      · show (q.slice sl >>= _) = _
        unfold QArr.slice
        rw [hc, hn]
        show (npSlice ns sl >>= _) >>= _ = _
        rw [hnv]; rfl
      · refine ⟨hq.qpos, hq.qlen, hq.cents, hq.subs, hq.proj, ?_,
          fun c hcm => hq.codes c (hcs c hcm), hq.fits, hcf⟩
        intro n hn'
        cases hn'
        rw [← h2.length_eq, ← h2'.length_eq]
      · intro j i hj
        show QArr.getOne _ _ = QArr.getOne _ _
        unfold QArr.getOne
        rw [sel h2 hj, hn]
        simp only [sel h2' hj]

omit [NumOps K] in
theorem slice_zero {s : Storage K} {sl : PySlice} (h0 : sl.step = some 0) :
    s.slice sl = .error .valueError := by
  cases s with
  | nd m =>
    show (npSlice m.rows sl >>= _) = _
    rw [npSlice_zero h0]; rfl
  | quant q =>
    show (q.slice sl >>= _) = _
    unfold QArr.slice
    rw [npSlice_zero h0]; rfl

theorem forall₂_range {α β : Type} {R : α → β → Prop} {xs : List α} {ys : List β}
    (hl : xs.length = ys.length) (h : ∀ (i : Nat) x y, xs[i]? = some x → ys[i]? = some y → R x y) :
    List.Forall₂ R xs ys := by
  rw [List.forall₂_iff_get]
  refine ⟨hl, fun i h1 h2 => ?_⟩
  exact h i _ _ (List.getElem?_eq_getElem h1) (List.getElem?_eq_getElem h2)

theorem mapRes_npGet_range {α : Type} (xs : List α) :
    npTake xs ((List.range xs.length).map fun i : Nat => (i : Int)) = .ok xs := by
  unfold npTake
  rw [mapRes_ok]
  refine forall₂_range (by simp) ?_
  intro i x y hx hy
  rw [List.getElem?_map, List.getElem?_range (List.getElem?_eq_some_iff.mp hy).1] at hx
  cases hx
  exact npGet_nat.mpr hy

/-- Conversion to an array collects the rows. -/
theorem toArray_ok {s : Storage K} (hs : StorageWF s) {rows : List (List K)} :
    s.toArray = .ok rows ↔
      mapRes s.getOne ((List.range s.nRows).map fun i : Nat => (i : Int)) = .ok rows := by
  cases s with
  | nd m =>
    show Except.ok m.rows = .ok rows ↔ npTake m.rows _ = .ok rows
    rw [show (Storage.nd m).nRows = m.rows.length from rfl, mapRes_npGet_range]
  | quant q =>
    show q.toArray = _ ↔ mapRes q.getOne _ = _
    rw [← qGetMany_ok]
    unfold QArr.toArray QArr.getMany
    rw [show (Storage.quant q).nRows = q.codes.length from rfl, mapRes_npGet_range]
    cases hn : q.norms with
    | none =>
      show _ ↔ (mapRes q.pq.reconstruct q.codes >>= _) = _
      cases mapRes q.pq.reconstruct q.codes <;> rfl
    | some ns =>
      have hnl := QWF.norms hs ns hn
      show (mapRes q.pq.reconstruct q.codes >>= _) = _ ↔
        (mapRes q.pq.reconstruct q.codes >>= _) = _
      cases ho : mapRes q.pq.reconstruct q.codes with
      | error e => exact Iff.rfl
      | ok out =>
        have := mapRes_length ho
        rw [← hnl]
        show (if ns.length ≠ out.length then _ else _) = _ ↔ (npTake ns _ >>= _) = _
        rw [mapRes_npGet_range, if_neg (by omega)]
        rfl

theorem toArray_err {s : Storage K} (hs : StorageWF s) {e : PyErr} (h : s.toArray = .error e) :
    e = .indexError := by
  cases s with
  | nd m => cases h
  | quant q =>
    change q.toArray = _ at h
    unfold QArr.toArray at h
    cases ho : mapRes q.pq.reconstruct q.codes with
    | error e' =>
      obtain ⟨x, _, hx⟩ := mapRes_err ho
      have := reconstruct_err hx
      rw [ho] at h
      cases hn : q.norms <;> rw [hn] at h <;> cases h <;> exact this
    | ok out =>
      have hl := mapRes_length ho
      rw [ho] at h
      cases hn : q.norms with
      | none => rw [hn] at h; cases h
      | some ns =>
        have hnl := QWF.norms hs ns hn
        rw [hn] at h
        change (if ns.length ≠ out.length then _ else _) = _ at h
        rw [if_neg (by omega)] at h
        cases h

/-- Every code selects a centroid. -/
def CodesOk (s : Storage K) : Prop :=
  match s with
  | .nd _ => True
  | .quant q => ∀ c ∈ q.codes, ∀ x ∈ c, x.toNat < q.pq.nCentroids

theorem reconstruct_total {q : QArr K} (hq : QWF q) {c : List UInt8} (hc : c ∈ q.codes)
    (h : ∀ x ∈ c, x.toNat < q.pq.nCentroids) : ∃ w, q.pq.reconstruct c = .ok w := by
  cases hr : q.pq.reconstruct c with
  | ok w => exact ⟨w, rfl⟩
  | error e =>
    exfalso
    unfold PQ.reconstruct at hr
    rw [if_neg (by rw [hq.codes c hc, hq.qlen]; simp)] at hr
    change (mapRes _ _ >>= _) = _ at hr
    cases hm : mapRes (fun qc : List (List K) × UInt8 => npGet qc.1 (qc.2.toNat : Int))
      (q.pq.quantizers.zip c) with
    | ok parts => rw [hm] at hr; cases hp : q.pq.projection <;> rw [hp] at hr <;> cases hr
    | error e' =>
      obtain ⟨⟨m, x⟩, hmem, hx⟩ := mapRes_err hm
      have h1 := hq.cents m (List.of_mem_zip hmem).1
      have h2 := h x (List.of_mem_zip hmem).2
      have := (npGet_err hx).2
      simp only at this
      omega

/-- With valid codes every row exists. -/
theorem getOne_total {s : Storage K} (hs : StorageWF s) (hc : CodesOk s) {i : Int}
    (h : -(s.nRows : Int) ≤ i ∧ i < s.nRows) : ∃ v, s.getOne i = .ok v := by
  cases s with
  | nd m => exact npGet_total h
  | quant q =>
    obtain ⟨c, h1⟩ := npGet_total (xs := q.codes) h
    have hcm : c ∈ q.codes := by
      obtain ⟨j, _, hj⟩ := npGet_ok.mp h1
      exact List.mem_of_getElem? hj
    obtain ⟨w, h2⟩ := reconstruct_total hs hcm (hc c hcm)
    cases hn : q.norms with
    | none => exact ⟨w, qGetOne_iff.mpr ⟨c, w, h1, h2, by rw [hn]⟩⟩
    | some ns =>
      obtain ⟨n, h3⟩ := npGet_total (xs := ns) (i := i)
        (by rw [QWF.norms hs ns hn]; exact h)
      exact ⟨scale n w, qGetOne_iff.mpr ⟨c, w, h1, h2, by rw [hn]; exact ⟨n, h3, rfl⟩⟩⟩

omit [NumOps K] in
theorem isConcat_length {pq : PQ K} {c : List UInt8} {u : List K} (h : IsConcat pq c u) :
    u.length = pq.reconstructedLen := h.1

/-- Rows have the declared length. -/
theorem getOne_length {s : Storage K} (hs : StorageWF s) {i : Int} {v : List K}
    (h : s.getOne i = .ok v) : v.length = s.nCols := by
  cases s with
  | nd m =>
    obtain ⟨j, _, hj⟩ := npGet_ok.mp h
    exact hs.1 _ (List.mem_of_getElem? hj)
  | quant q =>
    obtain ⟨j, _, codes, u, w, _, h2, h3, h4⟩ := (qGetOne_ok hs).mp h
    have hw : w.length = q.pq.reconstructedLen := by
      unfold IsProjected at h3
      cases hp : q.pq.projection with
      | none => rw [hp] at h3; rw [h3]; exact h2.1
      | some p => rw [hp] at h3; rw [h3.1]; exact (QWF.proj hs p hp).2.1
    show v.length = q.pq.reconstructedLen
    unfold IsScaled at h4
    cases hn : q.norms with
    | none => rw [hn] at h4; rw [h4]; exact hw
    | some ns =>
      rw [hn] at h4
      obtain ⟨n, _, h5, _⟩ := h4
      rw [h5]; exact hw

end

end FF
