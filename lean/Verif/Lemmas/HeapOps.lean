import Verif.Lemmas.Heap
import Verif.Lemmas.B2EEmb
/-! The heap versions of storage access and lookup refine the value versions. -/

namespace FF

section
variable {α β : Type}

theorem npGet_mapE (xs : List α) (f : α → β) (i : Int) :
    npGet (xs.map f) i = (npGet xs i).map f := by
  unfold npGet
  rw [List.length_map]
  cases npIndex xs.length i with
  | error e => rfl
  | ok j =>
    show (match (xs.map f)[j]? with | some x => pure x | none => Except.error PyErr.indexError)
      = Except.map f (match xs[j]? with | some x => pure x | none => Except.error PyErr.indexError)
    rw [List.getElem?_map]
    cases xs[j]? <;> rfl

theorem mapRes_mapE {γ : Type} (g : α → Res β) (f : β → γ) (xs : List α) :
    mapRes (fun x => (g x).map f) xs = (mapRes g xs).map (List.map f) := by
  induction xs with
  | nil => rfl
  | cons x xs ih =>
    unfold mapRes
    cases hg : g x with
    | error e => rfl
    | ok y =>
      show (mapRes (fun x => (g x).map f) xs >>= fun ys => pure (f y :: ys)) =
        Except.map (List.map f) (mapRes g xs >>= fun ys => pure (y :: ys))
      rw [ih]
      cases mapRes g xs <;> rfl

theorem npTake_mapE (xs : List α) (f : α → β) (is : List Int) :
    npTake (xs.map f) is = (npTake xs is).map (List.map f) := by
  unfold npTake
  rw [← mapRes_mapE]
  exact mapRes_congr fun i _ => npGet_mapE xs f i

theorem npSlice_mapE (xs : List α) (f : α → β) (s : PySlice) :
    npSlice (xs.map f) s = (npSlice xs s).map (List.map f) := by
  unfold npSlice
  rw [List.length_map]
  cases s.indices xs.length with
  | error e => rfl
  | ok p =>
    obtain ⟨a, b, c⟩ := p
    show mapRes _ (pyRange a b c) = Except.map (List.map f) (mapRes _ (pyRange a b c))
    rw [← mapRes_mapE]
    refine mapRes_congr fun i _ => ?_
    rw [List.getElem?_map]
    cases xs[i.toNat]? <;> rfl

theorem npGet_mem {xs : List α} {i : Int} {x : α} (h : npGet xs i = .ok x) : x ∈ xs := by
  obtain ⟨j, _, hj⟩ := npGet_ok.mp h
  exact List.mem_of_getElem? hj

theorem npTake_mem {xs ys : List α} {is : List Int} (h : npTake xs is = .ok ys) :
    ∀ y ∈ ys, y ∈ xs := by
  intro y hy
  have h2 := mapRes_ok.mp h
  obtain ⟨t, ht, rfl⟩ := List.getElem_of_mem hy
  exact npGet_mem ((List.forall₂_iff_get.mp h2).2 t (by rw [h2.length_eq]; exact ht) ht)

theorem npSlice_mem {xs ys : List α} {s : PySlice} (h : npSlice xs s = .ok ys) :
    ∀ y ∈ ys, y ∈ xs := by
  intro y hy
  unfold npSlice at h
  obtain ⟨p, _, h⟩ := res_bind_inv h
  have h2 := mapRes_ok.mp h
  obtain ⟨t, ht, rfl⟩ := List.getElem_of_mem hy
  have h3 := (List.forall₂_iff_get.mp h2).2 t (by rw [h2.length_eq]; exact ht) ht
  split at h3
  · rename_i x hx
    cases h3
    exact List.mem_of_getElem? hx
  · cases h3

end

section
variable {K : Type}
variable {P : Nat → Nat → Prop} {h h' : Heap K} {base : Nat}

/-! ### Fresh matrices -/

/-- A writable matrix of its own, allocated at or after `base`. -/
structure OwnedMat (base : Nat) (h : Heap K) (m : HMat) (rows : List (List K)) : Prop where
  base : base ≤ m.loc
  valid : ∀ r ∈ m.rows, View.Valid h ⟨m.loc, r⟩
  nodup : m.rows.flatten.Nodup
  writable : ∃ b, h[m.loc]? = some b ∧ b.writable = true
  read : m.rows.map (fun r => h.read ⟨m.loc, r⟩) = rows

theorem rowIdxs_length (off : Nat) (rows : List (List K)) :
    (rowIdxs off rows).length = rows.length := by
  induction rows generalizing off with
  | nil => rfl
  | cons r rs ih => simp [rowIdxs, ih]

theorem rowIdxs_flatten (off : Nat) (rows : List (List K)) :
    (rowIdxs off rows).flatten = (List.range rows.flatten.length).map (off + ·) := by
  induction rows generalizing off with
  | nil => rfl
  | cons r rs ih =>
    unfold rowIdxs
    rw [List.flatten_cons, ih, List.flatten_cons, List.length_append, List.range_add, List.map_append]
    congr 1
    rw [List.map_map]
    refine List.map_congr_left fun i _ => ?_
    simp [Nat.add_assoc]

theorem rowIdxs_read (rows : List (List K)) (pre : List K) :
    (rowIdxs pre.length rows).map (fun r => r.filterMap fun i => (pre ++ rows.flatten)[i]?) = rows := by
  induction rows generalizing pre with
  | nil => rfl
  | cons r rs ih =>
    unfold rowIdxs
    rw [List.map_cons, List.flatten_cons]
    congr 1
    · have := filterMap_range pre r rs.flatten
      rwa [List.append_assoc] at this
    · have := ih (pre ++ r)
      rw [List.length_append] at this
      rw [List.append_assoc] at this
      exact this

theorem allocMat_owned (hb : base ≤ h.length) (cols : Nat) (rows : List (List K)) :
    OwnedMat base (h ++ [⟨rows.flatten, true⟩]) ⟨h.length, cols, rowIdxs 0 rows⟩ rows where
  base := hb
  valid := by
    intro r hr
    refine ⟨⟨rows.flatten, true⟩, by simp, fun i hi => ?_⟩
    have : i ∈ (rowIdxs 0 rows).flatten := List.mem_flatten.mpr ⟨r, hr, hi⟩
    rw [rowIdxs_flatten] at this
    simpa using this
  nodup := by
    show (rowIdxs 0 rows).flatten.Nodup
    rw [rowIdxs_flatten]
    exact List.nodup_range.map fun a b hab => by simpa using hab
  writable := ⟨_, by simp; rfl, rfl⟩
  read := by
    have := rowIdxs_read rows []
    unfold Heap.read
    simpa using this

theorem OwnedMat.row {m : HMat} {rows : List (List K)} (ho : OwnedMat base h m rows) {j : Nat}
    {r : List Nat} (hj : m.rows[j]? = some r) :
    ∃ xs, rows[j]? = some xs ∧ Owned base h ⟨m.loc, r⟩ xs := by
  have hm := List.mem_of_getElem? hj
  refine ⟨h.read ⟨m.loc, r⟩, ?_, ho.base, ho.valid r hm, ?_, ?_, rfl⟩
  · rw [← ho.read, List.getElem?_map, hj]
    rfl
  · exact (List.nodup_flatten.mp ho.nodup).1 r hm
  · intro b hb
    obtain ⟨b', hb', hw⟩ := ho.writable
    rw [hb'] at hb
    cases hb
    exact hw

theorem OwnedMat.len {m : HMat} {rows : List (List K)} (ho : OwnedMat base h m rows) :
    m.rows.length = rows.length := by rw [← ho.read, List.length_map]

theorem OwnedMat.val {m : HMat} {rows : List (List K)} (ho : OwnedMat base h m rows) :
    m.val h = ⟨m.cols, rows⟩ := by
  unfold HMat.val
  rw [ho.read]

theorem OwnedMat.safe {m : HMat} {rows : List (List K)} (ho : OwnedMat base h m rows) :
    ∀ v ∈ m.views, v.Valid h := by
  intro v hv
  obtain ⟨r, hr, rfl⟩ := List.mem_map.mp hv
  exact ho.valid r hr

theorem OwnedMat.le {m : HMat} {rows : List (List K)} (ho : OwnedMat base h m rows)
    (hl : Heap.Le P h h') (hp : ∀ r ∈ m.rows, ∀ i ∈ r, ¬ P m.loc i) : OwnedMat base h' m rows where
  base := ho.base
  valid := fun r hr => (ho.valid r hr).le hl
  nodup := ho.nodup
  writable := by
    obtain ⟨b, hb, hw⟩ := ho.writable
    obtain ⟨b1, a1, a2, _⟩ := hl.buf _ _ hb
    exact ⟨b1, a1, a2.trans hw⟩
  read := by
    rw [← ho.read]
    exact List.map_congr_left fun r hr => hl.read (ho.valid r hr) (hp r hr)

/-- Assigning a whole matrix. -/
theorem writeRows_owned {m : HMat} {rows new : List (List K)} (ho : OwnedMat base h m rows)
    (hlen : List.Forall₂ (fun a b => a.length = b.length) new rows)
    (hP : ∀ r ∈ m.rows, ∀ i ∈ r, P m.loc i) :
    ∃ h', HM.writeRows m.loc m.rows new h = (.ok (), h') ∧ Heap.Le P h h' ∧
      OwnedMat base h' m new := by
  have key : ∀ (iss : List (List Nat)) (rows new : List (List K)) (h : Heap K),
      OwnedMat base h ⟨m.loc, m.cols, iss⟩ rows →
      List.Forall₂ (fun a b => a.length = b.length) new rows →
      ∃ h', HM.writeRows m.loc iss new h = (.ok (), h') ∧
        Heap.Le (fun l i => l = m.loc ∧ i ∈ iss.flatten) h h' ∧
        OwnedMat base h' ⟨m.loc, m.cols, iss⟩ new := by
    intro iss
    induction iss with
    | nil =>
      intro rows new h ho hlen
      have h0 : rows = [] := by
        have := ho.len
        simpa using this.symm
      subst h0
      cases hlen
      exact ⟨h, rfl, .refl _ _, ho⟩
    | cons is iss ih =>
      intro rows new h ho hlen
      obtain ⟨xs, hx, hrow⟩ := ho.row (j := 0) (r := is) rfl
      cases rows with
      | nil => cases hx
      | cons r rows =>
      cases hx
      cases hlen with
      | cons hab hrest =>
      rename_i y new
      obtain ⟨h1, hw, hle, ho1⟩ := write_owned (P := fun l i => l = m.loc ∧ i ∈ is) hrow hab
        (fun i hi => ⟨rfl, hi⟩)
      have hnd : (is ++ iss.flatten).Nodup := ho.nodup
      have hdis : ∀ r ∈ iss, ∀ i ∈ r, i ∉ is := fun r hr i hi hi' =>
        (List.nodup_append.mp hnd).2.2 i hi' i (List.mem_flatten.mpr ⟨r, hr, hi⟩) rfl
      have ho2 : OwnedMat base h ⟨m.loc, m.cols, iss⟩ rows :=
        ⟨ho.base, fun r hr => ho.valid r (List.mem_cons_of_mem _ hr),
          (List.nodup_append.mp hnd).2.1, ho.writable, (List.cons.inj ho.read).2⟩
      have ho3 := ho2.le hle fun r hr i hi hp => hdis r hr i hi hp.2
      obtain ⟨h2, hw2, hle2, ho4⟩ := ih rows new h1 ho3 hrest
      have hsub1 : Heap.Le (fun l i => l = m.loc ∧ i ∈ (is :: iss).flatten) h h1 :=
        hle.mono fun l i _ hp => ⟨hp.1, by simp [hp.2]⟩
      have hsub2 : Heap.Le (fun l i => l = m.loc ∧ i ∈ (is :: iss).flatten) h1 h2 :=
        hle2.mono fun l i _ hp => ⟨hp.1, by rw [List.flatten_cons]; exact List.mem_append_right _ hp.2⟩
      have ho5 := ho1.le hle2 fun i hi hp => by
        obtain ⟨r, hr, hir⟩ := List.mem_flatten.mp hp.2
        exact hdis r hr i hir hi
      refine ⟨h2, ?_, hsub1.trans hsub2, ho.base, ?_, ho.nodup, ho4.writable, ?_⟩
      · unfold HM.writeRows
        rw [hm_bind_ok hw]
        exact hw2
      · intro r hr
        rcases List.mem_cons.mp hr with rfl | hr
        · exact ho5.valid
        · exact ho4.valid r hr
      · show Heap.read _ _ :: _ = _
        rw [ho5.read]
        congr 1
        exact ho4.read
  obtain ⟨h1, a, b, c⟩ := key m.rows rows new h ho hlen
  refine ⟨h1, a, b.mono fun l i _ hp => ?_, c⟩
  obtain ⟨rfl, hp⟩ := hp
  obtain ⟨r, hr, hi⟩ := List.mem_flatten.mp hp
  exact hP r hr i hi

end

/-! ### Quantized storages -/

section
variable {K : Type} [NumOps K]
variable {P : Nat → Nat → Prop} {h h' : Heap K} {base : Nat}

/-- `base` splits the heap: newer buffers may be changed. -/
structure Frame (P : Nat → Nat → Prop) (base : Nat) (h : Heap K) : Prop where
  len : base ≤ h.length
  new : ∀ l i, base ≤ l → P l i

omit [NumOps K] in
theorem Frame.le (hf : Frame P base h) (hl : Heap.Le P h h') : Frame P base h' :=
  ⟨Nat.le_trans hf.len hl.len, hf.new⟩

omit [NumOps K] in
theorem Frame.cells (hf : Frame P base h) {v : View} {xs : List K} (ho : Owned base h v xs) :
    ∀ i ∈ v.idxs, P v.loc i := fun _ _ => hf.new _ _ ho.base

omit [NumOps K] in
theorem Frame.matCells (hf : Frame P base h) {m : HMat} {rows : List (List K)}
    (ho : OwnedMat base h m rows) : ∀ r ∈ m.rows, ∀ i ∈ r, P m.loc i :=
  fun _ _ _ _ => hf.new _ _ ho.base

omit [NumOps K] in
theorem Refines.alloc (hf : Frame P base h) (xs : List K) :
    Refines P h (HM.alloc xs) (.ok xs) (fun h' a b => Owned base h' a b) :=
  ⟨_, _, rfl, le_append P h _, alloc_owned hf.len xs⟩

omit [NumOps K] in
theorem Refines.allocMat (hf : Frame P base h) (cols : Nat) (rows : List (List K)) :
    Refines P h (HM.allocMat cols rows) (.ok rows)
      (fun h' a b => a.cols = cols ∧ OwnedMat base h' a b) :=
  ⟨_, _, rfl, le_append P h _, rfl, allocMat_owned hf.len cols rows⟩

omit [NumOps K] in
theorem Refines.write (hf : Frame P base h) {v : View} {xs ys : List K} (ho : Owned base h v xs)
    (hl : ys.length = xs.length) :
    Refines P h (HM.write v ys) (.ok ()) (fun h' _ _ => Owned base h' v ys) := by
  obtain ⟨h1, a, b, c⟩ := write_owned ho hl (hf.cells ho)
  exact ⟨_, _, a, b, c⟩

omit [NumOps K] in
theorem Refines.writeRows (hf : Frame P base h) {m : HMat} {rows new : List (List K)}
    (ho : OwnedMat base h m rows)
    (hlen : List.Forall₂ (fun a b => a.length = b.length) new rows) :
    Refines P h (HM.writeRows m.loc m.rows new) (.ok ())
      (fun h' _ _ => OwnedMat base h' m new) := by
  obtain ⟨h1, a, b, c⟩ := writeRows_owned ho hlen (hf.matCells ho)
  exact ⟨_, _, a, b, c⟩

theorem reconstruct_eq (pq : PQ K) (codes : List UInt8) :
    pq.reconstruct codes = (pq.gather codes >>= fun xs => match pq.projection with
      | none => .ok xs
      | some p => .ok (projectRow p xs)) := by
  unfold PQ.reconstruct PQ.gather
  by_cases hc : codes.length ≠ pq.quantizers.length
  · dsimp only
    rw [if_pos hc, if_pos hc]
    rfl
  · dsimp only
    rw [if_neg hc, if_neg hc]
    simp only [bind_assoc, pure_bind]
    cases pq.projection <;> rfl

omit [NumOps K] in
theorem gather_length {pq : PQ K} (hs : ∀ m ∈ pq.quantizers, ∀ r ∈ m, r.length = pq.sub)
    {codes : List UInt8} {xs : List K} (hg : pq.gather codes = .ok xs) :
    xs.length = pq.reconstructedLen := by
  unfold PQ.gather at hg
  by_cases hc : codes.length ≠ pq.quantizers.length
  · dsimp only at hg
    rw [if_pos hc] at hg
    cases hg
  · dsimp only at hg
    rw [if_neg hc] at hg
    obtain ⟨parts, h1, hg⟩ := res_bind_inv (m := mapRes _ _) hg
    cases hg
    have hl := mapRes_length h1
    rw [List.length_zip] at hl
    rw [flatten_const_length (s := pq.sub)]
    · unfold PQ.reconstructedLen
      have : parts.length = pq.quantizers.length := by omega
      rw [this]
    · intro p hp
      have h2 := mapRes_ok.mp h1
      obtain ⟨t, ht, rfl⟩ := List.getElem_of_mem hp
      have h3 := (List.forall₂_iff_get.mp h2).2 t (by rw [h2.length_eq]; exact ht) ht
      have h4 := npGet_mem h3
      refine hs _ ?_ _ h4
      exact (List.of_mem_zip (List.get_mem _ _)).1

/-- The parts of `QWF` that the quantizer itself has. -/
structure PQWF (pq : PQ K) : Prop where
  subs : ∀ m ∈ pq.quantizers, ∀ r ∈ m, r.length = pq.sub
  proj : ∀ p, pq.projection = some p → p.rows.length = pq.reconstructedLen

omit [NumOps K] in
theorem QWF.pq {q : QArr K} (hq : QWF q) : PQWF q.pq := ⟨hq.subs, fun p hp => (hq.proj p hp).2.1⟩

omit [NumOps K] in
theorem contiguous_range (l n : Nat) : View.contiguous ⟨l, List.range n⟩ = true := by
  unfold View.contiguous
  cases n with
  | zero => rfl
  | succ n =>
    simp [List.range_eq_range', List.range'_succ]

omit [NumOps K] in
theorem gather_refines (hf : Frame P base h) (pq : HPQ) (codes : List UInt8) :
    Refines P h (pq.gather codes) ((pq.val h).gather codes) (fun h' a b => Owned base h' a b) := by
  unfold HPQ.gather
  refine Refines.step hm_look_bind (.refl _ _) ?_
  refine Refines.last Refines.lift ?_
  rintro h1 xs _ _ _ ⟨rfl, rfl⟩
  exact Refines.alloc hf xs

/-- The projection in place, of an array of the right length. -/
theorem project_refines (hf : Frame P base h) {pq : HPQ}
    (hw : PQWF (pq.val h)) {o : View} {xs : List K} (ho : Owned base h o xs)
    (hlen : xs.length = pq.reconstructedLen) (hc : o.contiguous = true) :
    Refines P h (pq.project o)
      (match (pq.val h).projection with
        | none => .ok xs
        | some p => .ok (projectRow p xs))
      (fun h' a b => a = o ∧ Owned base h' o b) := by
  unfold HPQ.project
  have hproj : (pq.val h).projection = pq.projection.map (HMat.val h) := rfl
  cases hp : pq.projection with
  | none =>
    rw [hproj, hp]
    exact Refines.pure ⟨rfl, ho⟩
  | some p =>
    rw [hproj, hp]
    have hrl := hw.proj (p.val h) (by rw [hproj, hp]; rfl)
    simp only [hc, Bool.true_eq_false, if_false]
    refine Refines.step hm_look_bind (.refl _ _) ?_
    refine Refines.step hm_read_bind (.refl _ _) ?_
    rw [ho.read]
    refine Refines.bind (r := .ok ()) (g := fun _ => .ok (projectRow (p.val h) xs))
      (Refines.write hf ho ?_) ?_
    · unfold projectRow
      rw [List.length_map, hrl, hlen]
      unfold PQ.reconstructedLen HPQ.reconstructedLen HPQ.val
      simp
    · intro h2 _ _ _ _ ho2
      exact Refines.pure ⟨rfl, ho2⟩

omit [NumOps K] in
theorem gather_len' {pq : HPQ} (hw : PQWF (pq.val h)) {codes : List UInt8} {xs : List K}
    (hg : (pq.val h).gather codes = .ok xs) : xs.length = pq.reconstructedLen := by
  rw [gather_length hw.subs hg]
  unfold PQ.reconstructedLen HPQ.reconstructedLen HPQ.val
  simp

theorem reconstruct_refines (hf : Frame P base h) {pq : HPQ} (hs : Safe P h pq.views)
    (hw : PQWF (pq.val h)) (codes : List UInt8) :
    Refines P h (pq.reconstruct codes none) ((pq.val h).reconstruct codes)
      (fun h' a b => Owned base h' a b ∧ a.contiguous = true) := by
  rw [reconstruct_eq]
  show Refines P h (pq.gather codes >>= pq.project) _ _
  have hg : Refines P h (pq.gather codes) ((pq.val h).gather codes)
      (fun h' a b => Owned base h' a b ∧ a.contiguous = true) := by
    unfold HPQ.gather
    refine Refines.step hm_look_bind (.refl _ _) ?_
    refine Refines.last Refines.lift ?_
    rintro h1 xs _ _ _ ⟨rfl, rfl⟩
    exact ⟨_, _, rfl, le_append P _ _, alloc_owned hf.len xs, contiguous_range _ _⟩
  refine Refines.bind hg ?_
  rintro h1 o xs hle hxs ⟨ho, hc⟩
  rw [← HPQ.val_le hs hle]
  refine (project_refines (hf.le hle) ?_ ho (gather_len' hw hxs) hc).mono ?_
  · rw [HPQ.val_le hs hle]
    exact hw
  · rintro h2 a b _ _ ⟨rfl, h3⟩
    exact ⟨h3, hc⟩

/-- `QuantizedArray.embedding` without `out` -/
theorem qEmbedding_refines (hf : Frame P base h) {q : HQArr} (hs : Safe P h q.views)
    (hw : QWF (q.val h)) (i : Int) :
    Refines P h (q.embedding i none) ((q.val h).getOne i) (fun h' a b => Owned base h' a b) := by
  unfold HQArr.embedding QArr.getOne
  refine Refines.bind (Refines.lift (r := npGet q.codes i)) ?_
  rintro h1 c _ _ _ ⟨rfl, rfl⟩
  have hsp : Safe P h1 q.pq.views := hs.mono fun v hv => List.mem_append_left _ hv
  refine Refines.bind (reconstruct_refines hf hsp hw.pq c) ?_
  rintro h2 o b hle hb ⟨ho, _⟩
  have hnorm : (q.val h1).norms = q.norms.map h1.read := rfl
  cases hn : q.norms with
  | none =>
    rw [hnorm, hn]
    exact Refines.pure ho
  | some v =>
    rw [hnorm, hn]
    have hv : v ∈ q.views := by unfold HQArr.views; rw [hn]; simp
    refine Refines.step hm_read_bind (.refl _ _) ?_
    rw [hs.read hle hv]
    refine Refines.bind Refines.lift ?_
    rintro h3 n _ _ _ ⟨rfl, rfl⟩
    refine Refines.step hm_read_bind (.refl _ _) ?_
    rw [ho.read]
    refine Refines.bind (r := .ok ()) (g := fun _ => .ok (scale n b))
      (Refines.write (hf.le hle) ho (by unfold scale; rw [List.length_map])) ?_
    intro h4 _ _ _ _ ho2
    exact Refines.pure ho2

/-- The projection of one vector. -/
def projOf (pq : PQ K) (xs : List K) : List K :=
  match pq.projection with
  | none => xs
  | some p => projectRow p xs

theorem reconstruct_map (pq : PQ K) (codes : List UInt8) :
    pq.reconstruct codes = (pq.gather codes).map (projOf pq) := by
  rw [reconstruct_eq]
  unfold projOf
  cases pq.gather codes with
  | error e => rfl
  | ok xs => cases pq.projection <;> rfl

theorem reconstructMany_refines (hf : Frame P base h) {pq : HPQ} (hs : Safe P h pq.views)
    (hw : PQWF (pq.val h)) (codes : List (List UInt8)) :
    Refines P h (pq.reconstructMany codes) (mapRes (pq.val h).reconstruct codes)
      (fun h' a b => a.cols = pq.reconstructedLen ∧ OwnedMat base h' a b) := by
  have he : mapRes (pq.val h).reconstruct codes =
      (mapRes (pq.val h).gather codes >>= fun xs => .ok (xs.map (projOf (pq.val h)))) := by
    rw [mapRes_congr (g := fun c => ((pq.val h).gather c).map (projOf (pq.val h)))
      (fun c _ => reconstruct_map _ c), mapRes_mapE]
    cases mapRes (pq.val h).gather codes <;> rfl
  rw [he]
  unfold HPQ.reconstructMany
  refine Refines.step hm_look_bind (.refl _ _) ?_
  refine Refines.bind Refines.lift ?_
  rintro h1 xs _ _ hxs ⟨rfl, rfl⟩
  refine Refines.bind (r := .ok xs) (g := fun ys => .ok (ys.map (projOf (pq.val h1))))
    (Refines.allocMat hf pq.reconstructedLen xs) ?_
  rintro h2 m _ hle hm ⟨hcols, ho⟩
  cases hm
  have hlens : ∀ x ∈ xs, x.length = pq.reconstructedLen := by
    intro x hx
    have h2 := mapRes_ok.mp hxs
    obtain ⟨t, ht, rfl⟩ := List.getElem_of_mem hx
    exact gather_len' hw ((List.forall₂_iff_get.mp h2).2 t (by rw [h2.length_eq]; exact ht) ht)
  unfold HPQ.projectMany
  have hproj : (pq.val h1).projection = pq.projection.map (HMat.val h1) := rfl
  cases hp : pq.projection with
  | none =>
    refine Refines.pure ⟨hcols, ?_⟩
    have : xs.map (projOf (pq.val h1)) = xs := by
      unfold projOf
      rw [hproj, hp]
      exact List.map_id _
    rw [this]
    exact ho
  | some p =>
    have hrl := hw.proj (p.val h1) (by rw [hproj, hp]; rfl)
    have hpj : projOf (pq.val h1) = projectRow (p.val h1) := by
      funext x
      unfold projOf
      rw [hproj, hp]
      rfl
    have hpe : p.val h2 = p.val h1 := by
      refine HMat.val_le (hs.mono fun v hv => ?_) hle
      unfold HPQ.views
      rw [hp]
      exact List.mem_append_right _ hv
    refine Refines.step hm_look_bind (.refl _ _) ?_
    refine Refines.step hm_look_bind (.refl _ _) ?_
    rw [ho.val, hpe, hpj]
    refine Refines.bind (r := .ok ()) (g := fun _ => .ok (xs.map (projectRow (p.val h1))))
      (Refines.writeRows (hf.le hle) ho ?_) ?_
    · refine List.forall₂_iff_get.mpr ⟨by simp, fun i h1 h2 => ?_⟩
      have := hlens xs[i] (List.getElem_mem _)
      simp only [List.get_eq_getElem, List.getElem_map]
      unfold projectRow
      rw [List.length_map, hrl, this]
      unfold PQ.reconstructedLen HPQ.reconstructedLen HPQ.val
      simp
    · intro h3 _ _ _ _ ho3
      exact Refines.pure ⟨hcols, ho3⟩

theorem forall₂_scale {ns : List K} {rows : List (List K)} (hl : ns.length = rows.length) :
    List.Forall₂ (fun a b => a.length = b.length) (List.zipWith scale ns rows) rows := by
  induction ns generalizing rows with
  | nil => cases rows with
    | nil => exact .nil
    | cons r rows => cases hl
  | cons n ns ih => cases rows with
    | nil => cases hl
    | cons r rows =>
      exact .cons (by unfold scale; rw [List.length_map]) (ih (by simpa using hl))

theorem qEmbeddingMany_refines (hf : Frame P base h) {q : HQArr} (hs : Safe P h q.views)
    (hw : QWF (q.val h)) (is : List Int) :
    Refines P h (q.embeddingMany is) ((q.val h).getMany is)
      (fun h' a b => a.cols = q.pq.reconstructedLen ∧ OwnedMat base h' a b) := by
  unfold HQArr.embeddingMany QArr.getMany
  refine Refines.bind (Refines.lift (r := npTake q.codes is)) ?_
  rintro h1 c _ _ hc ⟨rfl, rfl⟩
  have hsp : Safe P h1 q.pq.views := hs.mono fun v hv => List.mem_append_left _ hv
  refine Refines.bind (reconstructMany_refines hf hsp hw.pq c) ?_
  rintro h2 o b hle hb ⟨hcols, ho⟩
  have hnorm : (q.val h1).norms = q.norms.map h1.read := rfl
  cases hn : q.norms with
  | none =>
    rw [hnorm, hn]
    exact Refines.pure ⟨hcols, ho⟩
  | some v =>
    rw [hnorm, hn]
    have hv : v ∈ q.views := by unfold HQArr.views; rw [hn]; simp
    refine Refines.step hm_read_bind (.refl _ _) ?_
    rw [hs.read hle hv]
    refine Refines.bind Refines.lift ?_
    rintro h3 ns _ _ hns ⟨rfl, rfl⟩
    refine Refines.step hm_look_bind (.refl _ _) ?_
    rw [ho.val]
    refine Refines.bind (r := .ok ()) (g := fun _ => .ok (List.zipWith scale ns b))
      (Refines.writeRows (hf.le hle) ho (forall₂_scale ?_)) ?_
    · rw [mapRes_length hns, mapRes_length hb, mapRes_length hc]
    intro h4 _ _ _ _ ho2
    exact Refines.pure ⟨hcols, ho2⟩

/-! ### Storages -/

/-- The elements of a valid view are those of its buffer at its positions. -/
theorem read_map {v : View} (hv : v.Valid h) : ∃ f : Nat → K, ∀ is : List Nat, (∀ i ∈ is, i ∈ v.idxs) →
    h.read ⟨v.loc, is⟩ = is.map f := by
  obtain ⟨b, hb, hi⟩ := hv
  refine ⟨fun i => b.data.getD i NumOps.zero, fun is his => ?_⟩
  unfold Heap.read
  rw [hb]
  dsimp only
  rw [← List.filterMap_eq_map]
  refine List.filterMap_congr fun i him => ?_
  have := hi i (his i him)
  simp [List.getElem?_eq_getElem this, List.getD]

/-- A view of the storage or a fresh array. -/
def Got (base : Nat) (vs : List View) (h : Heap K) (a : View) (b : List K) : Prop :=
  (a ∈ vs ∧ a.Valid h ∧ h.read a = b) ∨ Owned base h a b

omit [NumOps K] in
theorem Got.read {vs : List View} {a : View} {b : List K} (hg : Got base vs h a b) :
    h.read a = b := by
  rcases hg with hg | hg
  · exact hg.2.2
  · exact hg.read

omit [NumOps K] in
theorem Got.valid {vs : List View} {a : View} {b : List K} (hg : Got base vs h a b) :
    a.Valid h := by
  rcases hg with hg | hg
  · exact hg.2.1
  · exact hg.valid

theorem getOne_refines (hf : Frame P base h) {s : HStorage} (hs : Safe P h s.views)
    (hw : StorageWF (s.val h)) (i : Int) :
    Refines P h (s.getOne i) ((s.val h).getOne i)
      (fun h' a b => Got base s.views h' a b) := by
  cases s with
  | nd m =>
    show Refines P h (HM.lift (npGet m.rows i) >>= fun r => pure (⟨m.loc, r⟩ : View))
      (npGet (m.rows.map fun r => h.read ⟨m.loc, r⟩) i) _
    rw [npGet_mapE]
    cases hg : npGet m.rows i with
    | error e => exact ⟨.error e, h, hm_bind_error rfl, .refl _ _, rfl⟩
    | ok r =>
      have hm : (⟨m.loc, r⟩ : View) ∈ m.views := List.mem_map_of_mem (npGet_mem hg)
      exact ⟨_, h, hm_bind_ok rfl, .refl _ _, Or.inl ⟨hm, (hs _ hm).1, rfl⟩⟩
  | quant q =>
    exact (qEmbedding_refines hf hs hw i).mono fun _ _ _ _ _ ho => Or.inr ho

theorem getMany_refines (hf : Frame P base h) {s : HStorage} (hs : Safe P h s.views)
    (hw : StorageWF (s.val h)) (is : List Int) :
    Refines P h (s.getMany is) ((s.val h).getMany is)
      (fun h' a b => a.cols = s.nCols ∧ OwnedMat base h' a b) := by
  cases s with
  | nd m =>
    show Refines P h (HM.lift (npTake m.rows is) >>= fun rs => HM.look _ >>= fun rows =>
      HM.allocMat m.cols rows) (npTake (m.rows.map _) is) _
    rw [npTake_mapE]
    cases hg : npTake m.rows is with
    | error e => exact ⟨.error e, h, hm_bind_error rfl, .refl _ _, rfl⟩
    | ok rs =>
      refine Refines.step (hm_bind_ok rfl) (.refl _ _) ?_
      refine Refines.step hm_look_bind (.refl _ _) ?_
      exact Refines.allocMat hf m.cols _
  | quant q => exact qEmbeddingMany_refines hf hs hw is

omit [NumOps K] in
theorem nCols_val (s : HStorage) : (s.val h).nCols = s.nCols := by
  cases s with
  | nd m => rfl
  | quant q =>
    show PQ.reconstructedLen _ = _
    unfold PQ.reconstructedLen HStorage.nCols HQArr.val HPQ.val
    simp

theorem slice_refines {s : HStorage} (hs : Safe P h s.views) (sl : PySlice) :
    Refines P h (s.slice sl) ((s.val h).slice sl)
      (fun h' a b => h' = h ∧ a.val h = b ∧ Safe P h a.views) := by
  cases s with
  | nd m =>
    show Refines P h (HM.lift (npSlice m.rows sl) >>= fun rs => pure (HStorage.nd ⟨m.loc, m.cols, rs⟩))
      (npSlice (m.rows.map fun r => h.read ⟨m.loc, r⟩) sl >>= fun rs => pure (Storage.nd ⟨m.cols, rs⟩)) _
    rw [npSlice_mapE]
    cases hg : npSlice m.rows sl with
    | error e => exact ⟨.error e, h, hm_bind_error rfl, .refl _ _, rfl⟩
    | ok rs =>
      refine ⟨_, h, hm_bind_ok rfl, .refl _ _, rfl, rfl, hs.mono fun v hv => ?_⟩
      obtain ⟨r, hr, rfl⟩ := List.mem_map.mp hv
      exact List.mem_map_of_mem (npSlice_mem hg r hr)
  | quant q =>
    show Refines P h (HM.lift (npSlice q.codes sl) >>= _) ((q.val h).slice sl >>= _) _
    unfold QArr.slice
    rw [bind_assoc]
    refine Refines.bind (Refines.lift (r := npSlice q.codes sl)) ?_
    rintro h1 c _ _ hc ⟨rfl, rfl⟩
    have hnorm : (q.val h1).norms = q.norms.map h1.read := rfl
    cases hn : q.norms with
    | none =>
      rw [hnorm, hn]
      refine Refines.pure ⟨rfl, rfl, hs.mono fun v hv => ?_⟩
      exact List.mem_append_left _ (by simpa [HStorage.views, HQArr.views] using hv)
    | some v =>
      rw [hnorm, hn]
      have hv : v ∈ (HStorage.quant q).views := by
        show v ∈ q.views
        unfold HQArr.views; rw [hn]; simp
      obtain ⟨f, hfm⟩ := read_map (hs v hv).1
      have hread : h1.read v = v.idxs.map f := hfm v.idxs fun _ h => h
      show Refines P h1 (HM.lift (npSlice v.idxs sl) >>= _) ((npSlice (h1.read v) sl >>= _) >>= _) _
      rw [hread, npSlice_mapE]
      cases hg : npSlice v.idxs sl with
      | error e => exact ⟨.error e, h1, hm_bind_error rfl, .refl _ _, rfl⟩
      | ok is =>
        have hsub := npSlice_mem hg
        refine ⟨_, h1, hm_bind_ok rfl, .refl _ _, rfl, ?_, ?_⟩
        · show Storage.quant ⟨_, _, _, some (h1.read ⟨v.loc, is⟩)⟩ = _
          rw [hfm is hsub]
          rfl
        · intro w hw
          have hw' : w ∈ q.pq.views ++ [⟨v.loc, is⟩] := hw
          rcases List.mem_append.mp hw' with hw' | hw'
          · exact hs w (List.mem_append_left _ hw')
          · rw [List.mem_singleton] at hw'
            subst hw'
            obtain ⟨⟨b, hb, hi⟩, hp⟩ := hs v hv
            exact ⟨⟨b, hb, fun i him => hi i (hsub i him)⟩, fun i him => hp i (hsub i him)⟩

/-- `numpy.asarray(storage)` -/
theorem toArray_refines (hf : Frame P base h) {s : HStorage} (hs : Safe P h s.views)
    (hw : StorageWF (s.val h)) :
    Refines P h (s.toArray) ((s.val h).toArray)
      (fun h' a b => (a.val h').rows = b) := by
  cases s with
  | nd m => exact Refines.pure rfl
  | quant q =>
    have hsp : Safe P h q.pq.views := hs.mono fun v hv => List.mem_append_left _ hv
    show Refines P h (q.pq.reconstructMany q.codes >>= _) ((q.val h).toArray) _
    unfold QArr.toArray
    have hnorm : (q.val h).norms = q.norms.map h.read := rfl
    cases hn : q.norms with
    | none =>
      rw [hnorm, hn]
      refine Refines.last (reconstructMany_refines hf hsp hw.pq q.codes) ?_
      rintro h2 o b hle hb ⟨hcols, ho⟩
      refine Refines.pure ?_
      rw [ho.val]
    | some v =>
      rw [hnorm, hn]
      refine Refines.bind (reconstructMany_refines hf hsp hw.pq q.codes) ?_
      rintro h2 o b hle hb ⟨hcols, ho⟩
      have hv : v ∈ (HStorage.quant q).views := by
        show v ∈ q.views
        unfold HQArr.views; rw [hn]; simp
      refine Refines.step hm_read_bind (.refl _ _) ?_
      refine Refines.step hm_look_bind (.refl _ _) ?_
      rw [hs.read hle hv, ho.val]
      dsimp only
      by_cases hl : (h.read v).length ≠ b.length
      · rw [if_pos hl, if_pos hl]
        exact ⟨_, _, hm_bind_error rfl, .refl _ _, rfl⟩
      · rw [if_neg hl, if_neg hl]
        exact (Refines.allocMat (hf.le hle) _ _).mono fun _ _ _ _ _ h3 => by rw [h3.2.val]

end

end FF
