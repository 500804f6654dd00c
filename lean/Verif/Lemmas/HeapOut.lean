import Verif.Lemmas.HeapLookup
/-! Lookup with output buffers. -/

namespace FF

section
variable {K : Type}
variable {P : Nat → Nat → Prop} {h h' : Heap K}

theorem Buffer.owned {o : View} {n : Nat} (hb : Buffer h o n) : Owned 0 h o (h.read o) :=
  ⟨Nat.zero_le _, hb.valid, hb.nodup, hb.writable, rfl⟩

theorem Buffer.le {o : View} {n : Nat} (hb : Buffer h o n) (hl : Heap.Le P h h') : Buffer h' o n where
  valid := hb.valid.le hl
  nodup := hb.nodup
  len := hb.len
  writable := by
    intro b' hb'
    obtain ⟨b, h1, _⟩ := hb.valid
    obtain ⟨b1, a1, a2, _⟩ := hl.buf _ _ h1
    rw [a1] at hb'
    cases hb'
    rw [a2]
    exact hb.writable b h1

theorem Apart.safe {o : View} {vs : List View} (ha : Apart o vs) (hv : Valids h vs) :
    Safe o.cells h vs := fun v hm => ⟨hv v hm, fun i hi hc => ha v hm hc.1 i hi hc.2⟩

/-- Assigning to a buffer. -/
theorem write_buffer {o : View} {n : Nat} (hb : Buffer h o n) {ys : List K} (hl : ys.length = n) :
    ∃ h', HM.write o ys h = (.ok (), h') ∧ Heap.Le o.cells h h' ∧ h'.read o = ys := by
  obtain ⟨h', a, b, c⟩ := write_owned (P := o.cells) (ys := ys) hb.owned
    (by rw [read_length hb.valid, hb.len, hl]) (fun i hi => ⟨rfl, hi⟩)
  exact ⟨h', a, b, c.read⟩

/-- Assigning a sequence of one element to a buffer. -/
theorem write_broadcast {o : View} {n : Nat} (hb : Buffer h o n) (y : K) :
    ∃ h', HM.write o [y] h = (.ok (), h') ∧ Heap.Le o.cells h h' ∧
      h'.read o = List.replicate n y := by
  have hl : o.idxs.length = n := hb.len
  obtain ⟨h', a, b, c⟩ := write_buffer hb (List.length_replicate (n := n) (a := y))
  refine ⟨h', ?_, b, c⟩
  rw [← a]
  unfold HM.write
  have : assignRow o.idxs.length [y] = assignRow o.idxs.length (List.replicate n y) := by
    unfold assignRow
    rw [hl]
    simp
    rintro rfl
    rfl
  rw [this]

/-- Assigning a sequence of a wrong length. -/
theorem write_wrong {o : View} {n : Nat} (hb : Buffer h o n) {ys : List K} (hl : ys.length ≠ n)
    (h1 : ys.length ≠ 1) : HM.write o ys h = (.error .valueError, h) := by
  obtain ⟨b, hbuf, _⟩ := hb.valid
  unfold HM.write
  rw [hbuf]
  dsimp only
  rw [if_pos (hb.writable b hbuf)]
  have : assignRow o.idxs.length ys = .error .valueError := by
    unfold assignRow
    rw [hb.len, if_neg hl]
    match ys, h1 with
    | [], _ => rfl
    | [y], h1 => exact absurd rfl h1
    | _ :: _ :: _, _ => rfl
  rw [this]

/-- Assigning to a read-only array. -/
theorem write_readonly {o : View} {b : Buf K} (hb : h[o.loc]? = some b) (hw : b.writable = false)
    (ys : List K) : HM.write o ys h = (.error .valueError, h) := by
  unfold HM.write
  rw [hb]
  dsimp only
  rw [hw, if_neg (by decide)]

end

section
variable {K : Type} [NumOps K]
variable {P : Nat → Nat → Prop} {h h' : Heap K}

theorem addReduce_length {s : Storage K} (hs : StorageWF s) {is : List Int} {rows : List (List K)}
    (hr : s.getMany is = .ok rows) : (addReduce s.nCols rows).length = s.nCols := by
  rw [getMany_eq] at hr
  have hrows : ∀ r ∈ rows, r.length = s.nCols := by
    intro r hm
    obtain ⟨t, ht, rfl⟩ := List.getElem_of_mem hm
    have h2 := mapRes_ok.mp hr
    have h3 := (List.forall₂_iff_get.mp h2).2 t (by rw [h2.length_eq]; exact ht) ht
    exact getOne_length hs h3
  cases rows with
  | nil => simp [addReduce]
  | cons r rows =>
    exact foldl_vadd_length (fun x hx => hrows x (List.mem_cons_of_mem _ hx)) (hrows r (by simp))

/-- `_embedding` with a fitting `out`. -/
theorem embedOut_refines {E : HEmb} (hv : Valids h E.views) (hw : StorageWF (E.val h).storage)
    {o : View} (hb : Buffer h o E.storage.nCols) (ha : Apart o E.norms.toList) (idx : Idx) :
    Refines o.cells h (E.embed idx (some o)) ((E.val h).embed idx)
      (fun h' a b => a = (o, b.2) ∧ h'.read o = b.1) := by
  have hss := storageValids hv
  have hf := frame_new h
  cases idx with
  | one i =>
    unfold HEmb.embed Embeddings.embed
    refine Refines.bind (getOne_refines hf hss.new hw i).never.any ?_
    intro h1 res b hle1 hbv hg
    have hlen : b.length = E.storage.nCols := by
      rw [getOne_length hw hbv]
      exact nCols_val _
    unfold assignOut
    refine Refines.bind (r := .ok ()) (g := fun _ => _) (R := fun h2 x _ => x = o ∧ h2.read o = b ∧
      Heap.Le o.cells h h2) ?_ ?_
    · refine Refines.step hm_read_bind (.refl _ _) ?_
      rw [hg.read]
      obtain ⟨h2, e1, e2, e3⟩ := write_buffer (hb.le hle1) hlen
      exact ⟨.ok o, h2, hm_bind_ok e1, e2, rfl, e3, hle1.trans e2⟩
    · rintro h2 _ _ _ _ ⟨rfl, hr, hle2⟩
      cases hn : E.norms with
      | none =>
        rw [norms_none hn]
        exact Refines.pure ⟨rfl, hr⟩
      | some v =>
        rw [norms_read hn]
        have hvn : v.Valid h := hv v (norms_mem hn)
        have hre : h2.read v = h.read v := by
          refine hle2.read hvn fun i hi hc => ?_
          exact ha v (by rw [hn]; simp) hc.1 i hi hc.2
        refine Refines.step hm_read_bind (.refl _ _) ?_
        rw [hre]
        refine Refines.bind Refines.lift ?_
        rintro h3 n _ _ _ ⟨rfl, rfl⟩
        exact Refines.pure ⟨rfl, hr⟩
  | many is =>
    unfold HEmb.embed Embeddings.embed
    refine Refines.bind (getMany_refines hf hss.new hw is).never.any ?_
    rintro h1 res rows hle1 hrows ⟨hcols, ho⟩
    refine Refines.step hm_look_bind (.refl _ _) ?_
    rw [ho.val, hcols]
    have hc : (E.val h).storage.nCols = E.storage.nCols := nCols_val _
    rw [hc]
    have hlen : (addReduce E.storage.nCols rows).length = E.storage.nCols := by
      rw [← hc]
      exact addReduce_length hw hrows
    have hb1 := hb.le hle1
    unfold reduceOut
    dsimp only
    rw [if_neg (by rw [hb.len]; exact fun h => h rfl)]
    refine Refines.bind (r := .ok ()) (g := fun _ => _) (R := fun h2 x _ => x = o ∧
      h2.read o = addReduce E.storage.nCols rows) ?_ ?_
    · obtain ⟨h2, e1, e2, e3⟩ := write_buffer hb1 hlen
      exact ⟨.ok o, h2, hm_bind_ok e1, e2, rfl, e3⟩
    · rintro h2 _ _ hle2 _ ⟨rfl, hr⟩
      refine Refines.step hm_read_bind (.refl _ _) ?_
      refine Refines.step hm_read_bind (.refl _ _) ?_
      rw [hr]
      obtain ⟨h3, e1, e2, e3⟩ := write_buffer (hb1.le hle2)
        (ys := vdiv (addReduce E.storage.nCols rows) (NumOps.norm (addReduce E.storage.nCols rows)))
        (by unfold vdiv; rw [List.length_map, hlen])
      exact ⟨_, h3, hm_bind_ok e1, e2, rfl, e3⟩

/-- `_embedding` with an `out` of a wrong length: no existing cell changes. -/
theorem embedOut_wrong {E : HEmb} (hv : Valids h E.views) (hw : StorageWF (E.val h).storage)
    {o : View} {n : Nat} (hb : Buffer h o n) (hn : n ≠ E.storage.nCols) (h1 : E.storage.nCols ≠ 1)
    (idx : Idx) (r : List K × Option K) (hr : (E.val h).embed idx = .ok r) :
    ∃ h', E.embed idx (some o) h = (.error .valueError, h') ∧ Heap.Le Never h h' := by
  have hss := storageValids hv
  have hf := frame_new h
  cases idx with
  | one i =>
    unfold Embeddings.embed at hr
    obtain ⟨b, hb', _⟩ := res_bind_inv hr
    obtain ⟨x, h2, e1, e2, e3⟩ := (getOne_refines hf hss.new hw i).never
    have hb'' : (HStorage.val h E.storage).getOne i = .ok b := hb'
    rw [hb''] at e3
    cases x with
    | error x => exact e3.elim
    | ok v =>
      have hg : Got h.length E.storage.views h2 v b := e3
      have hlen : b.length = E.storage.nCols := by
        rw [getOne_length hw hb']
        exact nCols_val _
      refine ⟨h2, ?_, e2⟩
      unfold HEmb.embed assignOut
      dsimp only
      rw [hm_bind_ok e1]
      refine hm_bind_error ?_
      rw [hm_read_bind, hg.read]
      exact hm_bind_error (write_wrong (hb.le e2) (by rw [hlen]; exact hn.symm) (by rw [hlen]; exact h1))
  | many is =>
    unfold Embeddings.embed at hr
    obtain ⟨rows, hb', _⟩ := res_bind_inv hr
    obtain ⟨x, h2, e1, e2, e3⟩ := (getMany_refines hf hss.new hw is).never
    have hb'' : (HStorage.val h E.storage).getMany is = .ok rows := hb'
    rw [hb''] at e3
    cases x with
    | error x => exact e3.elim
    | ok m =>
      obtain ⟨hcols, ho⟩ : m.cols = E.storage.nCols ∧ OwnedMat h.length h2 m rows := e3
      refine ⟨h2, ?_, e2⟩
      unfold HEmb.embed reduceOut
      dsimp only
      rw [hm_bind_ok e1, hm_look_bind]
      refine hm_bind_error ?_
      rw [if_pos (by rw [hb.len, hcols]; exact hn)]
      rfl

/-- `QuantizedArray.embedding` with a fitting `out`. -/
theorem qEmbeddingOut_refines {q : HQArr} (hv : Valids h q.views) (hw : QWF (q.val h))
    {o : View} (hb : Buffer h o q.pq.reconstructedLen) (ha : Apart o q.views)
    (hc : q.pq.projection.isSome → o.contiguous = true) (i : Int) :
    Refines o.cells h (q.embedding i (some o)) ((q.val h).getOne i)
      (fun h' a b => a = o ∧ h'.read o = b) := by
  have hs : Safe o.cells h q.views := ha.safe hv
  unfold HQArr.embedding QArr.getOne
  refine Refines.bind (Refines.lift (r := npGet q.codes i)) ?_
  rintro h1 c _ _ _ ⟨rfl, rfl⟩
  have hsp : Safe o.cells h1 q.pq.views := hs.mono fun v hv => List.mem_append_left _ hv
  refine Refines.bind (R := fun h2 a b => a = o ∧ h2.read o = b) ?_ ?_
  · unfold HPQ.reconstruct
    dsimp only
    rw [if_neg (by rw [hb.len]; exact fun h => h rfl)]
    show Refines _ _ _ ((q.pq.val h1).reconstruct c) _
    rw [reconstruct_eq]
    refine Refines.bind (gather_refines (frame_new h1) q.pq c).never.any ?_
    intro h2 tmp xs hle hxs ho
    have hlen := gather_len' hw.pq hxs
    refine Refines.step hm_read_bind (.refl _ _) ?_
    rw [ho.read]
    obtain ⟨h3, e1, e2, e3⟩ := write_buffer (hb.le hle) hlen
    refine Refines.step (hm_bind_ok e1) e2 ?_
    have hle3 := hle.trans e2
    have hb3 := hb.le hle3
    have hval : q.pq.val h3 = q.pq.val h1 := HPQ.val_le hsp hle3
    rw [← hval]
    have hproj : (q.pq.val h3).projection = q.pq.projection.map (HMat.val h3) := rfl
    cases hp : q.pq.projection with
    | none =>
      unfold HPQ.project
      rw [hproj, hp]
      exact Refines.pure ⟨rfl, e3⟩
    | some p =>
      have hrl := hw.pq.proj (p.val h3) (by
        show (q.pq.val h1).projection = _
        rw [← hval, hproj, hp]; rfl)
      unfold HPQ.project
      rw [hproj, hp]
      have hcont := hc (by rw [hp]; rfl)
      simp only [hcont, Bool.true_eq_false, if_false]
      refine Refines.step hm_look_bind (.refl _ _) ?_
      refine Refines.step hm_read_bind (.refl _ _) ?_
      rw [e3]
      obtain ⟨h4, f1, f2, f3⟩ := write_buffer hb3 (ys := projectRow (p.val h3) xs) (by
        unfold projectRow
        rw [List.length_map, hrl]
        unfold PQ.reconstructedLen HPQ.reconstructedLen HQArr.val HPQ.val
        simp)
      exact ⟨_, h4, hm_bind_ok f1, f2, rfl, f3⟩
  · rintro h2 _ b hle hbv ⟨rfl, hr⟩
    have hnorm : (q.val h1).norms = q.norms.map h1.read := rfl
    cases hn : q.norms with
    | none =>
      rw [hnorm, hn]
      exact Refines.pure ⟨rfl, hr⟩
    | some v =>
      rw [hnorm, hn]
      have hv : v ∈ q.views := by unfold HQArr.views; rw [hn]; simp
      refine Refines.step hm_read_bind (.refl _ _) ?_
      rw [hs.read hle hv]
      refine Refines.bind Refines.lift ?_
      rintro h3 n _ _ _ ⟨rfl, rfl⟩
      refine Refines.step hm_read_bind (.refl _ _) ?_
      rw [hr]
      have hb3 := hb.le hle
      obtain ⟨h4, f1, f2, f3⟩ := write_buffer hb3 (ys := scale n b) (by
        unfold scale
        rw [List.length_map, ← hr, read_length hb3.valid, hb3.len])
      exact ⟨_, h4, hm_bind_ok f1, f2, rfl, f3⟩

end

end FF
