import Verif.Lemmas.HeapExport
import Verif.Lemmas.B2EEmb
/-! `bucket_to_explicit` on the heap. -/

namespace FF

section
variable {K : Type} {P : Nat → Nat → Prop} {h h' : Heap K} {base : Nat}

/-- Assigning one row of a matrix. -/
theorem writeRow_owned {m : HMat} {rows : List (List K)} (ho : OwnedMat base h m rows) {j : Nat}
    {r : List Nat} (hj : m.rows[j]? = some r) {x y : List K} (hy : rows[j]? = some y)
    (hl : x.length = y.length) (hP : ∀ r ∈ m.rows, ∀ i ∈ r, P m.loc i) :
    ∃ h', HM.write ⟨m.loc, r⟩ x h = (.ok (), h') ∧ Heap.Le P h h' ∧
      OwnedMat base h' m (rows.set j x) := by
  obtain ⟨xs, hx, ho1⟩ := ho.row hj
  rw [hy] at hx
  cases hx
  have hrm : r ∈ m.rows := List.mem_of_getElem? hj
  obtain ⟨h1, e1, e2, e3⟩ := write_owned (P := View.cells ⟨m.loc, r⟩) ho1 hl (fun i hi => ⟨rfl, hi⟩)
  refine ⟨h1, e1, e2.mono ?_, ho.base, fun r hr => (ho.valid r hr).le e2, ho.nodup, ?_, ?_⟩
  · rintro l i _ ⟨rfl, hi⟩
    exact hP r hrm i hi
  · obtain ⟨b, hb, hw⟩ := ho.writable
    obtain ⟨b1, a1, a2, _⟩ := e2.buf _ _ hb
    exact ⟨b1, a1, a2.trans hw⟩
  · have hpw := (List.nodup_flatten.mp ho.nodup).2
    refine List.ext_getElem? fun t => ?_
    rw [List.getElem?_map, List.getElem?_set, ← ho.len]
    by_cases ht : j = t
    · subst ht
      have hlt := (List.getElem?_eq_some_iff.mp hj).1
      rw [hj, if_pos rfl, if_pos hlt]
      exact congrArg some e3.read
    · rw [if_neg ht, ← ho.read, List.getElem?_map]
      cases hrt : m.rows[t]? with
      | none => rfl
      | some r' =>
        show some _ = some _
        have hv' := ho.valid r' (List.mem_of_getElem? hrt)
        refine congrArg some (e2.read hv' ?_)
        rintro i hi ⟨_, hi'⟩
        obtain ⟨h1l, rfl⟩ := List.getElem?_eq_some_iff.mp hj
        obtain ⟨h2l, rfl⟩ := List.getElem?_eq_some_iff.mp hrt
        rcases Nat.lt_or_gt_of_ne ht with hlt | hlt
        · exact List.pairwise_iff_getElem.mp hpw j t h1l h2l hlt hi' hi
        · exact List.pairwise_iff_getElem.mp hpw t j h2l h1l hlt hi hi'

/-- Assigning the first rows of a matrix. -/
theorem writeTake_owned {m : HMat} {rows new : List (List K)} (ho : OwnedMat base h m rows) {n : Nat}
    (hlen : List.Forall₂ (fun a b => a.length = b.length) new (rows.take n))
    (hP : ∀ r ∈ m.rows, ∀ i ∈ r, P m.loc i) :
    ∃ h', HM.writeRows m.loc (m.rows.take n) new h = (.ok (), h') ∧ Heap.Le P h h' ∧
      OwnedMat base h' m (new ++ rows.drop n) := by
  have hsplit : m.rows.take n ++ m.rows.drop n = m.rows := List.take_append_drop n m.rows
  have hmap : ∀ l : List (List Nat), (∀ r ∈ l, r ∈ m.rows) → ∀ r ∈ l, View.Valid h ⟨m.loc, r⟩ :=
    fun l hl r hr => ho.valid r (hl r hr)
  have hnd : (m.rows.take n).flatten.Nodup ∧ (m.rows.drop n).flatten.Nodup ∧
      ∀ a ∈ (m.rows.take n).flatten, ∀ b ∈ (m.rows.drop n).flatten, a ≠ b := by
    have := ho.nodup
    rw [← hsplit, List.flatten_append] at this
    exact List.nodup_append.mp this
  have ho1 : OwnedMat base h ⟨m.loc, m.cols, m.rows.take n⟩ (rows.take n) :=
    ⟨ho.base, hmap _ fun r hr => List.mem_of_mem_take hr, hnd.1, ho.writable, by
      rw [← ho.read, List.map_take]⟩
  have ho2 : OwnedMat base h ⟨m.loc, m.cols, m.rows.drop n⟩ (rows.drop n) :=
    ⟨ho.base, hmap _ fun r hr => List.mem_of_mem_drop hr, hnd.2.1, ho.writable, by
      rw [← ho.read, List.map_drop]⟩
  obtain ⟨h1, e1, e2, e3⟩ := writeRows_owned (P := fun l i => l = m.loc ∧ i ∈ (m.rows.take n).flatten)
    ho1 hlen (fun r hr i hi => ⟨rfl, List.mem_flatten.mpr ⟨r, hr, hi⟩⟩)
  have ho3 := ho2.le e2 fun r hr i hi hc =>
    hnd.2.2 i hc.2 i (List.mem_flatten.mpr ⟨r, hr, hi⟩) rfl
  refine ⟨h1, e1, e2.mono ?_, ho.base, fun r hr => (ho.valid r hr).le e2, ho.nodup, e3.writable, ?_⟩
  · rintro l i _ ⟨rfl, hi⟩
    obtain ⟨r, hr, hir⟩ := List.mem_flatten.mp hi
    exact hP r (List.mem_of_mem_take hr) i hir
  · have := congrArg₂ (· ++ ·) e3.read ho3.read
    simp only [← List.map_append] at this
    rw [hsplit] at this
    exact this

/-- Assigning a wrong number of rows. -/
theorem writeRows_mismatch (loc : Nat) (iss : List (List Nat)) (new : List (List K)) (h : Heap K)
    (hl : new.length ≠ iss.length) (hP : ∀ r ∈ iss, ∀ i ∈ r, P loc i) :
    ∃ h', HM.writeRows loc iss new h = (.error .valueError, h') ∧ Heap.Le P h h' := by
  induction iss generalizing new h with
  | nil =>
    cases new with
    | nil => exact absurd rfl hl
    | cons r rs => exact ⟨h, rfl, .refl _ _⟩
  | cons is iss ih =>
    cases new with
    | nil => exact ⟨h, rfl, .refl _ _⟩
    | cons r rs =>
      have hw : ∀ x h1, HM.write ⟨loc, is⟩ r h = (.error x, h1) → x = .valueError := by
        intro x h1 hx
        unfold HM.write at hx
        split at hx
        · cases hx; rfl
        · split at hx
          · split at hx
            · rename_i e he
              cases hx
              unfold assignRow at he
              split at he
              · cases he
              · split at he
                · cases he
                · cases he; rfl
            · cases hx
          · cases hx; rfl
      unfold HM.writeRows
      cases hx : HM.write ⟨loc, is⟩ r h with
      | mk x h1 =>
        have hle : Heap.Le P h h1 := write_le hx (hP is (by simp))
        cases x with
        | error x =>
          rw [hw x h1 hx] at hx
          exact ⟨h1, hm_bind_error hx, hle⟩
        | ok u =>
          rw [hm_bind_ok hx]
          obtain ⟨h2, e1, e2⟩ := ih rs h1 (by simpa using hl)
            (fun r hr => hP r (List.mem_cons_of_mem _ hr))
          exact ⟨h2, e1, hle.trans e2⟩

end

section
variable {K : Type} [NumOps K] {P : Nat → Nat → Prop} {h h' : Heap K} {base : Nat}

theorem toArray_lengths {s : Storage K} (hs : StorageWF s) {rows : List (List K)}
    (h : s.toArray = .ok rows) : ∀ r ∈ rows, r.length = s.nCols := by
  intro r hr
  have h2 := mapRes_ok.mp ((toArray_ok hs).mp h)
  obtain ⟨t, ht, rfl⟩ := List.getElem_of_mem hr
  exact getOne_length hs ((List.forall₂_iff_get.mp h2).2 t (by rw [h2.length_eq]; exact ht) ht)

/-- The loop over the n-grams. -/
theorem b2eLoop_refines {E : HEmb} (ix : Indexer) (eix : ExplIndexer) (n : Nat) (new : HMat)
    (e : Embeddings K) (hw : StorageWF e.storage) :
    ∀ (gs : List PyStr) (rows : List (List K)) (h : Heap K), Frame P base h →
      E.storage.val h = e.storage → Safe P h E.storage.views → OwnedMat base h new rows →
      (∀ r ∈ rows, r.length = e.storage.nCols) →
      Refines P h (E.b2eLoop ix eix n new gs) (foldRes (b2eRow e ix eix n) rows gs)
        (fun h' _ b => OwnedMat base h' new b) := by
  intro gs
  induction gs with
  | nil => intro rows h _ _ _ ho _; exact Refines.pure ho
  | cons g gs ih =>
    intro rows h hf hval hs ho hl
    unfold HEmb.b2eLoop foldRes b2eRow
    cases hg : Dict.get? eix.index g with
    | none => exact Refines.fail
    | some k =>
      dsimp only
      rw [bind_assoc]
      refine Refines.bind (Refines.lift (r := ix.call g)) ?_
      rintro h1 i _ _ _ ⟨rfl, rfl⟩
      cases i with
      | none => exact Refines.fail
      | some i =>
        dsimp only
        rw [bind_assoc]
        have hv : Valids h1 E.storage.views := fun v hv => (hs v hv).1
        have hone := getOne_refines (frame_new h1) hv.new (by rw [hval]; exact hw) ((n : Int) + i)
        rw [hval] at hone
        refine Refines.bind (hone.never.mono (R' := fun h' a b =>
          h'.read a = b ∧ Heap.Le Never h1 h') fun h' a b hle _ hr => ⟨hr.read, hle⟩).any ?_
        rintro h2 row x - hx ⟨hread, hle⟩
        have ho2 := ho.le hle fun _ _ _ _ h => h
        have hle' : Heap.Le P h1 h2 := hle.mono fun _ _ _ h => h.elim
        have hxl : x.length = e.storage.nCols := getOne_length hw hx
        have hset : Refines P h2 (HM.lift (npGet new.rows ((n : Int) + k)) >>= fun dst =>
              HM.read row >>= fun y => HM.write ⟨new.loc, dst⟩ y)
            (npSet rows ((n : Int) + k) x)
            (fun h' _ b => OwnedMat base h' new b ∧ ∀ r ∈ b, r.length = e.storage.nCols) := by
          unfold npSet
          rw [← ho2.len]
          cases hj : npIndex new.rows.length ((n : Int) + k) with
          | error er =>
            refine ⟨.error er, h2, hm_bind_error ?_, .refl _ _, rfl⟩
            unfold npGet
            rw [hj]
            rfl
          | ok j =>
            have hjl : j < new.rows.length := (npIndex_ok.mp hj).1
            obtain ⟨r, hr⟩ : ∃ r, new.rows[j]? = some r := ⟨_, List.getElem?_eq_getElem hjl⟩
            obtain ⟨y, hy, _⟩ := ho2.row hr
            have hyl := hl y (List.mem_of_getElem? hy)
            obtain ⟨h3, w1, w2, w3⟩ := writeRow_owned (x := x) ho2 hr hy (hxl.trans hyl.symm)
              ((hf.le hle').matCells ho2)
            refine ⟨.ok (), h3, ?_, w2, w3, fun r' hr' => ?_⟩
            · refine (hm_bind_ok (a := r) (h' := h2) ?_).trans ?_
              · rw [npGet_ok.mpr ⟨j, hj, hr⟩]
                rfl
              · refine hm_read_bind.trans ?_
                rw [hread]
                exact w1
            · rcases List.mem_or_eq_of_mem_set hr' with h4 | rfl
              · exact hl r' h4
              · exact hxl
        have hrest := Refines.bind hset (f := fun _ => E.b2eLoop ix eix n new gs)
          (g := fun rs => foldRes (b2eRow e ix eix n) rs gs) (R' := fun h' _ b => OwnedMat base h' new b)
          fun h3 _ rows' hle3 _ hr3 => ih rows' h3 ((hf.le hle').le hle3)
            (by rw [HStorage.val_le (hs.le hle') hle3, HStorage.val_le hs hle', hval])
            ((hs.le hle').le hle3) hr3.1 hr3.2
        rw [bind_assoc] at hrest
        simp only [bind_assoc] at hrest ⊢
        exact hrest

/-- embeddings.py:434-469: the new embeddings are those of the value model, the storage is a fresh
array, and the norms are those of the source. -/
theorem b2e_refines {E : HEmb} (hE : E.OK h)
    (hub : ∀ v', E.vocab.toExplicit = .ok v' → (v'.len : Int) ≤ v'.upperBound) :
    Refines Never h E.bucketToExplicit (E.val h).bucketToExplicit
      (fun h' a b => a.val h' = b ∧ a.norms = E.norms ∧ Valids h' a.views ∧
        ∀ v ∈ a.storage.views, h.length ≤ v.loc) := by
  apply Refines.never
  have hf := frame_new h
  have hsv : Safe (New h.length) h E.storage.views :=
    Valids.new fun v hv => hE.valid v (List.mem_append_left _ hv)
  have hnv : Safe (New h.length) h E.norms.toList :=
    Valids.new fun v hv => hE.valid v (List.mem_append_right _ hv)
  unfold HEmb.bucketToExplicit Embeddings.bucketToExplicit
  have main : ∀ ix, Refines (New h.length) h (do
    let vocab ← HM.lift E.vocab.toExplicit
    match vocab.sub with
    | some (.expl eix) => do
      let cols := E.storage.nCols
      let n := vocab.len
      let _ ← HM.lift (zerosShape vocab.upperBound cols)
      let new ← HM.allocMat cols
        (List.replicate vocab.upperBound.toNat (List.replicate cols (NumOps.zero : K)))
      let known ← E.storage.slice (.upTo n)
      let known ← known.toArray
      let rows ← HM.look fun h => (known.val h).rows
      HM.writeRows new.loc (new.rows.take n) rows
      HEmb.b2eLoop E ix eix n new eix.ngrams
      let e ← HM.look fun h => (HMat.val h new, E.norms.map h.read)
      let _ ← HM.lift (Embeddings.new (.nd e.1) vocab e.2 none)
      return (⟨.nd new, vocab, E.norms, none⟩ : HEmb)
    | _ => HM.fail .attributeError) (do
    let vocab ← (E.val h).vocab.toExplicit
    match vocab.sub with
    | some (.expl eix) => do
      let cols := (E.val h).storage.nCols
      let n := vocab.len
      let _ ← zerosShape vocab.upperBound cols
      let zero := List.replicate vocab.upperBound.toNat (List.replicate cols NumOps.zero)
      let known ← (E.val h).storage.slice (.upTo n)
      let known ← known.toArray
      if known.length ≠ n then .error .valueError
      let rows := known ++ zero.drop n
      let rows ← foldRes (b2eRow (E.val h) ix eix n) rows eix.ngrams
      Embeddings.new (.nd ⟨cols, rows⟩) vocab (E.val h).norms none
    | _ => .error .attributeError) (fun h' a b => a.val h' = b ∧ a.norms = E.norms ∧ Valids h' a.views ∧
        ∀ v ∈ a.storage.views, h.length ≤ v.loc) := by
    intro ix
    refine Refines.bind (Refines.lift (r := E.vocab.toExplicit)) ?_
    rintro h0 v' _ _ hv' ⟨rfl, rfl⟩
    have hub' := hub v' hv'
    dsimp only
    split
    swap
    · exact Refines.fail
    rename_i eix hsub
    have hnc : (E.val h0).storage.nCols = E.storage.nCols := nCols_val E.storage
    refine Refines.bind (R := fun h' _ _ => h' = h0)
      (Refines.lift' (fun a ha => ⟨a, by rw [hnc]; exact ha, rfl⟩) (fun x hx => by rw [hnc]; exact hx)) ?_
    rintro h0 _ _ _ _ rfl
    obtain ⟨_ | new, h1, hal, hle1, hx⟩ := Refines.allocMat hf E.storage.nCols
      (List.replicate v'.upperBound.toNat (List.replicate E.storage.nCols (NumOps.zero : K)))
    · exact hx.elim
    obtain ⟨hcols, ho⟩ := hx
    refine Refines.step (hm_bind_ok hal) hle1 ?_
    have hval1 : E.storage.val h1 = (E.val h0).storage := HStorage.val_le hsv hle1
    have hsl := slice_refines (hsv.le hle1) (.upTo v'.len)
    rw [hval1] at hsl
    refine Refines.bind hsl ?_
    rintro h1' known s' _ hslice ⟨rfl, hkv, hks⟩
    have hswf := slice_wf hE.shape hslice
    have hta := toArray_refines (frame_new h1') (s := known) (Valids.new fun v hv => (hks v hv).1)
      (by rw [hkv]; exact hswf)
    rw [hkv] at hta
    refine Refines.bind (hta.never.mono (R' := fun h' a b => (a.val h').rows = b ∧ Heap.Le Never h1' h')
      fun h' a b hle _ hr => ⟨hr, hle⟩).any ?_
    rintro h2 kn rowsK - harr ⟨hrows, hle2⟩
    have ho2 := ho.le hle2 fun _ _ _ _ h => h
    have hle2' : Heap.Le (New h0.length) h1' h2 := hle2.mono fun _ _ _ h => h.elim
    have hf2 := (hf.le hle1).le hle2'
    refine Refines.step (hm_look_bind) (.refl _ _) ?_
    rw [hrows]
    have hlenK : ∀ r ∈ rowsK, r.length = E.storage.nCols := by
      intro r hr
      obtain ⟨s1, is, q1, _, _, _, q2, _⟩ := slice_ok (sl := PySlice.upTo v'.len) hE.shape (fun h => by cases h)
      rw [hslice] at q1
      cases q1
      rw [toArray_lengths hswf harr r hr, q2]
      exact nCols_val E.storage
    by_cases hk : rowsK.length = v'.len
    swap
    · obtain ⟨h3, w1, w2⟩ := writeRows_mismatch (P := New h0.length) new.loc (new.rows.take v'.len)
        rowsK h2 (by rw [List.length_take, ho2.len, List.length_replicate]; omega)
        (fun r hr => hf2.matCells ho2 r (List.mem_of_mem_take hr))
      rw [if_pos hk]
      exact ⟨_, h3, hm_bind_error w1, w2, rfl⟩
    rw [if_neg (by simpa using hk)]
    obtain ⟨h3, w1, w2, w3⟩ := writeTake_owned (new := rowsK) (n := v'.len) ho2
      (List.forall₂_iff_get.mpr ⟨by
        rw [List.length_take, List.length_replicate]; omega, fun t h4 h5 => by
        rw [hlenK _ (List.get_mem _ _)]
        simp⟩) (hf2.matCells ho2)
    refine Refines.step (hm_bind_ok w1) w2 ?_
    have hsv3 := ((hsv.le hle1).le hle2').le w2
    have hval3 : E.storage.val h3 = (E.val h0).storage := by
      rw [HStorage.val_le ((hsv.le hle1).le hle2') w2, HStorage.val_le (hsv.le hle1) hle2', hval1]
    have hcol : (E.val h0).storage.nCols = E.storage.nCols := nCols_val E.storage
    rw [hcol]
    refine Refines.bind (b2eLoop_refines (E := E) ix eix v'.len new (E.val h0) hE.shape eix.ngrams _ h3
      (hf2.le w2) hval3 hsv3 w3 (fun r hr => ?_)) ?_
    · rw [hcol]
      rcases List.mem_append.mp hr with h4 | h4
      · exact hlenK r h4
      · rw [List.eq_of_mem_replicate (List.mem_of_mem_drop h4), List.length_replicate]
    rintro h4 _ rows hle4 _ ho4
    refine Refines.step hm_look_bind (.refl _ _) ?_
    have hnr : E.norms.map h4.read = (E.val h0).norms := by
      show _ = E.norms.map h0.read
      cases hn : E.norms with
      | none => rfl
      | some v =>
        have hall : Heap.Le (New h0.length) h0 h4 := ((hle1.trans hle2').trans w2).trans hle4
        exact congrArg some (hnv.read hall (by rw [hn]; simp))
    rw [hnr, ho4.val, hcols]
    refine Refines.last Refines.lift ?_
    rintro h5 _ b _ hb ⟨rfl, rfl⟩
    refine Refines.pure ⟨?_, rfl, ?_, ?_⟩
    · rw [(embNew_iff.mp hb).1]
      show (⟨.nd (new.val h5), v', E.norms.map h5.read, none⟩ : Embeddings K) = _
      rw [hnr, ho4.val, hcols]
    · intro v hv
      rcases List.mem_append.mp hv with hv | hv
      · exact ho4.safe v hv
      · exact (hnv v hv).1.le (((hle1.trans hle2').trans w2).trans hle4)
    · intro v hv
      obtain ⟨r, _, rfl⟩ := List.mem_map.mp hv
      exact ho4.base
  have hvoc : (E.val h).vocab.sub = E.vocab.sub := rfl
  rw [hvoc]
  cases E.vocab.sub with
  | none => exact Refines.fail
  | some ix =>
    cases ix with
    | expl x => exact Refines.fail
    | fifu x => exact main (.fifu x)
    | ft x => exact main (.ft x)

end

end FF
