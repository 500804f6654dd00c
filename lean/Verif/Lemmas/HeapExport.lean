import Verif.Lemmas.HeapOut
import Verif.Lemmas.WriteOk
/-! Exports on the heap write what the value model writes. -/

namespace FF

section
variable {K α β γ δ : Type} {P : Nat → Nat → Prop} {h : Heap K} {bs : Bytes}

theorem hw_bind (m : HW K α) (f : α → HW K β) (s : Heap K × Bytes) :
    (m >>= f) s = match m s with
      | (.ok a, s') => f a s'
      | (.error x, s') => (.error x, s') := by
  show (ExceptT.bind m f) s = _
  simp only [ExceptT.bind, ExceptT.mk]
  show (StateT.bind m (ExceptT.bindCont f)) s = _
  unfold StateT.bind
  show (match m s with | (a, s') => ExceptT.bindCont f a s') = _
  cases hm : m s with
  | mk r s =>
    cases r with
    | ok a => rfl
    | error x => rfl

theorem hw_bind_ok {m : HW K α} {f : α → HW K β} {a : α} {s s' : Heap K × Bytes}
    (hm : m s = (.ok a, s')) : (m >>= f) s = f a s' := by rw [hw_bind, hm]

theorem hw_bind_error {m : HW K α} {f : α → HW K β} {x : PyErr} {s s' : Heap K × Bytes}
    (hm : m s = (.error x, s')) : (m >>= f) s = (.error x, s') := by rw [hw_bind, hm]

/-- Run on `h` with the bytes `bs` written so far, `m` writes the same bytes as `w`, raises the same
exception or returns something related, and changes only cells in `P`. -/
def WRefines (P : Nat → Nat → Prop) (h : Heap K) (bs : Bytes) (m : HW K α) (w : Wr β)
    (R : Heap K → α → β → Prop) : Prop :=
  ∃ x h' y bs', m (h, bs) = (x, (h', bs')) ∧ w bs = (y, bs') ∧ Heap.Le P h h' ∧
    match x, y with
    | .ok a, .ok b => R h' a b
    | .error x, .error y => x = y
    | _, _ => False

theorem WRefines.bind {m : HW K α} {w : Wr β} {R : Heap K → α → β → Prop} {f : α → HW K γ}
    {g : β → Wr δ} {R' : Heap K → γ → δ → Prop} (h1 : WRefines P h bs m w R)
    (h2 : ∀ h' bs' a b, Heap.Le P h h' → R h' a b → WRefines P h' bs' (f a) (g b) R') :
    WRefines P h bs (m >>= f) (w >>= g) R' := by
  obtain ⟨x, h', y, bs', hm, hw, hle, hx⟩ := h1
  match x, y, hx with
  | .ok a, .ok b, hx =>
    obtain ⟨x2, h'', y2, bs'', hm2, hw2, hle', hr⟩ := h2 h' bs' a b hle hx
    refine ⟨x2, h'', y2, bs'', (hw_bind_ok hm).trans hm2, ?_, hle.trans hle', hr⟩
    rw [wr_bind, hw]
    exact hw2
  | .error x, .error y, hx =>
    cases hx
    refine ⟨.error x, h', .error x, bs', hw_bind_error hm, ?_, hle, rfl⟩
    rw [wr_bind, hw]

theorem WRefines.heap {m : HM K α} {r : Res β} {R : Heap K → α → β → Prop}
    (h1 : Refines P h m r R) : WRefines P h bs (HW.heap m) (Wr.lift r) R := by
  obtain ⟨x, h', hm, hle, hx⟩ := h1
  refine ⟨x, h', r, bs, ?_, rfl, hle, hx⟩
  unfold HW.heap
  rw [hm]

theorem WRefines.step {m : HM K α} {a : α} {h' : Heap K} {f : α → HW K γ} {w : Wr δ}
    {R : Heap K → γ → δ → Prop} (hm : m h = (.ok a, h')) (hle : Heap.Le P h h')
    (h1 : WRefines P h' bs (f a) w R) : WRefines P h bs (HW.heap m >>= f) w R := by
  obtain ⟨x, h'', y, bs', e1, e2, e3, e4⟩ := h1
  refine ⟨x, h'', y, bs', ?_, e2, hle.trans e3, e4⟩
  refine (hw_bind_ok (a := a) (s' := (h', bs)) ?_).trans e1
  unfold HW.heap
  rw [hm]

theorem WRefines.file {w : Wr α} :
    WRefines P h bs (HW.file w) w (fun h' a b => a = b ∧ h' = h) := by
  cases hw : w bs with
  | mk y bs' =>
    refine ⟨y, h, y, bs', ?_, hw, .refl _ _, ?_⟩
    · unfold HW.file
      rw [hw]
    · cases y with
      | ok a => exact ⟨rfl, rfl⟩
      | error x => exact rfl

theorem WRefines.pure {a : α} {b : β} {R : Heap K → α → β → Prop} (hr : R h a b) :
    WRefines P h bs (pure a) (pure b) R := ⟨.ok a, h, .ok b, bs, rfl, rfl, .refl _ _, hr⟩

theorem WRefines.fileUnit {w : Wr Unit} {f : Unit → HW K γ} {g : Unit → Wr δ}
    {R : Heap K → γ → δ → Prop} (h2 : ∀ bs', WRefines P h bs' (f ()) (g ()) R) :
    WRefines P h bs (HW.file w >>= f) (w >>= g) R := by
  refine WRefines.bind WRefines.file ?_
  rintro h' bs' _ _ _ ⟨rfl, rfl⟩
  exact h2 bs'

end

section
variable {K : Type} [NumOps K] {h : Heap K} {bs : Bytes}

theorem exportRow_refines {s : HStorage} (hv : Valids h s.views) (hw : StorageWF (s.val h))
    {norms : Option View} (hn : Valids h norms.toList) (idx : Nat) :
    Refines Never h (exportRowH s norms idx) (exportRow (s.val h) (norms.map h.read) idx)
      (fun h' a b => h'.read a = b) := by
  unfold exportRowH exportRow
  refine Refines.bind (getOne_refines (frame_new h) hv.new hw idx).never ?_
  intro h1 row x hle _ hg
  cases norms with
  | none => exact Refines.pure hg.read
  | some ns =>
    refine Refines.step hm_read_bind (.refl _ _) ?_
    rw [hn.never.read hle (by simp)]
    refine Refines.bind Refines.lift ?_
    rintro h3 n _ _ _ ⟨rfl, rfl⟩
    refine Refines.step hm_read_bind (.refl _ _) ?_
    rw [hg.read]
    exact ((Refines.alloc (frame_new h3) _).mono fun _ _ _ _ _ ho => ho.read).never

theorem w2vWriteRows_refines [Codec K] {s : HStorage} {norms : Option View} :
    ∀ (words : List PyStr) (idx : Nat) (h : Heap K) (bs : Bytes), Valids h s.views →
      StorageWF (s.val h) → Valids h norms.toList →
      WRefines Never h bs (w2vWriteRowsH s norms idx words)
        (w2vWriteRows (s.val h) (norms.map h.read) idx words) (fun _ _ _ => True) := by
  intro words
  induction words with
  | nil => intro idx h bs _ _ _; exact WRefines.pure trivial
  | cons word words ih =>
    intro idx h bs hv hw hn
    unfold w2vWriteRowsH w2vWriteRows
    refine WRefines.bind (WRefines.heap (exportRow_refines hv hw hn idx)) ?_
    intro h1 bs1 row x hle hr
    have hval : s.val h1 = s.val h := HStorage.val_le hv.never hle
    have hnorm : norms.map h1.read = norms.map h.read := by
      cases norms with
      | none => rfl
      | some ns => show some _ = some _; rw [hn.never.read hle (by simp)]
    refine WRefines.bind WRefines.file ?_
    rintro h2 bs2 b _ _ ⟨rfl, rfl⟩
    refine WRefines.fileUnit fun bs3 => WRefines.fileUnit fun bs4 => ?_
    refine WRefines.step (m := HM.read row) (a := x) (by rw [← hr]; rfl) (.refl _ _) ?_
    refine WRefines.fileUnit fun bs5 => WRefines.fileUnit fun bs6 => ?_
    have := ih (idx + 1) h2 bs6 (hv.le hle) (by rw [hval]; exact hw) (hn.le hle)
    rw [hval, hnorm] at this
    exact this

omit [NumOps K] in
theorem nRows_val (s : HStorage) : (s.val h).nRows = s.nRows := by
  cases s with
  | nd m => show (m.rows.map _).length = _; rw [List.length_map]; rfl
  | quant q => rfl

theorem slice_wf {s s' : Storage K} (hs : StorageWF s) {sl : PySlice} (h : s.slice sl = .ok s') :
    StorageWF s' := by
  by_cases h0 : sl.step = some 0
  · rw [slice_zero h0] at h
    cases h
  · obtain ⟨s1, is, h1, _, h2, _⟩ := slice_ok hs h0
    rw [h1] at h
    cases h
    exact h2

omit [NumOps K] in
theorem norms_toList {E : HEmb} (hv : Valids h E.views) : Valids h E.norms.toList :=
  fun v hm => hv v (List.mem_append_right _ hm)

/-- `write_word2vec` -/
theorem writeWord2vec_refines [Codec K] {E : HEmb} (hE : E.OK h) :
    WRefines Never h bs (writeWord2vecH E) (writeWord2vec (E.val h)) (fun _ _ _ => True) := by
  unfold writeWord2vecH writeWord2vec
  have hsl := slice_refines (P := Never) (s := E.storage) (storageValids hE.valid).never (.upTo E.vocab.len)
  refine WRefines.bind (WRefines.heap (hsl.mono (R' := fun h' a b => h' = h ∧ a.val h = b ∧
    Valids h a.views ∧ StorageWF b) ?_)) ?_
  · rintro h1 a b _ hb ⟨h2, h3, h4⟩
    exact ⟨h2, h3, fun v hm => (h4 v hm).1, slice_wf hE.shape hb⟩
  rintro h1 bs1 m _ _ ⟨rfl, rfl, hm, hw⟩
  rw [nRows_val, nCols_val]
  refine WRefines.fileUnit fun bs2 => ?_
  exact w2vWriteRows_refines _ _ _ _ hm hw (norms_toList hE.valid)

theorem textWriteRows_refines [NumText K] {s : HStorage} {norms : Option View} (sep : PyStr) :
    ∀ (words : List PyStr) (idx : Nat) (h : Heap K) (bs : Bytes), Valids h s.views →
      StorageWF (s.val h) → Valids h norms.toList →
      WRefines Never h bs (textWriteRowsH s norms sep idx words)
        (textWriteRows (s.val h) (norms.map h.read) sep idx words) (fun _ _ _ => True) := by
  intro words
  induction words with
  | nil => intro idx h bs _ _ _; exact WRefines.pure trivial
  | cons word words ih =>
    intro idx h bs hv hw hn
    unfold textWriteRowsH textWriteRows
    refine WRefines.bind (WRefines.heap (exportRow_refines hv hw hn idx)) ?_
    intro h1 bs1 row x hle hr
    have hval : s.val h1 = s.val h := HStorage.val_le hv.never hle
    have hnorm : norms.map h1.read = norms.map h.read := by
      cases norms with
      | none => rfl
      | some ns => show some _ = some _; rw [hn.never.read hle (by simp)]
    refine WRefines.step (m := HM.read row) (a := x) (by rw [← hr]; rfl) (.refl _ _) ?_
    refine WRefines.fileUnit fun bs3 => WRefines.fileUnit fun bs4 => ?_
    refine WRefines.fileUnit fun bs5 => WRefines.fileUnit fun bs6 => ?_
    have := ih (idx + 1) h1 bs6 (hv.le hle) (by rw [hval]; exact hw) (hn.le hle)
    rw [hval, hnorm] at this
    exact this

/-- `_write_text` -/
theorem writeText_refines [NumText K] {E : HEmb} (hE : E.OK h) (dims : Bool) (sep : PyStr) :
    WRefines Never h bs (writeTextH dims E sep) (writeText dims (E.val h) sep)
      (fun _ _ _ => True) := by
  unfold writeTextH writeText
  have hsl := slice_refines (P := Never) (s := E.storage) (storageValids hE.valid).never (.upTo E.vocab.len)
  refine WRefines.bind (WRefines.heap (hsl.mono (R' := fun h' a b => h' = h ∧ a.val h = b ∧
    Valids h a.views ∧ StorageWF b) ?_)) ?_
  · rintro h1 a b _ hb ⟨h2, h3, h4⟩
    exact ⟨h2, h3, fun v hm => (h4 v hm).1, slice_wf hE.shape hb⟩
  rintro h1 bs1 m _ _ ⟨rfl, rfl, hm, hw⟩
  have rest := fun bs => textWriteRows_refines sep E.vocab.words 0 h1 bs hm hw (norms_toList hE.valid)
  cases dims with
  | false => exact rest _
  | true =>
    rw [nRows_val, nCols_val]
    exact WRefines.fileUnit fun bs2 => rest bs2

/-! ### fastText -/

theorem applyNorm_refines {P : Nat → Nat → Prop} {base : Nat} (hf : Frame P base h)
    {norms : Option View} (hn : Safe P h norms.toList) {o : View} {x : List K}
    (ho : Owned base h o x) (i : Nat) :
    Refines P h (applyNormH norms i o) (applyNorm (norms.map h.read) i x)
      (fun h' _ b => Owned base h' o b ∧ b.length = x.length) := by
  unfold applyNormH applyNorm
  cases norms with
  | none => exact Refines.pure ⟨ho, rfl⟩
  | some ns =>
    refine Refines.step hm_read_bind (.refl _ _) ?_
    refine Refines.bind Refines.lift ?_
    rintro h3 n _ _ _ ⟨rfl, rfl⟩
    refine Refines.step hm_read_bind (.refl _ _) ?_
    rw [ho.read]
    obtain ⟨h4, e1, e2, e3⟩ := write_owned (ys := x.map fun y => NumOps.mul y n) ho
      (List.length_map ..) (hf.cells ho)
    exact ⟨_, h4, e1, e2, e3, List.length_map ..⟩

theorem ftWordRow_refines {E : HEmb} (hE : E.OK h) (ix : Indexer) (i : Nat) (w : PyStr) :
    Refines Never h (ftWordRowH E ix i w) (ftWordRow (E.val h) ix i w)
      (fun h' a b => h'.read a = b) := by
  have hs := hE.valid.new
  have hss : Safe (New h.length) h E.storage.views := (storageValids hE.valid).new
  have hf := frame_new h
  apply Refines.never
  unfold ftWordRowH ftWordRow
  refine Refines.bind (Refines.lift (r := E.vocab.subwordIndices ix w)) ?_
  rintro h1 indices _ _ _ ⟨rfl, rfl⟩
  refine Refines.bind (getOne_refines hf hss hE.shape i) ?_
  intro h2 row x hle2 hx hg
  have hxl := getOne_length hE.shape hx
  refine Refines.step hm_read_bind (.refl _ _) ?_
  rw [hg.read]
  refine Refines.step (hm_bind_ok rfl) (le_append _ _ _) ?_
  have ho := alloc_owned (hf.le hle2).len (x.map fun y => NumOps.mul y (NumOps.ofNat (indices.length + 1)))
  have hle3 := hle2.trans (le_append (New h1.length) h2
    ⟨x.map fun y => NumOps.mul y (NumOps.ofNat (indices.length + 1)), true⟩)
  generalize h2 ++ [⟨x.map fun y => NumOps.mul y (NumOps.ofNat (indices.length + 1)), true⟩] = h3 at *
  have hnorm : (E.val h1).norms = E.norms.map h3.read := by
    cases hn : E.norms with
    | none => exact norms_none hn
    | some v =>
      rw [norms_read hn]
      show some _ = some _
      rw [hs.read hle3 (norms_mem hn)]
  rw [hnorm]
  have hsn : Safe (New h1.length) h3 E.norms.toList :=
    (hs.le hle3).mono fun v hm => List.mem_append_right _ hm
  refine Refines.bind (applyNorm_refines (hf.le hle3) hsn ho i) ?_
  rintro h4 _ embed hle4 _ ⟨ho4, hl4⟩
  have hle4' := hle3.trans hle4
  have hval4 : E.storage.val h4 = E.storage.val h1 := HStorage.val_le hss hle4'
  have hmany := getMany_refines (frame_new h4) ((storageValids hE.valid).le hle4').new
    (by rw [hval4]; exact hE.shape) indices
  rw [hval4] at hmany
  have hmany' : Refines (New h1.length) h4 (E.storage.getMany indices)
      ((HStorage.val h1 E.storage).getMany indices)
      (fun h' a b => (a.cols = E.storage.nCols ∧ OwnedMat h4.length h' a b) ∧
        Heap.Le Never h4 h') :=
    (hmany.never.mono fun h' a b hl _ hr => And.intro hr hl).any
  refine Refines.bind hmany' ?_
  rintro h5 sw rows hle5 hrows ⟨⟨hcols, hom⟩, hnev⟩
  have ho5 := ho4.le hnev fun _ _ h => h
  refine Refines.step hm_look_bind (.refl _ _) ?_
  refine Refines.step hm_read_bind (.refl _ _) ?_
  have hc : (E.val h1).storage.nCols = E.storage.nCols := nCols_val _
  rw [hom.val, hcols, ho5.read, hc]
  obtain ⟨h6, e1, e2, e3⟩ := write_owned (ys := vsub embed (addReduce E.storage.nCols rows)) ho5 (by
    have hal : (addReduce E.storage.nCols rows).length = E.storage.nCols := by
      rw [← hc]
      exact addReduce_length hE.shape hrows
    unfold vsub
    rw [List.length_zipWith, hal, hl4, List.length_map, hxl]
    have : (HStorage.val h1 E.storage).nCols = E.storage.nCols := nCols_val _
    rw [show (E.val h1).storage.nCols = E.storage.nCols from hc]
    simp) ((hf.le (hle4'.trans hle5)).cells ho5)
  exact ⟨_, h6, hm_bind_ok e1, e2, e3.read⟩

theorem ftWriteRows_refines [Codec K] {E : HEmb} (ix : Indexer) :
    ∀ (words : List PyStr) (idx : Nat) (h : Heap K) (bs : Bytes), E.OK h →
      WRefines Never h bs (ftWriteRowsH E ix idx words) (ftWriteRows (E.val h) ix idx words)
        (fun h' _ _ => Heap.Le Never h h') := by
  intro words
  induction words with
  | nil => intro idx h bs _; exact WRefines.pure (.refl _ _)
  | cons word words ih =>
    intro idx h bs hE
    unfold ftWriteRowsH ftWriteRows
    refine WRefines.bind (WRefines.heap (ftWordRow_refines hE ix idx word)) ?_
    intro h1 bs1 row x hle hr
    have hval : E.val h1 = E.val h := HEmb.val_le hE.valid.never hle
    refine WRefines.step (m := HM.read row) (a := x) (by rw [← hr]; rfl) (.refl _ _) ?_
    refine WRefines.fileUnit fun bs3 => ?_
    have := ih (idx + 1) h1 bs3 ⟨hE.valid.le hle, by rw [hval]; exact hE.shape⟩
    rw [hval] at this
    obtain ⟨x, h', y, bs', e1, e2, e3, e4⟩ := this
    refine ⟨x, h', y, bs', e1, e2, e3, ?_⟩
    match x, y, e4 with
    | .ok _, .ok _, e4 => exact hle.trans e3
    | .error _, .error _, e4 => exact e4

/-- `write_fasttext` -/
theorem writeFasttext_refines [Codec K] {E : HEmb} (hE : E.OK h) :
    WRefines Never h bs (writeFasttextH E) (writeFasttext (E.val h)) (fun _ _ _ => True) := by
  unfold writeFasttextH writeFasttext
  show WRefines Never h bs (match E.vocab.sub with | some (.ft ix) => _ | _ => _)
    (match E.vocab.sub with | some (.ft ix) => _ | _ => _) _
  have hfail : WRefines Never h bs (HW.file (Wr.fail (α := Unit) .valueError)) (Wr.fail .valueError)
      (fun _ (_ : Unit) (_ : Unit) => True) :=
    ⟨.error .valueError, h, .error .valueError, bs, rfl, rfl, .refl _ _, rfl⟩
  cases hsub : E.vocab.sub with
  | none => exact hfail
  | some ix =>
    cases ix with
    | fifu ix => exact hfail
    | expl ix => exact hfail
    | ft ix =>
      have hr : (E.val h).storage.nRows = E.storage.nRows := nRows_val _
      have hc : (E.val h).storage.nCols = E.storage.nCols := nCols_val _
      dsimp only
      rw [hr, hc]
      refine WRefines.fileUnit fun bs1 => WRefines.fileUnit fun bs2 => ?_
      refine WRefines.fileUnit fun bs3 => WRefines.fileUnit fun bs4 => ?_
      refine WRefines.bind (ftWriteRows_refines (.ft ix) _ _ _ _ hE) ?_
      intro h1 bs5 _ _ hle _
      have hval : E.storage.val h1 = (E.val h).storage :=
        HStorage.val_le (storageValids hE.valid).never hle
      have hsl := slice_refines (P := Never) (s := E.storage)
        ((storageValids hE.valid).le hle).never ⟨some E.vocab.len, none, none⟩
      rw [hval] at hsl
      refine WRefines.bind (WRefines.heap hsl) ?_
      rintro h2 bs6 rest _ _ ⟨rfl, rfl, _⟩
      refine WRefines.step (m := HM.look rest.val) rfl (.refl _ _) ?_
      refine WRefines.fileUnit fun bs7 => ?_
      refine WRefines.step (m := HM.look E.storage.val) (a := (E.val h).storage)
        (by rw [← hval]; rfl) (.refl _ _) ?_
      obtain ⟨x, h', y, bs', e1, e2, e3, e4⟩ :=
        WRefines.file (P := Never) (h := h2) (bs := bs7) (w := writeRaw (E.val h).storage)
      refine ⟨x, h', y, bs', e1, e2, e3, ?_⟩
      match x, y, e4 with
      | .ok _, .ok _, e4 => trivial
      | .error _, .error _, e4 => exact e4

end

/-- `Embeddings.write` -/
theorem write_refines {h : Heap F32} {bs : Bytes} (T : Toml) (E : HEmb) :
    WRefines Never h bs (E.write T) ((E.val h).write T) (fun h' a b => a = b ∧ h' = h) :=
  WRefines.step (m := HM.look E.val) rfl (.refl _ _) WRefines.file

end FF
