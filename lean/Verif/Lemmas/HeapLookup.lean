import Verif.Lemmas.HeapOps
/-! Lookup, similarity and analogy on the heap. -/

namespace FF

/-- The buffers from number `n` on. -/
def New (n : Nat) : Nat → Nat → Prop := fun l _ => n ≤ l

section
variable {K : Type}
variable {P : Nat → Nat → Prop} {h h' : Heap K} {base : Nat}

theorem View.Valid.lt {v : View} (hv : v.Valid h) : v.loc < h.length := by
  obtain ⟨b, hb, _⟩ := hv
  exact (List.getElem?_eq_some_iff.mp hb).1

theorem Valids.new {vs : List View} (hv : Valids h vs) : Safe (New h.length) h vs :=
  fun v hm => ⟨hv v hm, fun _ _ hn => absurd (hv v hm).lt (Nat.not_lt.mpr hn)⟩

theorem Valids.never {vs : List View} (hv : Valids h vs) : Safe Never h vs :=
  fun v hm => ⟨hv v hm, fun _ _ hn => hn⟩

theorem Valids.le {vs : List View} (hv : Valids h vs) (hl : Heap.Le P h h') : Valids h' vs :=
  fun v hm => (hv v hm).le hl

theorem frame_new (h : Heap K) : Frame (New h.length) h.length h := ⟨Nat.le_refl _, fun _ _ h => h⟩

theorem Heap.Le.never (hl : Heap.Le (New h.length) h h') : Heap.Le Never h h' :=
  hl.mono fun _ _ h1 h2 => absurd h1 (Nat.not_lt.mpr h2)

theorem Refines.never {α β : Type} {m : HM K α} {r : Res β} {R : Heap K → α → β → Prop}
    (h1 : Refines (New h.length) h m r R) : Refines Never h m r R :=
  h1.frame fun _ _ h1 h2 => absurd h1 (Nat.not_lt.mpr h2)

theorem Refines.any {α β : Type} {m : HM K α} {r : Res β} {R : Heap K → α → β → Prop}
    (h1 : Refines Never h m r R) : Refines P h m r R :=
  h1.frame fun _ _ _ h2 => h2.elim

theorem Owned.mono {b1 b2 : Nat} (hb : b1 ≤ b2) {v : View} {xs : List K} (ho : Owned b2 h v xs) :
    Owned b1 h v xs := { ho with base := Nat.le_trans hb ho.base }

theorem Got.le {vs : List View} {a : View} {b : List K} (hg : Got base vs h a b)
    (hl : Heap.Le Never h h') : Got base vs h' a b := by
  rcases hg with ⟨h1, h2, h3⟩ | hg
  · exact Or.inl ⟨h1, h2.le hl, by rw [hl.read h2 fun _ _ h => h, h3]⟩
  · exact Or.inr (hg.le hl fun _ _ h => h)

end

section
variable {K : Type} [NumOps K]
variable {P : Nat → Nat → Prop} {h h' : Heap K}

/-- The result of `_embedding` without `out`. -/
def EmbRes (E : HEmb) (h0 h' : Heap K) (a : View × Option K) (b : List K × Option K) : Prop :=
  a.2 = b.2 ∧ Got h0.length E.storage.views h' a.1 b.1

omit [NumOps K] in
theorem storageValids {E : HEmb} (hv : Valids h E.views) : Valids h E.storage.views :=
  fun v hm => hv v (List.mem_append_left _ hm)

omit [NumOps K] in
theorem norms_read {E : HEmb} {v : View} (hn : E.norms = some v) :
    (E.val h).norms = some (h.read v) := by
  show E.norms.map h.read = _
  rw [hn]
  rfl

omit [NumOps K] in
theorem norms_none {E : HEmb} (hn : E.norms = none) : (E.val h).norms = none := by
  show E.norms.map h.read = _
  rw [hn]
  rfl

omit [NumOps K] in
theorem norms_mem {E : HEmb} {v : View} (hn : E.norms = some v) : v ∈ E.views := by
  unfold HEmb.views
  rw [hn]
  simp

theorem embed_refines {E : HEmb} (hv : Valids h E.views) (hw : StorageWF (E.val h).storage)
    (idx : Idx) : Refines Never h (E.embed idx none) ((E.val h).embed idx) (EmbRes E h) := by
  apply Refines.never
  have hs := hv.new
  have hss : Safe (New h.length) h E.storage.views := (storageValids hv).new
  have hf := frame_new h
  cases idx with
  | one i =>
    unfold HEmb.embed Embeddings.embed
    refine Refines.bind (getOne_refines hf hss hw i) ?_
    intro h1 res b hle hb hg
    unfold assignOut
    refine Refines.step hm_pure_bind (.refl _ _) ?_
    cases hn : E.norms with
    | none =>
      rw [norms_none hn]
      exact Refines.pure ⟨rfl, hg⟩
    | some v =>
      rw [norms_read hn]
      refine Refines.step hm_read_bind (.refl _ _) ?_
      rw [hs.read hle (norms_mem hn)]
      refine Refines.bind Refines.lift ?_
      rintro h3 n _ _ _ ⟨rfl, rfl⟩
      exact Refines.pure ⟨rfl, hg⟩
  | many is =>
    unfold HEmb.embed Embeddings.embed
    refine Refines.bind (getMany_refines hf hss hw is) ?_
    rintro h1 res rows hle hrows ⟨hcols, ho⟩
    refine Refines.step hm_look_bind (.refl _ _) ?_
    rw [ho.val, hcols]
    unfold reduceOut
    have hc : (E.val h).storage.nCols = E.storage.nCols := nCols_val _
    rw [hc]
    refine Refines.bind (r := .ok (addReduce E.storage.nCols rows)) (g := fun x =>
      .ok (vdiv x (NumOps.norm x), some (NumOps.norm x))) (Refines.alloc (hf.le hle) _) ?_
    intro h2 o x hle2 hx ho2
    refine Refines.step hm_read_bind (.refl _ _) ?_
    refine Refines.step hm_read_bind (.refl _ _) ?_
    rw [ho2.read]
    refine Refines.bind (r := .ok ()) (g := fun _ =>
      .ok (vdiv x (NumOps.norm x), some (NumOps.norm x)))
      (Refines.write ((hf.le hle).le hle2) ho2 (by unfold vdiv; rw [List.length_map])) ?_
    intro h3 _ _ _ _ ho3
    exact Refines.pure ⟨rfl, Or.inr ho3⟩

theorem getItem_refines {E : HEmb} (hv : Valids h E.views) (hw : StorageWF (E.val h).storage)
    (w : PyStr) : Refines Never h (E.getItem w) ((E.val h).getItem w)
      (fun h' a b => Got h.length E.storage.views h' a b) := by
  unfold HEmb.getItem Embeddings.getItem
  refine Refines.bind (Refines.lift (r := E.vocab.getItem w)) ?_
  rintro h1 idx _ _ _ ⟨rfl, rfl⟩
  refine Refines.bind (embed_refines hv hw idx) ?_
  intro h2 a b _ _ hr
  exact Refines.pure hr.2

/-- The result of `embedding` without `out` and `default`. -/
def OptGot (base : Nat) (vs : List View) (h' : Heap K) (a : Option View) (b : Option (List K)) :
    Prop :=
  match a, b with
  | none, none => True
  | some a, some b => Got base vs h' a b
  | _, _ => False

theorem embedding_refines {E : HEmb} (hv : Valids h E.views) (hw : StorageWF (E.val h).storage)
    (w : PyStr) : Refines Never h (E.embedding w none none) ((E.val h).embedding w)
      (OptGot h.length E.storage.views) := by
  unfold HEmb.embedding Embeddings.embedding
  refine Refines.bind (Refines.lift (r := E.vocab.idx w)) ?_
  rintro h1 idx _ _ _ ⟨rfl, rfl⟩
  cases idx with
  | none => exact Refines.pure trivial
  | some idx =>
    refine Refines.bind (embed_refines hv hw idx) ?_
    intro h2 a b _ _ hr
    exact Refines.pure (show Got _ _ _ _ _ from hr.2)

theorem embeddingWithNorm_refines {E : HEmb} (hv : Valids h E.views)
    (hw : StorageWF (E.val h).storage) (w : PyStr) :
    Refines Never h (E.embeddingWithNorm w none none) ((E.val h).embeddingWithNorm w)
      (fun h' a b => match a, b with
        | none, none => True
        | some a, some b => EmbRes E h h' a b
        | _, _ => False) := by
  unfold HEmb.embeddingWithNorm Embeddings.embeddingWithNorm
  cases hn : E.norms with
  | none =>
    rw [norms_none hn]
    exact Refines.fail
  | some v =>
    rw [norms_read hn]
    refine Refines.bind (Refines.lift (r := E.vocab.idx w)) ?_
    rintro h1 idx _ _ _ ⟨rfl, rfl⟩
    cases idx with
    | none => exact Refines.pure trivial
    | some idx =>
      refine Refines.bind (embed_refines hv hw idx) ?_
      intro h2 a b _ _ hr
      exact Refines.pure hr

/-! ### Similarity -/

theorem dot_refines {s : HStorage} (hv : Valids h s.views) (query : View) :
    Refines Never h (s.dot query) ((s.val h).dot (h.read query))
      (fun h' a b => Owned h.length h' a b) := by
  cases s with
  | nd m =>
    show Refines _ _ (HM.read query >>= _) _ _
    refine Refines.step hm_read_bind (.refl _ _) ?_
    unfold HStorage.val Storage.dot
    dsimp only
    have hcols : (HMat.val h m).cols = m.cols := rfl
    rw [hcols]
    by_cases hl : m.cols ≠ (h.read query).length
    · rw [if_pos hl, if_pos hl]
      exact ⟨_, _, hm_bind_error rfl, .refl _ _, rfl⟩
    · rw [if_neg hl, if_neg hl]
      refine Refines.step hm_look_bind (.refl _ _) ?_
      exact (Refines.alloc (frame_new h) _).never
  | quant q => exact Refines.fail

theorem similarity_refines (S : Sel K) {E : HEmb} (hv : Valids h E.views) (query : View) (k : Int)
    (skips : List PyStr) :
    Refines Never h (E.similarity S query k skips) ((E.val h).similarity S (h.read query) k skips)
      (fun _ a b => a = b) := by
  unfold HEmb.similarity Embeddings.similarity
  refine Refines.bind (slice_refines (s := E.storage) (storageValids hv).never _) ?_
  rintro h1 words _ _ _ ⟨rfl, rfl, hsafe⟩
  refine Refines.bind (dot_refines (fun v hm => (hsafe v hm).1) query) ?_
  intro h2 sims xs _ _ ho
  refine Refines.step hm_read_bind (.refl _ _) ?_
  rw [ho.read]
  refine Refines.bind Refines.lift ?_
  rintro h3 part _ _ _ ⟨rfl, rfl⟩
  refine Refines.bind Refines.lift ?_
  rintro h4 part _ _ _ ⟨rfl, rfl⟩
  refine Refines.bind Refines.lift ?_
  rintro h5 heap _ _ _ ⟨rfl, rfl⟩
  exact Refines.pure rfl

theorem wordSimilarity_refines (S : Sel K) {E : HEmb} (hv : Valids h E.views)
    (hw : StorageWF (E.val h).storage) (w : PyStr) (k : Int) :
    Refines Never h (E.wordSimilarity S w k) ((E.val h).wordSimilarity S w k)
      (fun _ a b => a = b) := by
  unfold HEmb.wordSimilarity Embeddings.wordSimilarity
  refine Refines.bind (embedding_refines hv hw w) ?_
  intro h1 a b hle _ hg
  match a, b, hg with
  | none, none, _ => exact Refines.pure rfl
  | some a, some b, hg =>
    have hg : Got h.length E.storage.views h1 a b := hg
    have hval : E.val h1 = E.val h := HEmb.val_le hv.never hle
    have := similarity_refines S (hv.le hle) a k [w]
    rw [hval, hg.read] at this
    refine Refines.bind this ?_
    rintro h2 r _ _ _ rfl
    exact Refines.pure rfl

theorem analogy_refines (S : Sel K) {E : HEmb} (hv : Valids h E.views)
    (hw : StorageWF (E.val h).storage) (w1 w2 w3 : PyStr) (k : Int) (skip : Option (List PyStr)) :
    Refines Never h (E.analogy S w1 w2 w3 k skip) ((E.val h).analogy S w1 w2 w3 k skip)
      (fun _ a b => a = b) := by
  unfold HEmb.analogy Embeddings.analogy
  refine Refines.bind (embedding_refines hv hw w1) ?_
  intro h1 a xa hle1 _ hga
  have hval1 : E.val h1 = E.val h := HEmb.val_le hv.never hle1
  have e2 := embedding_refines (hv.le hle1) (by rw [hval1]; exact hw) w2
  rw [hval1] at e2
  refine Refines.bind e2 ?_
  intro h2 b xb hle2 _ hgb
  have hle2' := hle1.trans hle2
  have hval2 : E.val h2 = E.val h := HEmb.val_le hv.never hle2'
  have e3 := embedding_refines (hv.le hle2') (by rw [hval2]; exact hw) w3
  rw [hval2] at e3
  refine Refines.bind e3 ?_
  intro h3 c xc hle3 _ hgc
  have hle3' := hle2'.trans hle3
  have hval3 : E.val h3 = E.val h := HEmb.val_le hv.never hle3'
  match a, xa, hga, b, xb, hgb, c, xc, hgc with
  | none, none, _, none, none, _, none, none, _ => exact Refines.pure rfl
  | none, none, _, none, none, _, some _, some _, _ => exact Refines.pure rfl
  | none, none, _, some _, some _, _, none, none, _ => exact Refines.pure rfl
  | none, none, _, some _, some _, _, some _, some _, _ => exact Refines.pure rfl
  | some _, some _, _, none, none, _, none, none, _ => exact Refines.pure rfl
  | some _, some _, _, none, none, _, some _, some _, _ => exact Refines.pure rfl
  | some _, some _, _, some _, some _, _, none, none, _ => exact Refines.pure rfl
  | some a, some xa, hga, some b, some xb, hgb, some c, some xc, hgc =>
    have hga : Got h.length E.storage.views h1 a xa := hga
    have hgb : Got h1.length E.storage.views h2 b xb := hgb
    have hgc : Got h2.length E.storage.views h3 c xc := hgc
    have ra : h3.read a = xa := ((hga.le hle2).le hle3).read
    have rb : h3.read b = xb := (hgb.le hle3).read
    have rc : h3.read c = xc := hgc.read
    apply Refines.never
    dsimp only
    refine Refines.step hm_read_bind (.refl _ _) ?_
    refine Refines.step hm_read_bind (.refl _ _) ?_
    rw [ra, rb]
    refine Refines.bind (r := .ok (vsub xb xa)) (g := fun _ => _)
      (Refines.alloc (frame_new h3) _) ?_
    intro h4 diff x hle4 hx ho4
    cases hx
    have rc4 : h4.read c = xc := by rw [hle4.never.read hgc.valid fun _ _ h => h, rc]
    refine Refines.step hm_read_bind (.refl _ _) ?_
    refine Refines.step hm_read_bind (.refl _ _) ?_
    rw [rc4, ho4.read]
    refine Refines.bind (r := .ok (vadd xc (vsub xb xa))) (g := fun _ => _)
      (Refines.alloc ((frame_new h3).le hle4) _) ?_
    intro h5 d x hle5 hx ho5
    cases hx
    refine Refines.step hm_read_bind (.refl _ _) ?_
    rw [ho5.read]
    refine Refines.bind (r := .ok ()) (g := fun _ => _)
      (Refines.write (((frame_new h3).le hle4).le hle5) ho5 (by unfold vdiv; rw [List.length_map])) ?_
    intro h6 _ _ hle6 _ ho6
    have hle6' := hle3'.trans ((hle4.trans hle5).trans hle6).never
    have hval6 : E.val h6 = E.val h := HEmb.val_le hv.never hle6'
    have es := similarity_refines S (hv.le hle6') d k (skip.getD [w1, w2, w3])
    rw [hval6, ho6.read] at es
    refine Refines.bind es.any ?_
    rintro h7 r _ _ _ rfl
    exact Refines.pure rfl

end

end FF
