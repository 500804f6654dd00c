import Verif.Spec.Calls
import Verif.Lemmas.HeapOut
import Verif.Lemmas.HeapB2E
import Verif.Props.C24
import Verif.Props.C29
/-! Calls on embeddings, one by one. -/

namespace FF

section
variable {K : Type} [NumOps K] {h h' : Heap K} {E : HEmb}

/-! ### Single calls -/

theorem observe_refines {α β : Type} {P : Nat → Nat → Prop} {m : HM K α} {r : Res β}
    {R : Heap K → α → β → Prop} {f : Heap K → α → Answer K} {g : β → Answer K}
    (hr : Refines P h m r R) (hfg : ∀ h' a b, R h' a b → f h' a = g b) :
    (observe f m h).1 = r.map g ∧ Heap.Le P h (observe f m h).2 := by
  obtain ⟨x, h', hm, hle, hx⟩ := hr
  unfold observe
  rw [hm]
  refine ⟨?_, hle⟩
  match x, r, hx with
  | .ok a, .ok b, hx => exact congrArg Except.ok (hfg h' a b hx)
  | .error x, .error y, hx => exact congrArg Except.error hx

theorem observeFile_refines {P : Nat → Nat → Prop} {m : HW K Unit} {w : Wr Unit}
    {R : Heap K → Unit → Unit → Prop} (hr : WRefines P h [] m w R) :
    (observeFile m h).1 = .ok (.file (w []).1 (w []).2) ∧ Heap.Le P h (observeFile m h).2 := by
  obtain ⟨x, h', y, bs', hm, hw, hle, hx⟩ := hr
  unfold observeFile
  rw [hm, hw]
  refine ⟨?_, hle⟩
  match x, y, hx with
  | .ok (), .ok (), _ => rfl
  | .error x, .error y, hx => rw [show x = y from hx]

omit [NumOps K] in
theorem hm_lift_ok {α β : Type} {a : α} {f : α → HM K β} : (HM.lift (.ok a) >>= f) h = f a h :=
  hm_bind_ok rfl

/-- The computation writes only to cells in `P`, whatever the memory. -/
def Touch {α : Type} (P : Nat → Nat → Prop) (m : HM K α) : Prop := ∀ h, Heap.Le P h (m h).2

omit [NumOps K] in
theorem Touch.bind {α β : Type} {P : Nat → Nat → Prop} {m : HM K α} {f : α → HM K β}
    (h1 : Touch P m) (h2 : ∀ a, Touch P (f a)) : Touch P (m >>= f) := by
  intro h
  have h3 := h1 h
  cases hm : m h with
  | mk x h' =>
    rw [hm] at h3
    cases x with
    | error x => rw [hm_bind_error hm]; exact h3
    | ok a => rw [hm_bind_ok hm]; exact h3.trans (h2 a h')

omit [NumOps K] in
theorem Touch.pure {α : Type} {P : Nat → Nat → Prop} (a : α) : Touch P (pure a : HM K α) :=
  fun _ => .refl _ _

omit [NumOps K] in
theorem Touch.lift {α : Type} {P : Nat → Nat → Prop} (r : Res α) : Touch P (HM.lift r : HM K α) :=
  fun _ => .refl _ _

omit [NumOps K] in
theorem Touch.fail {α : Type} {P : Nat → Nat → Prop} (x : PyErr) : Touch P (HM.fail x : HM K α) :=
  fun _ => .refl _ _

omit [NumOps K] in
theorem Touch.look {α : Type} {P : Nat → Nat → Prop} (f : Heap K → α) : Touch P (HM.look f) :=
  fun _ => .refl _ _

omit [NumOps K] in
theorem Touch.write (o : View) (xs : List K) : Touch o.cells (HM.write o xs) :=
  fun h => write_le (r := (HM.write o xs h).1) rfl fun _ hi => ⟨rfl, hi⟩

/-- `_embedding` with an output buffer of any kind writes to nothing else. -/
theorem embedOut_le (hE : E.OK h) (idx : Idx) (o : View) :
    Heap.Le o.cells h (E.embed idx (some o) h).2 := by
  cases idx with
  | one i =>
    unfold HEmb.embed
    dsimp only
    obtain ⟨x, h1, hm, hle, _⟩ :=
      (getOne_refines (frame_new h) (storageValids hE.valid).new hE.shape i).never
    have hle : Heap.Le o.cells h h1 := hle.mono fun _ _ _ h => h.elim
    cases x with
    | error x => rw [hm_bind_error hm]; exact hle
    | ok row =>
      rw [hm_bind_ok hm]
      refine hle.trans (Touch.bind ?_ (fun _ => ?_) h1)
      · exact Touch.bind (Touch.look _) fun _ => Touch.bind (Touch.write _ _) fun _ => Touch.pure _
      · cases E.norms with
        | none => exact Touch.pure _
        | some ns =>
          exact Touch.bind (Touch.look _) fun _ => Touch.bind (Touch.lift _) fun _ => Touch.pure _
  | many is =>
    unfold HEmb.embed
    dsimp only
    obtain ⟨x, h1, hm, hle, hx⟩ :=
      (getMany_refines (frame_new h) (storageValids hE.valid).new hE.shape is).never
    have hle : Heap.Le o.cells h h1 := hle.mono fun _ _ _ h => h.elim
    cases x with
    | error x => rw [hm_bind_error hm]; exact hle
    | ok res =>
      rw [hm_bind_ok hm, hm_look_bind]
      refine hle.trans ?_
      unfold reduceOut
      dsimp only
      by_cases hc : o.idxs.length ≠ res.cols
      · rw [if_pos hc]
        exact .refl _ _
      · rw [if_neg hc]
        rw [bind_assoc]
        refine Touch.bind (Touch.write _ _) (fun _ => ?_) h1
        rw [pure_bind]
        exact Touch.bind (Touch.look _) fun _ => Touch.bind (Touch.look _) fun _ =>
          Touch.bind (Touch.write _ _) fun _ => Touch.pure _

variable [Codec K] [NumText K]

theorem toExplicit_bound (hv : BuiltVocab E.vocab) {v' : Vocab} (h : E.vocab.toExplicit = .ok v') :
    (v'.len : Int) ≤ v'.upperBound := by
  have hs : ∃ ix, E.vocab.sub = some ix := by
    unfold Vocab.toExplicit at h
    cases hs : E.vocab.sub with
    | none => rw [hs] at h; cases h
    | some ix => exact ⟨ix, rfl⟩
  obtain ⟨ix, hs⟩ := hs
  obtain ⟨_, _, _, _, _, _, hb, _⟩ := C24_preserves_partial _ _ ix hv hs h
  rw [hb.len]
  exact upperBound_ge hb

omit [NumOps K] [Codec K] [NumText K] in
theorem outCells_none {c : Call K} (hc : c.out = none) : outCells [c] = Never := by
  funext l i
  refine propext ⟨?_, False.elim⟩
  rintro ⟨c', hc', o, ho, _⟩
  cases List.mem_singleton.mp hc'
  rw [hc] at ho
  cases ho

omit [NumOps K] [Codec K] [NumText K] in
theorem outCells_some {c : Call K} {o : View} (hc : c.out = some o) (l i : Nat) (h : o.cells l i) :
    outCells [c] l i := ⟨c, List.mem_singleton.mpr rfl, o, hc, h⟩

omit [Codec K] [NumText K] in
/-- The default does not matter for a word with an embedding. -/
theorem embedding_default {w : PyStr} (hi : E.vocab.idx w ≠ .ok none) (d : Option View) :
    (E.embedding w none d : HM K _) = E.embedding w none none := by
  unfold HEmb.embedding
  cases hx : E.vocab.idx w with
  | error x => funext h; exact (hm_bind_error (h' := h) rfl).trans (hm_bind_error (h' := h) rfl).symm
  | ok idx =>
    cases idx with
    | none => exact absurd hx hi
    | some idx => funext h; rw [hm_lift_ok, hm_lift_ok]

omit [Codec K] [NumText K] in
theorem withNorm_default {w : PyStr} (hi : E.vocab.idx w ≠ .ok none) (d : Option (View × K)) :
    (E.embeddingWithNorm w none d : HM K _) = E.embeddingWithNorm w none none := by
  unfold HEmb.embeddingWithNorm
  cases E.norms with
  | none => rfl
  | some ns =>
  dsimp only
  cases hx : E.vocab.idx w with
  | error x => funext h; exact (hm_bind_error (h' := h) rfl).trans (hm_bind_error (h' := h) rfl).symm
  | ok idx =>
    cases idx with
    | none => exact absurd hx hi
    | some idx => funext h; rw [hm_lift_ok, hm_lift_ok]

/-- A call without output buffer changes no existing array and answers as the value model. -/
theorem call_plain (S : Sel K) (hE : E.OK h) (hv : BuiltVocab E.vocab) (c : Call K)
    (hc : c.out = none) :
    (c.run S E h).1 = c.expect S (E.val h) h ∧ Heap.Le Never h (c.run S E h).2 := by
  cases c with
  | getItem w =>
    exact observe_refines (getItem_refines hE.valid hE.shape w) fun h' a b hg =>
      congrArg Answer.vec hg.read
  | embedding w out default =>
    obtain rfl : out = none := hc
    have rest (hne : (E.val h).embedding w ≠ .ok none) :
        (Call.run S E (.embedding w none default) h).1 =
          Call.expect S (E.val h) h (.embedding w none default) ∧
        Heap.Le Never h (Call.run S E (.embedding w none default) h).2 := by
      have hi : E.vocab.idx w ≠ .ok none := by
        intro hi
        apply hne
        unfold Embeddings.embedding
        rw [show (E.val h).vocab.idx w = _ from hi]
        rfl
      show (observe _ (E.embedding w none default) h).1 = _ ∧
        Heap.Le Never h (observe _ (E.embedding w none default) h).2
      rw [embedding_default hi]
      refine observe_refines ((embedding_refines hE.valid hE.shape w).mono
        (R' := fun h' a b => (E.val h).embedding w = .ok b ∧ OptGot h.length E.storage.views h' a b)
        fun _ _ _ _ hb hg => ⟨hb, hg⟩) ?_
      rintro h' a b ⟨hb, hg⟩
      match a, b, hg with
      | none, none, _ => exact absurd hb hne
      | some a, some b, hg => exact congrArg (fun x => Answer.optVec (some x)) (Got.read hg)
    cases hr : (E.val h).embedding w with
    | ok r =>
      cases r with
      | none =>
        have hm : E.embedding w none default h = (.ok default, h) := by
          cases default with
          | none => exact C29_none hr none
          | some d => exact C29_default_itself hr d
        show (observe _ (E.embedding w none default) h).1 = _ ∧ Heap.Le Never h (observe _ _ h).2
        unfold observe Call.expect
        dsimp only
        rw [hm, hr]
        exact ⟨rfl, .refl _ _⟩
      | some v => exact rest (by intro hn; rw [hn] at hr; cases hr)
    | error x => exact rest (by intro hn; rw [hn] at hr; cases hr)
  | embeddingWithNorm w out default =>
    obtain rfl : out = none := hc
    have rest (hne : (E.val h).embeddingWithNorm w ≠ .ok none) :
        (Call.run S E (.embeddingWithNorm w none default) h).1 =
          Call.expect S (E.val h) h (.embeddingWithNorm w none default) ∧
        Heap.Le Never h (Call.run S E (.embeddingWithNorm w none default) h).2 := by
      have hd : (E.embeddingWithNorm w none default : HM K _) = E.embeddingWithNorm w none none := by
        cases hn : E.norms with
        | none =>
          unfold HEmb.embeddingWithNorm
          rw [hn]
        | some ns =>
          refine withNorm_default (fun hi => hne ?_) default
          unfold Embeddings.embeddingWithNorm
          rw [norms_read hn, show (E.val h).vocab.idx w = _ from hi]
          rfl
      show (observe _ (E.embeddingWithNorm w none default) h).1 = _ ∧
        Heap.Le Never h (observe _ (E.embeddingWithNorm w none default) h).2
      rw [hd]
      refine observe_refines ((embeddingWithNorm_refines hE.valid hE.shape w).mono
        (R' := fun h' a b => (E.val h).embeddingWithNorm w = .ok b ∧ (match a, b with
          | none, none => True
          | some a, some b => EmbRes E h h' a b
          | _, _ => False))
        fun _ _ _ _ hb hg => ⟨hb, hg⟩) ?_
      rintro h' a b ⟨hb, hg⟩
      match a, b, hg with
      | none, none, _ => exact absurd hb hne
      | some a, some b, hg =>
        exact congrArg (fun x => Answer.optVecNorm (some x)) (Prod.ext hg.2.read hg.1)
    cases hr : (E.val h).embeddingWithNorm w with
    | ok r =>
      cases r with
      | none =>
        have hm : E.embeddingWithNorm w none default h =
            (.ok (default.map fun d => (d.1, some d.2)), h) := by
          obtain ⟨⟨ns, hn⟩, hi⟩ := withNorm_none hr
          unfold HEmb.embeddingWithNorm
          rw [hn]
          dsimp only
          rw [hi, hm_lift_ok]
          rfl
        show (observe _ (E.embeddingWithNorm w none default) h).1 = _ ∧
          Heap.Le Never h (observe _ _ h).2
        unfold observe Call.expect
        dsimp only
        rw [hm, hr]
        refine ⟨?_, .refl _ _⟩
        cases default <;> rfl
      | some v => exact rest (by intro hn; rw [hn] at hr; cases hr)
    | error x => exact rest (by intro hn; rw [hn] at hr; cases hr)
  | wordSimilarity w k =>
    exact observe_refines (wordSimilarity_refines S hE.valid hE.shape w k) fun _ _ _ h =>
      congrArg Answer.optSims h
  | embeddingSimilarity q k skip =>
    exact observe_refines (similarity_refines S hE.valid q k (skip.getD [])) fun _ _ _ h =>
      congrArg Answer.sims h
  | analogy w1 w2 w3 k skip =>
    exact observe_refines (analogy_refines S hE.valid hE.shape w1 w2 w3 k skip) fun _ _ _ h =>
      congrArg Answer.optSims h
  | bucketToExplicit =>
    exact observe_refines (b2e_refines hE fun _ => toExplicit_bound hv) fun _ _ _ h =>
      congrArg Answer.emb h.1
  | word2vec => exact observeFile_refines (writeWord2vec_refines hE)
  | text dims sep => exact observeFile_refines (writeText_refines hE dims sep)
  | fasttext => exact observeFile_refines (writeFasttext_refines hE)

/-- A call changes no existing array but its output buffer. -/
theorem call_le (S : Sel K) (hE : E.OK h) (hv : BuiltVocab E.vocab) (c : Call K) :
    Heap.Le (outCells [c]) h (c.run S E h).2 := by
  cases hc : c.out with
  | none =>
    rw [outCells_none hc]
    exact (call_plain S hE hv c hc).2
  | some o =>
    refine Heap.Le.mono (fun l i _ h => outCells_some hc l i h) ?_
    cases c with
    | embedding w out default =>
      obtain rfl : out = some o := hc
      show Heap.Le o.cells h (E.embedding w (some o) default h).2
      unfold HEmb.embedding
      cases hi : E.vocab.idx w with
      | error x => exact .refl _ _
      | ok idx =>
        rw [hm_lift_ok]
        cases idx with
        | none =>
          cases default with
          | none => exact .refl _ _
          | some d =>
            exact Touch.bind (Touch.look _) (fun _ => Touch.bind (Touch.write _ _) fun _ =>
              Touch.pure _) h
        | some idx =>
          have h1 := embedOut_le hE idx o
          dsimp only
          cases hm : E.embed idx (some o) h with
          | mk x h2 =>
            rw [hm] at h1
            cases x with
            | error x => rw [hm_bind_error hm]; exact h1
            | ok a => rw [hm_bind_ok hm]; exact h1
    | embeddingWithNorm w out default =>
      obtain rfl : out = some o := hc
      show Heap.Le o.cells h (E.embeddingWithNorm w (some o) default h).2
      unfold HEmb.embeddingWithNorm
      cases E.norms with
      | none => exact .refl _ _
      | some ns =>
      dsimp only
      cases hi : E.vocab.idx w with
      | error x => exact .refl _ _
      | ok idx =>
        rw [hm_lift_ok]
        cases idx with
        | none =>
          cases default with
          | none => exact .refl _ _
          | some d =>
            exact Touch.bind (Touch.look _) (fun _ => Touch.bind (Touch.write _ _) fun _ =>
              Touch.pure _) h
        | some idx =>
          have h1 := embedOut_le hE idx o
          dsimp only
          cases hm : E.embed idx (some o) h with
          | mk x h2 =>
            rw [hm] at h1
            cases x with
            | error x => rw [hm_bind_error hm]; exact h1
            | ok a => rw [hm_bind_ok hm]; exact h1
    | getItem | wordSimilarity | embeddingSimilarity | analogy | bucketToExplicit | word2vec | text
    | fasttext => cases hc

end

end FF
