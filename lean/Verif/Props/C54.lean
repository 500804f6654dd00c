import Verif.Lemmas.HeapLookup
import Verif.Props.C29
/-!
# C54: arrays that lookups return are the caller's own

The claim: changing an array that `e[w]`, `embedding(w)` or `embedding_with_norm(w)` returned does not
change the embeddings or any other array.  It holds for words without a row of their own and for
quantized storages.  It fails for the known words of an `NdArray`, whose row is returned itself
(embeddings.py:625-631, ndarray.py:137-140).
-/

namespace FF

section
variable {K : Type} [NumOps K] {h h' : Heap K} {E : HEmb}

omit [NumOps K] in
/-- `v` came into being between `h` and `h'`: all arrays of `h` keep their elements, and changes to the
memory of `v` in any later memory `h''` do not affect them. -/
structure OwnArray (h h' : Heap K) (v : View) : Prop where
  now : ∀ u : View, u.Valid h → h'.read u = h.read u
  later : ∀ h'' : Heap K, Heap.Le (fun l _ => l = v.loc) h' h'' →
    ∀ u : View, u.Valid h → h''.read u = h.read u

omit [NumOps K] in
theorem ownArray {v : View} (hl : Heap.Le Never h h') (hv : h.length ≤ v.loc) :
    OwnArray h h' v := by
  have hnow : ∀ u : View, u.Valid h → h'.read u = h.read u :=
    fun u hu => hl.read hu fun _ _ h => h
  refine ⟨hnow, fun h'' hle u hu => ?_⟩
  rw [hle.read (hu.le hl) fun i _ (h1 : u.loc = v.loc) => by have := hu.lt; omega, hnow u hu]

omit [NumOps K] in
/-- All arrays of the embeddings are arrays of `h`, so they keep their value. -/
theorem OwnArray.val {v : View} (ho : OwnArray h h' v) (hE : E.OK h) (hl : Heap.Le Never h h')
    (hv : h.length ≤ v.loc) {h'' : Heap K} (hle : Heap.Le (fun l _ => l = v.loc) h' h'') :
    E.val h'' = E.val h := by
  rw [HEmb.val_le (P := fun l _ => l = v.loc) ?_ hle, HEmb.val_le hE.valid.never hl]
  intro u hu
  exact ⟨(hE.valid u hu).le hl, fun i _ (h1 : u.loc = v.loc) => by
    have := (hE.valid u hu).lt; omega⟩

/-- The rows of the words are not handed out: the storage is quantized, or the index is a list. -/
def Computed (E : HEmb) : Idx → Prop
  | .one _ => ∃ q, E.storage = .quant q
  | .many _ => True

theorem embed_fresh (hE : E.OK h) (idx : Idx) (hi : Computed E idx) :
    Refines Never h (E.embed idx none) ((E.val h).embed idx)
      (fun _ a _ => h.length ≤ a.1.loc) := by
  apply Refines.never
  obtain ⟨hv, hw⟩ := hE
  have hs := hv.new
  have hss : Safe (New h.length) h E.storage.views := (storageValids hv).new
  have hf := frame_new h
  cases idx with
  | one i =>
    obtain ⟨q, hq⟩ := hi
    unfold HEmb.embed Embeddings.embed
    have hone : Refines (New h.length) h (E.storage.getOne i) ((E.val h).storage.getOne i)
        (fun h' a b => Owned h.length h' a b) := by
      have hst : (E.val h).storage = E.storage.val h := rfl
      rw [hst] at hw ⊢
      rw [hq] at hw hss ⊢
      exact qEmbedding_refines hf hss hw i
    refine Refines.bind hone ?_
    intro h1 res b hle hb hg
    unfold assignOut
    refine Refines.step hm_pure_bind (.refl _ _) ?_
    cases hn : E.norms with
    | none =>
      rw [norms_none hn]
      exact Refines.pure hg.base
    | some v =>
      rw [norms_read hn]
      refine Refines.step hm_read_bind (.refl _ _) ?_
      rw [hs.read hle (norms_mem hn)]
      refine Refines.bind Refines.lift ?_
      rintro h3 n _ _ _ ⟨rfl, rfl⟩
      exact Refines.pure hg.base
  | many is =>
    unfold HEmb.embed Embeddings.embed
    refine Refines.bind (getMany_refines hf hss hw is) ?_
    rintro h1 res rows hle hrows ⟨hcols, ho⟩
    refine Refines.step hm_look_bind (.refl _ _) ?_
    rw [ho.val, hcols]
    unfold reduceOut
    have hc : (E.val h).storage.nCols = E.storage.nCols := nCols_val _
    rw [hc]
    refine Refines.bind (r := .ok (addReduce E.storage.nCols rows)) (g := fun x =>
      .ok (vdiv x (NumOps.norm x), some (NumOps.norm x))) (Refines.alloc (hf.le hle) _) ?_
    intro h2 o x hle2 hx ho2
    refine Refines.step hm_read_bind (.refl _ _) ?_
    refine Refines.step hm_read_bind (.refl _ _) ?_
    rw [ho2.read]
    refine Refines.bind (r := .ok ()) (g := fun _ =>
      .ok (vdiv x (NumOps.norm x), some (NumOps.norm x)))
      (Refines.write ((hf.le hle).le hle2) ho2 (by unfold vdiv; rw [List.length_map])) ?_
    intro h3 _ _ _ _ ho3
    exact Refines.pure ho2.base

omit [NumOps K] in
theorem idx_one {v : Vocab} {w : PyStr} {i : Nat} (hi : v.idx w = .ok (some (.one i))) :
    Dict.get? v.index w = some i := by
  unfold Vocab.idx at hi
  cases hs : v.sub with
  | none =>
    rw [hs] at hi
    cases hg : Dict.get? v.index w with
    | none => rw [hg] at hi; cases hi
    | some j => rw [hg] at hi; cases hi; rfl
  | some ix =>
    rw [hs] at hi
    cases hg : Dict.get? v.index w with
    | some j => rw [hg] at hi; cases hi; rfl
    | none =>
      rw [hg] at hi
      obtain ⟨is, _, hi⟩ := res_bind_inv (m := v.subwordIndices ix w) hi
      split at hi <;> cases hi

omit [NumOps K] in
theorem item_one {v : Vocab} {w : PyStr} {i : Nat} (hi : v.getItem w = .ok (.one i)) :
    Dict.get? v.index w = some i := by
  unfold Vocab.getItem at hi
  cases hs : v.sub with
  | none =>
    rw [hs] at hi
    cases hg : Dict.get? v.index w with
    | none => rw [hg] at hi; cases hi
    | some j => rw [hg] at hi; cases hi; rfl
  | some ix =>
    rw [hs] at hi
    cases hg : Dict.get? v.index w with
    | some j => rw [hg] at hi; cases hi; rfl
    | none =>
      rw [hg] at hi
      obtain ⟨is, _, hi⟩ := res_bind_inv (m := v.subwordIndices ix w) hi
      split at hi <;> cases hi

/-- No row of the storage stands for the word. -/
def NoRow (E : HEmb) (w : PyStr) : Prop := w ∉ E.vocab.words ∨ ∃ q, E.storage = .quant q

omit [NumOps K] in
theorem NoRow.computed {w : PyStr} {idx : Idx} (hn : NoRow E w) (hv : BuiltVocab E.vocab)
    (hi : ∀ i, idx = .one i → Dict.get? E.vocab.index w = some i) : Computed E idx := by
  cases idx with
  | many is => trivial
  | one i =>
    rcases hn with hn | hn
    · exact absurd (List.mem_of_getElem? (hv.get.mp (hi i rfl))) hn
    · exact hn

/-- The result of `_embedding` does not share memory with anything. -/
theorem embed_own (hE : E.OK h) {idx : Idx} (hi : Computed E idx) {r : View × Option K}
    (hr : E.embed idx none h = (.ok r, h')) :
    OwnArray h h' r.1 ∧ ∀ h'' : Heap K, Heap.Le (fun l _ => l = r.1.loc) h' h'' → E.val h'' = E.val h := by
  obtain ⟨x, h1, e1, e2, e3⟩ := embed_fresh hE idx hi
  rw [hr] at e1
  cases e1
  cases hb : (E.val h).embed idx with
  | error y => rw [hb] at e3; exact e3.elim
  | ok b =>
    rw [hb] at e3
    exact ⟨ownArray e2 e3, fun h'' hle => (ownArray e2 e3).val hE e2 e3 hle⟩

/-- `e[w]` -/
theorem C54_getitem_partial (hE : E.OK h) (hv : BuiltVocab E.vocab) {w : PyStr} (hn : NoRow E w)
    {v : View} (hr : E.getItem w h = (.ok v, h')) :
    OwnArray h h' v ∧ ∀ h'' : Heap K, Heap.Le (fun l _ => l = v.loc) h' h'' → E.val h'' = E.val h := by
  unfold HEmb.getItem at hr
  cases hg : E.vocab.getItem w with
  | error x =>
    rw [hm_bind_error (h' := h) (by rw [hg]; rfl)] at hr
    cases hr
  | ok idx =>
    rw [hm_bind_ok (h' := h) (a := idx) (by rw [hg]; rfl)] at hr
    cases he : E.embed idx none h with
    | mk x h1 =>
      cases x with
      | error x => rw [hm_bind_error he] at hr; cases hr
      | ok r =>
        rw [hm_bind_ok he] at hr
        cases hr
        exact embed_own hE (hn.computed hv fun i hi => item_one (by rw [hg, hi])) he

/-- `embedding(w)` -/
theorem C54_embedding_partial (hE : E.OK h) (hv : BuiltVocab E.vocab) {w : PyStr} (hn : NoRow E w)
    {v : View} (hr : E.embedding w none none h = (.ok (some v), h')) :
    OwnArray h h' v ∧ ∀ h'' : Heap K, Heap.Le (fun l _ => l = v.loc) h' h'' → E.val h'' = E.val h := by
  unfold HEmb.embedding at hr
  cases hg : E.vocab.idx w with
  | error x =>
    rw [hm_bind_error (h' := h) (by rw [hg]; rfl)] at hr
    cases hr
  | ok o =>
    rw [hm_bind_ok (h' := h) (a := o) (by rw [hg]; rfl)] at hr
    cases o with
    | none => cases hr
    | some idx =>
      dsimp only at hr
      cases he : E.embed idx none h with
      | mk x h1 =>
        cases x with
        | error x => rw [hm_bind_error he] at hr; cases hr
        | ok r =>
          rw [hm_bind_ok he] at hr
          cases hr
          exact embed_own hE (hn.computed hv fun i hi => idx_one (by rw [hg, hi])) he

/-- `embedding_with_norm(w)` -/
theorem C54_with_norm_partial (hE : E.OK h) (hv : BuiltVocab E.vocab) {w : PyStr} (hn : NoRow E w)
    {v : View × Option K} (hr : E.embeddingWithNorm w none none h = (.ok (some v), h')) :
    OwnArray h h' v.1 ∧
      ∀ h'' : Heap K, Heap.Le (fun l _ => l = v.1.loc) h' h'' → E.val h'' = E.val h := by
  unfold HEmb.embeddingWithNorm at hr
  cases hnorm : E.norms with
  | none => rw [hnorm] at hr; cases hr
  | some ns =>
  rw [hnorm] at hr
  dsimp only at hr
  cases hg : E.vocab.idx w with
  | error x =>
    rw [hm_bind_error (h' := h) (by rw [hg]; rfl)] at hr
    cases hr
  | ok o =>
    rw [hm_bind_ok (h' := h) (a := o) (by rw [hg]; rfl)] at hr
    cases o with
    | none => cases hr
    | some idx =>
      dsimp only at hr
      cases he : E.embed idx none h with
      | mk x h1 =>
        cases x with
        | error x => rw [hm_bind_error he] at hr; cases hr
        | ok r =>
          rw [hm_bind_ok he] at hr
          cases hr
          exact embed_own hE (hn.computed hv fun i hi => idx_one (by rw [hg, hi])) he

/-! ### Known words of an `NdArray` -/

/-- `e[w]` is the row of the word itself; no memory is allocated. -/
theorem C54_row (hv : BuiltVocab E.vocab) {m : HMat} (hm : E.storage = .nd m) {i : Nat} {w : PyStr}
    (hw : E.vocab.words[i]? = some w) {row : List Nat} (hrow : m.rows[i]? = some row)
    (hnorm : ∀ ns, E.norms = some ns → i < (h.read ns).length) :
    E.getItem w h = (.ok ⟨m.loc, row⟩, h) := by
  have hg : E.vocab.getItem w = .ok (.one i) := by
    unfold Vocab.getItem
    rw [hv.get.mpr hw]
    cases E.vocab.sub <;> rfl
  unfold HEmb.getItem
  rw [hm_bind_ok (h' := h) (a := .one i) (by rw [hg]; rfl)]
  have hone : E.storage.getOne (i : Int) h = (.ok ⟨m.loc, row⟩, h) := by
    rw [hm]
    unfold HStorage.getOne
    dsimp only
    have : npGet m.rows (i : Int) = .ok row := npGet_ok.mpr ⟨i, npIndex_nat (List.getElem?_eq_some_iff.mp hrow).1, hrow⟩
    rw [hm_bind_ok (h' := h) (a := row) (by rw [this]; rfl)]
    rfl
  have hemb : ∃ n, E.embed (.one i) none h = (.ok (⟨m.loc, row⟩, n), h) := by
    unfold HEmb.embed
    dsimp only
    rw [hm_bind_ok hone]
    unfold assignOut
    rw [hm_pure_bind]
    cases hn : E.norms with
    | none => exact ⟨none, rfl⟩
    | some ns =>
      dsimp only
      rw [hm_read_bind]
      have := hnorm ns hn
      have hget : npGet (h.read ns) (i : Int) = .ok (h.read ns)[i] :=
        npGet_ok.mpr ⟨i, npIndex_nat this, List.getElem?_eq_getElem this⟩
      rw [hm_bind_ok (h' := h) (a := (h.read ns)[i]) (by rw [hget]; rfl)]
      exact ⟨_, rfl⟩
  obtain ⟨n, hemb⟩ := hemb
  rw [hm_bind_ok hemb]
  rfl

/-- If the storage is memory mapped, assigning to that row raises and changes nothing. -/
theorem C54_mapped {m : HMat} {row : List Nat} {b : Buf K} (hb : h[m.loc]? = some b)
    (hw : b.writable = false) (xs : List K) :
    HM.write ⟨m.loc, row⟩ xs h = (.error .valueError, h) := by
  unfold HM.write
  rw [hb]
  dsimp only
  rw [hw]
  rfl

end

/-- The rows of `Sample.embRat` in an ordinary array. -/
def Sample.heapRatW : Heap Rat := [⟨[3, 4, 0, 2, 300, 0, 7, 7, 0, 400], true⟩, ⟨[5, 2], true⟩]

theorem Sample.hembRat_okW : Sample.hembRat.OK Sample.heapRatW where
  valid := by
    intro v hv
    have : v ∈ ([⟨0, [0, 1]⟩, ⟨0, [2, 3]⟩, ⟨0, [4, 5]⟩, ⟨0, [6, 7]⟩, ⟨0, [8, 9]⟩, ⟨1, [0, 1]⟩] :
        List View) := hv
    simp only [List.mem_cons, List.not_mem_nil, or_false] at this
    rcases this with rfl | rfl | rfl | rfl | rfl | rfl <;> exact Sample.valid_of (by decide)
  shape := by
    refine ⟨?_, by unfold ShapeOk; decide⟩
    show ∀ r ∈ _, _
    decide

/-- The claim fails: after `e["ab"][:] = [1, 1]` the embeddings have another value. -/
theorem C54_refuted : ∃ (h : Heap Rat) (E : HEmb) (v : View) (h' h'' : Heap Rat), E.OK h ∧
    BuiltVocab E.vocab ∧ E.getItem [97, 98] h = (.ok v, h') ∧
    HM.write v [1, 1] h' = (.ok (), h'') ∧
    (E.val h').getItem [97, 98] = .ok [3, 4] ∧ (E.val h'').getItem [97, 98] = .ok [1, 1] :=
  ⟨Sample.heapRatW, Sample.hembRat, ⟨0, [0, 1]⟩, Sample.heapRatW,
    [⟨[1, 1, 0, 2, 300, 0, 7, 7, 0, 400], true⟩, ⟨[5, 2], true⟩], Sample.hembRat_okW,
    Sample.builtEmbRat.vocab, Prod.ext (by decide +kernel) (by decide +kernel),
    Prod.ext (by decide +kernel) (by decide +kernel), by decide +kernel, by decide +kernel⟩

/-! ### The hypotheses can be met -/

/-- `aba` is unknown and has n-grams: after `e["aba"][:] = [1, 1]` a second lookup gives the same
vector as the first. -/
example : NoRow Sample.hembRat [97, 98, 97] ∧ ∃ v h' h'',
    Sample.hembRat.getItem [97, 98, 97] Sample.heapRatW = (.ok v, h') ∧
    h'.read v = [3 / 7, 4 / 7] ∧
    HM.write v [1, 1] h' = (.ok (), h'') ∧ h''.read v = [1, 1] ∧
    Heap.Le (fun l _ => l = v.loc) h' h'' ∧
    (Sample.hembRat.val h'').getItem [97, 98, 97] = .ok [3 / 7, 4 / 7] := by
  refine ⟨Or.inl (by decide), ⟨3, [0, 1]⟩, (Sample.hembRat.getItem [97, 98, 97] Sample.heapRatW).2,
    (HM.write ⟨3, [0, 1]⟩ [1, 1] (Sample.hembRat.getItem [97, 98, 97] Sample.heapRatW).2).2,
    Prod.ext (by decide +kernel) rfl, by decide +kernel, Prod.ext (by decide +kernel) rfl,
    by decide +kernel, ?_, by decide +kernel⟩
  exact write_le (r := .ok ()) (v := ⟨3, [0, 1]⟩) (xs := [1, 1])
    (Prod.ext (by decide +kernel) rfl) fun _ _ => rfl

/-- A quantized storage with two words. -/
def Sample.hembQ : HEmb := ⟨.quant Sample.hq, ⟨[[97], [98]], [([97], 0), ([98], 1)], none⟩, none, none⟩

example : NoRow Sample.hembQ [97] ∧ BuiltVocab Sample.hembQ.vocab ∧ ∃ v h',
    Sample.hembQ.getItem [97] Sample.heapQ = (.ok v, h') ∧ h'.read v = [28, 22] := by
  refine ⟨Or.inr ⟨_, rfl⟩, ⟨(by intro ix h; cases h), by decide⟩, ⟨4, [0, 1]⟩,
    (Sample.hembQ.getItem [97] Sample.heapQ).2, Prod.ext (by decide +kernel) rfl, by decide +kernel⟩

end FF
