import Verif.Lemmas.HeapOut
import Verif.Props.C25
/-!
# C29: output buffers

`E.val h` are the embeddings of the value model that the objects stand for in memory `h`; without
`out` its `embedding` is what `embedding(word)` returns (C27, C28).  `Buffer h o n`: `o` is a
writable array of `n` elements, possibly strided.  `Heap.Le o.cells h h'`: from `h` to `h'` only
elements of `o` changed.  The buffer may share memory with the storage, but not with the norms.
-/

namespace FF

section
variable {K : Type} [NumOps K] {h : Heap K} {E : HEmb}

/-! ### `embedding` -/

/-- A word with an embedding: it is written to `out`, `out` is returned and nothing else changes. -/
theorem C29_found (hE : E.OK h) {o : View} (hb : Buffer h o E.storage.nCols)
    (ha : Apart o E.norms.toList) {w : PyStr} {v : List K}
    (hv : (E.val h).embedding w = .ok (some v)) (default : Option View) :
    ∃ h', E.embedding w (some o) default h = (.ok (some o), h') ∧ h'.read o = v ∧
      Heap.Le o.cells h h' := by
  unfold Embeddings.embedding at hv
  obtain ⟨idx, h1, hv⟩ := res_bind_inv hv
  cases idx with
  | none => cases hv
  | some idx =>
    obtain ⟨r, h2, hv⟩ := res_bind_inv (m := (E.val h).embed idx) hv
    cases hv
    obtain ⟨x, h', e1, e2, e3⟩ := embedOut_refines hE.valid hE.shape hb ha idx
    rw [h2] at e3
    cases x with
    | error x => exact e3.elim
    | ok a =>
      obtain ⟨ea, eb⟩ : a = (o, r.2) ∧ h'.read o = r.1 := e3
      subst ea
      refine ⟨h', ?_, eb, e2⟩
      unfold HEmb.embedding
      have hi : HM.lift (E.vocab.idx w) h = (.ok (some idx), h) := by
        show (E.vocab.idx w, h) = _
        rw [show E.vocab.idx w = _ from h1]
      rw [hm_bind_ok hi]
      dsimp only
      rw [hm_bind_ok e1]
      rfl

theorem embedding_none {w : PyStr} (hv : (E.val h).embedding w = .ok none) :
    E.vocab.idx w = .ok none := by
  unfold Embeddings.embedding at hv
  obtain ⟨idx, h1, hv⟩ := res_bind_inv hv
  cases idx with
  | none => exact h1
  | some idx =>
    obtain ⟨r, h2, hv⟩ := res_bind_inv (m := (E.val h).embed idx) hv
    cases hv

omit [NumOps K] in
theorem lift_none {w : PyStr} (hi : E.vocab.idx w = .ok none) :
    HM.lift (E.vocab.idx w) h = (.ok none, h) := by
  show (E.vocab.idx w, h) = _
  rw [hi]

/-- No embedding, but a default of the right length: `out` receives the default and is returned. -/
theorem C29_default {n : Nat} {o d : View} (hb : Buffer h o n) {w : PyStr}
    (hv : (E.val h).embedding w = .ok none) (hd : (h.read d).length = n) :
    ∃ h', E.embedding w (some o) (some d) h = (.ok (some o), h') ∧ h'.read o = h.read d ∧
      Heap.Le o.cells h h' := by
  obtain ⟨h', e1, e2, e3⟩ := write_buffer hb hd
  refine ⟨h', ?_, e3, e2⟩
  unfold HEmb.embedding
  rw [hm_bind_ok (lift_none (embedding_none hv))]
  dsimp only
  rw [hm_read_bind, hm_bind_ok e1]
  rfl

/-- A default with one element (or a number) fills `out`. -/
theorem C29_default_broadcast {n : Nat} {o d : View} (hb : Buffer h o n) {w : PyStr}
    (hv : (E.val h).embedding w = .ok none) {y : K} (hd : h.read d = [y]) :
    ∃ h', E.embedding w (some o) (some d) h = (.ok (some o), h') ∧
      h'.read o = List.replicate n y ∧ Heap.Le o.cells h h' := by
  obtain ⟨h', e1, e2, e3⟩ := write_broadcast hb y
  refine ⟨h', ?_, e3, e2⟩
  unfold HEmb.embedding
  rw [hm_bind_ok (lift_none (embedding_none hv))]
  dsimp only
  rw [hm_read_bind, hd, hm_bind_ok e1]
  rfl

/-- A default of any other length raises `ValueError` and changes nothing. -/
theorem C29_default_wrong {n : Nat} {o d : View} (hb : Buffer h o n) {w : PyStr}
    (hv : (E.val h).embedding w = .ok none) (hd : (h.read d).length ≠ n)
    (h1 : (h.read d).length ≠ 1) :
    E.embedding w (some o) (some d) h = (.error .valueError, h) := by
  unfold HEmb.embedding
  rw [hm_bind_ok (lift_none (embedding_none hv))]
  dsimp only
  rw [hm_read_bind, hm_bind_error (write_wrong hb hd h1)]

/-- No embedding and no default: `None`, and nothing changes, `out` included. -/
theorem C29_none {w : PyStr} (hv : (E.val h).embedding w = .ok none) (out : Option View) :
    E.embedding w out none h = (.ok none, h) := by
  unfold HEmb.embedding
  rw [hm_bind_ok (lift_none (embedding_none hv))]
  cases out <;> rfl

/-- Without `out` the default itself is returned. -/
theorem C29_default_itself {w : PyStr} (hv : (E.val h).embedding w = .ok none) (d : View) :
    E.embedding w none (some d) h = (.ok (some d), h) := by
  unfold HEmb.embedding
  rw [hm_bind_ok (lift_none (embedding_none hv))]
  rfl

/-- An `out` of another length raises `ValueError` and no existing array changes, `out` included.
(Vectors with one component are broadcast instead.) -/
theorem C29_wrong_length (hE : E.OK h) {o : View} {n : Nat} (hb : Buffer h o n)
    (hn : n ≠ E.storage.nCols) (h1 : E.storage.nCols ≠ 1) {w : PyStr} {v : List K}
    (hv : (E.val h).embedding w = .ok (some v)) (default : Option View) :
    ∃ h', E.embedding w (some o) default h = (.error .valueError, h') ∧ Heap.Le Never h h' := by
  unfold Embeddings.embedding at hv
  obtain ⟨idx, hi, hv⟩ := res_bind_inv hv
  cases idx with
  | none => cases hv
  | some idx =>
    obtain ⟨r, h2, hv⟩ := res_bind_inv (m := (E.val h).embed idx) hv
    obtain ⟨h', e1, e2⟩ := embedOut_wrong hE.valid hE.shape hb hn h1 idx r h2
    refine ⟨h', ?_, e2⟩
    unfold HEmb.embedding
    have hi : HM.lift (E.vocab.idx w) h = (.ok (some idx), h) := by
      show (E.vocab.idx w, h) = _
      rw [show E.vocab.idx w = _ from hi]
    rw [hm_bind_ok hi]
    dsimp only
    rw [hm_bind_error e1]

/-! ### `embedding_with_norm` -/

/-- A word with an embedding: vector in `out`, the same norm as without `out`. -/
theorem C29_norm_found (hE : E.OK h) {o : View} (hb : Buffer h o E.storage.nCols)
    (ha : Apart o E.norms.toList) {w : PyStr} {r : List K × Option K}
    (hv : (E.val h).embeddingWithNorm w = .ok (some r)) (default : Option (View × K)) :
    ∃ h', E.embeddingWithNorm w (some o) default h = (.ok (some (o, r.2)), h') ∧
      h'.read o = r.1 ∧ Heap.Le o.cells h h' := by
  unfold Embeddings.embeddingWithNorm at hv
  cases hn : E.norms with
  | none => rw [norms_none hn] at hv; cases hv
  | some ns =>
  rw [norms_read hn] at hv
  obtain ⟨idx, h1, hv⟩ := res_bind_inv hv
  cases idx with
  | none => cases hv
  | some idx =>
    obtain ⟨r', h2, hv⟩ := res_bind_inv (m := (E.val h).embed idx) hv
    cases hv
    obtain ⟨x, h', e1, e2, e3⟩ := embedOut_refines hE.valid hE.shape hb ha idx
    rw [h2] at e3
    cases x with
    | error x => exact e3.elim
    | ok a =>
      obtain ⟨ea, eb⟩ : a = (o, r.2) ∧ h'.read o = r.1 := e3
      subst ea
      refine ⟨h', ?_, eb, e2⟩
      unfold HEmb.embeddingWithNorm
      have hi : HM.lift (E.vocab.idx w) h = (.ok (some idx), h) := by
        show (E.vocab.idx w, h) = _
        rw [show E.vocab.idx w = _ from h1]
      rw [hn]
      dsimp only
      rw [hm_bind_ok hi]
      dsimp only
      rw [hm_bind_ok e1]
      rfl

theorem withNorm_none {w : PyStr} (hv : (E.val h).embeddingWithNorm w = .ok none) :
    (∃ ns, E.norms = some ns) ∧ E.vocab.idx w = .ok none := by
  unfold Embeddings.embeddingWithNorm at hv
  cases hn : E.norms with
  | none => rw [norms_none hn] at hv; cases hv
  | some ns =>
  rw [norms_read hn] at hv
  refine ⟨⟨ns, rfl⟩, ?_⟩
  obtain ⟨idx, h1, hv⟩ := res_bind_inv hv
  cases idx with
  | none => exact h1
  | some idx =>
    obtain ⟨r', h2, hv⟩ := res_bind_inv (m := (E.val h).embed idx) hv
    cases hv

/-- No embedding, but a default: `out` receives its vector and is returned with its norm. -/
theorem C29_norm_default {n : Nat} {o : View} {d : View × K} (hb : Buffer h o n) {w : PyStr}
    (hv : (E.val h).embeddingWithNorm w = .ok none) (hd : (h.read d.1).length = n) :
    ∃ h', E.embeddingWithNorm w (some o) (some d) h = (.ok (some (o, some d.2)), h') ∧
      h'.read o = h.read d.1 ∧ Heap.Le o.cells h h' := by
  obtain ⟨⟨ns, hn⟩, hi⟩ := withNorm_none hv
  obtain ⟨h', e1, e2, e3⟩ := write_buffer hb hd
  refine ⟨h', ?_, e3, e2⟩
  unfold HEmb.embeddingWithNorm
  rw [hn]
  dsimp only
  rw [hm_bind_ok (lift_none hi)]
  dsimp only
  rw [hm_read_bind, hm_bind_ok e1]
  rfl

/-- No embedding and no default: `None`, and nothing changes, `out` included. -/
theorem C29_norm_none {w : PyStr} (hv : (E.val h).embeddingWithNorm w = .ok none)
    (out : Option View) : E.embeddingWithNorm w out none h = (.ok none, h) := by
  obtain ⟨⟨ns, hn⟩, hi⟩ := withNorm_none hv
  unfold HEmb.embeddingWithNorm
  rw [hn]
  dsimp only
  rw [hm_bind_ok (lift_none hi)]
  cases out <;> rfl

/-- Embeddings without norms raise `TypeError` and change nothing. -/
theorem C29_norm_missing (hn : E.norms = none) (w : PyStr) (out : Option View)
    (default : Option (View × K)) :
    E.embeddingWithNorm w out default h = (.error .typeError, h) := by
  unfold HEmb.embeddingWithNorm
  rw [hn]
  rfl

/-! ### `QuantizedArray.embedding` -/

/-- `QuantizedArray.embedding(i, out=o)` writes the reconstruction to `o` and returns it; with a
projection `o` has to be contiguous. -/
theorem C29_quantized {q : HQArr} (hq : Valids h q.views) (hw : QWF (q.val h)) {o : View}
    (hb : Buffer h o q.pq.reconstructedLen) (ha : Apart o q.views)
    (hc : q.pq.projection.isSome → o.contiguous = true) {i : Int} {v : List K}
    (hv : (q.val h).getOne i = .ok v) :
    ∃ h', q.embedding i (some o) h = (.ok o, h') ∧ h'.read o = v ∧ Heap.Le o.cells h h' := by
  obtain ⟨x, h', e1, e2, e3⟩ := qEmbeddingOut_refines hq hw hb ha hc i
  rw [hv] at e3
  cases x with
  | error x => exact e3.elim
  | ok a =>
    obtain ⟨ea, eb⟩ : a = o ∧ h'.read o = v := e3
    subst ea
    exact ⟨h', e1, eb, e2⟩

end

/-! ### The hypotheses can be met -/

/-- The rows of `Sample.embRat` in a read-only (memory mapped) buffer, its norms, and a buffer of
six elements. -/
def Sample.heapRat : Heap Rat :=
  [⟨[3, 4, 0, 2, 300, 0, 7, 7, 0, 400], false⟩, ⟨[5, 2], true⟩, ⟨[9, 9, 9, 9, 8, 7], true⟩]

def Sample.hembRat : HEmb :=
  ⟨.nd ⟨0, 2, [[0, 1], [2, 3], [4, 5], [6, 7], [8, 9]]⟩, Sample.embRat.vocab, some ⟨1, [0, 1]⟩, none⟩

theorem Sample.valid_of {h : Heap Rat} {v : View}
    (hv : (h[v.loc]?.any fun b => v.idxs.all fun i => decide (i < b.data.length)) = true) :
    v.Valid h := by
  cases hb : h[v.loc]? with
  | none => rw [hb] at hv; cases hv
  | some b =>
    rw [hb] at hv
    exact ⟨b, hb, fun i hi => by
      have := List.all_eq_true.mp hv i hi
      simpa using this⟩

theorem Sample.hembRat_ok : Sample.hembRat.OK Sample.heapRat where
  valid := by
    intro v hv
    have : v ∈ ([⟨0, [0, 1]⟩, ⟨0, [2, 3]⟩, ⟨0, [4, 5]⟩, ⟨0, [6, 7]⟩, ⟨0, [8, 9]⟩, ⟨1, [0, 1]⟩] :
        List View) := hv
    simp only [List.mem_cons, List.not_mem_nil, or_false] at this
    rcases this with rfl | rfl | rfl | rfl | rfl | rfl <;> exact Sample.valid_of (by decide)
  shape := by
    refine ⟨?_, by unfold ShapeOk; decide⟩
    show ∀ r ∈ _, _
    decide

/-- Every other element of the third buffer. -/
def Sample.outRat : View := ⟨2, [3, 1]⟩

/-- The same without n-grams. -/
def Sample.hembRat' : HEmb :=
  { Sample.hembRat with vocab := ⟨Sample.embRat.vocab.words, Sample.embRat.vocab.index, none⟩ }

/-- `ab` is known, `aba` is not but has n-grams, which the second embeddings ignore. -/
example : Sample.hembRat.val Sample.heapRat = Sample.embRat ∧
    Sample.hembRat.OK Sample.heapRat ∧ Buffer Sample.heapRat Sample.outRat 2 ∧
    Apart Sample.outRat Sample.hembRat.norms.toList ∧
    (Sample.embRat.embedding [97, 98] = .ok (some [3, 4])) ∧
    (Sample.embRat.embedding [97, 98, 97] = .ok (some [3 / 7, 4 / 7])) ∧
    (Sample.embRat.embeddingWithNorm [97, 98] = .ok (some ([3, 4], some 5))) ∧
    (Sample.hembRat'.val Sample.heapRat).embeddingWithNorm [97, 98, 97] = .ok none ∧
    (Sample.hembRat'.val Sample.heapRat).embedding [97, 98, 97] = .ok none :=
  ⟨rfl, Sample.hembRat_ok, ⟨Sample.valid_of (by decide), by decide, (by
    intro b hb; cases hb; rfl), rfl⟩, (by
    intro v hv hl
    simp only [Sample.hembRat, Option.toList_some, List.mem_singleton] at hv
    subst hv
    cases hl), by decide +kernel, by decide +kernel, by decide +kernel, by decide +kernel,
    by decide +kernel⟩

/-- The calls on this memory. -/
example : (Sample.hembRat.embedding [97, 98] (some Sample.outRat) none Sample.heapRat).2[2]? =
      some ⟨[9, 4, 9, 3, 8, 7], true⟩ ∧
    (Sample.hembRat.embedding [97, 98, 97] (some Sample.outRat) none Sample.heapRat).2[2]? =
      some ⟨[9, 4 / 7, 9, 3 / 7, 8, 7], true⟩ ∧
    (Sample.hembRat'.embedding [97, 98, 97] (some Sample.outRat) (some ⟨2, [4, 5]⟩)
        Sample.heapRat).2[2]? =
      some ⟨[9, 7, 9, 8, 8, 7], true⟩ ∧
    (Sample.hembRat.embedding [97, 98] (some ⟨2, [0, 1, 2]⟩) none Sample.heapRat).1 =
      .error .valueError := by
  decide +kernel

/-- A quantized storage with projection and norms next to a buffer of two elements. -/
def Sample.heapQ : Heap Rat :=
  [⟨[11, 12, 13, 14], true⟩, ⟨[0, 1, 1, 0], true⟩, ⟨[2, 3], true⟩, ⟨[9, 9, 9], true⟩]

def Sample.hq : HQArr :=
  ⟨⟨2, 1, [⟨0, 1, [[0], [1]]⟩, ⟨0, 1, [[2], [3]]⟩], some ⟨1, 2, [[0, 1], [2, 3]]⟩⟩, 2,
    [[0, 1], [1, 0]], some ⟨2, [0, 1]⟩⟩

example : Valids Sample.heapQ Sample.hq.views ∧ QWF (Sample.hq.val Sample.heapQ) ∧
    Buffer Sample.heapQ ⟨3, [1, 2]⟩ Sample.hq.pq.reconstructedLen ∧
    Apart ⟨3, [1, 2]⟩ Sample.hq.views ∧ View.contiguous ⟨3, [1, 2]⟩ = true ∧
    (Sample.hq.val Sample.heapQ).getOne 1 = .ok [39, 36] ∧
    (Sample.hq.embedding 1 (some ⟨3, [1, 2]⟩) Sample.heapQ).2[3]? = some ⟨[9, 39, 36], true⟩ := by
  have hviews : Sample.hq.views = [⟨0, [0]⟩, ⟨0, [1]⟩, ⟨0, [2]⟩, ⟨0, [3]⟩, ⟨1, [0, 1]⟩, ⟨1, [2, 3]⟩,
    ⟨2, [0, 1]⟩] := rfl
  refine ⟨?_, ⟨by decide, rfl, by decide +kernel, by decide +kernel, ?_, ?_, by decide, by decide,
      by decide⟩,
    ⟨Sample.valid_of (by decide), by decide, by intro b hb; cases hb; rfl, rfl⟩, ?_, by decide,
    by decide +kernel, by decide +kernel⟩
  · intro v hv
    rw [hviews] at hv
    simp only [List.mem_cons, List.not_mem_nil, or_false] at hv
    rcases hv with rfl | rfl | rfl | rfl | rfl | rfl | rfl <;> exact Sample.valid_of (by decide)
  · intro p hp
    cases hp
    exact ⟨by unfold Mat.WF; decide +kernel, rfl, rfl⟩
  · intro n hn
    cases hn
    decide +kernel
  · intro v hv hl
    rw [hviews] at hv
    simp only [List.mem_cons, List.not_mem_nil, or_false] at hv
    rcases hv with rfl | rfl | rfl | rfl | rfl | rfl | rfl <;> cases hl

/-- A strided buffer is overwritten, but the call raises if there is a projection. -/
theorem C29_quantized_strided : (Sample.hq.embedding 1 (some ⟨3, [0, 2]⟩) Sample.heapQ).1 =
      .error .valueError ∧
    (Sample.hq.embedding 1 (some ⟨3, [0, 2]⟩) Sample.heapQ).2[3]? = some ⟨[12, 9, 13], true⟩ := by
  decide +kernel

end FF
