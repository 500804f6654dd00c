import Verif.Lemmas.HeapCalls
/-!
# C30: queries and writers do not modify the embeddings

`runCalls S E cs h`: the memory after the calls `cs` on the embeddings `E`, starting from memory `h`.
The calls go on after exceptions.  Their arguments, in particular output buffers, queries and
defaults, are arbitrary views of arbitrary buffers: wrong shapes, read-only buffers, views of the
storage and arrays returned by earlier calls are included unless a hypothesis excludes them.
`outCells cs` are the elements of the output buffers passed to these calls.
-/

namespace FF

section
variable {K : Type} [NumOps K] [Codec K] [NumText K]
variable {h : Heap K} {E : HEmb}

/-- The output buffers of the calls share no element with the arrays of the embeddings. -/
def OutsApart (E : HEmb) (cs : List (Call K)) : Prop :=
  ∀ c ∈ cs, ∀ o, c.out = some o → Apart o E.views

omit [NumOps K] [Codec K] [NumText K] in
theorem OutsApart.safe {cs : List (Call K)} (ha : OutsApart E cs) (hE : E.OK h) :
    Safe (outCells cs) h E.views := fun v hv => ⟨hE.valid v hv, by
  rintro i hi ⟨c, hc, o, ho, hl, hio⟩
  exact ha c hc o ho v hv hl i hi hio⟩

omit [Codec K] [NumText K] in
theorem OK.le {P : Nat → Nat → Prop} {h' : Heap K} (hE : E.OK h) (hs : Safe P h E.views)
    (hl : Heap.Le P h h') : E.OK h' :=
  ⟨hE.valid.le hl, by rw [HEmb.val_le hs hl]; exact hE.shape⟩

/-- Only elements of the output buffers change, read-only buffers not at all, and the embeddings keep
their value. -/
theorem C30_frame (S : Sel K) (hE : E.OK h) (hv : BuiltVocab E.vocab) (cs : List (Call K))
    (ha : OutsApart E cs) :
    Heap.Le (outCells cs) h (runCalls S E cs h) ∧ E.val (runCalls S E cs h) = E.val h ∧
      E.OK (runCalls S E cs h) := by
  have main : ∀ (cs : List (Call K)) (h : Heap K), E.OK h → OutsApart E cs →
      Heap.Le (outCells cs) h (runCalls S E cs h) := by
    intro cs
    induction cs with
    | nil => intro h _ _; exact .refl _ _
    | cons c cs ih =>
      intro h hE ha
      have h1 := call_le S hE hv c
      have ha1 : OutsApart E [c] := fun c' hc' => ha c' (by
        cases List.mem_singleton.mp hc'; simp)
      have h2 := ih _ (OK.le hE (ha1.safe hE) h1) fun c' hc' => ha c' (List.mem_cons_of_mem _ hc')
      refine Heap.Le.trans (h1.mono ?_) (h2.mono ?_)
      · rintro l i _ ⟨c', hc', r⟩
        cases List.mem_singleton.mp hc'
        exact ⟨c, by simp, r⟩
      · rintro l i _ ⟨c', hc', r⟩
        exact ⟨c', List.mem_cons_of_mem _ hc', r⟩
  have h1 := main cs h hE ha
  exact ⟨h1, HEmb.val_le (ha.safe hE) h1, OK.le hE (ha.safe hE) h1⟩

/-- Without output buffers every existing buffer stays as it is, bit by bit. -/
theorem C30_nothing_changes (S : Sel K) (hE : E.OK h) (hv : BuiltVocab E.vocab) (cs : List (Call K))
    (hn : ∀ c ∈ cs, c.out = none) {l : Nat} {b : Buf K} (hb : h[l]? = some b) :
    (runCalls S E cs h)[l]? = some b := by
  obtain ⟨h1, _, _⟩ := C30_frame S hE hv cs fun c hc o ho => by rw [hn c hc] at ho; cases ho
  obtain ⟨b', e1, e2, e3, _, e4⟩ := h1.buf l b hb
  rw [e1]
  cases b
  cases b'
  simp only at e2 e3 e4
  congr 1
  congr 1
  refine List.ext_getElem? fun i => e4 i ?_
  rintro ⟨c, hc, o, ho, _⟩
  rw [hn c hc] at ho
  cases ho

/-- After any calls, a query or export gives the answer that the original embeddings give in the
value model: vectors, similarities, file contents and exceptions.  Only the query vector and the
default come from the present memory.  (Calls with output buffers: C29.) -/
theorem C30_answers (S : Sel K) (hE : E.OK h) (hv : BuiltVocab E.vocab) (cs : List (Call K))
    (ha : OutsApart E cs) (c : Call K) (hc : c.out = none) :
    (c.run S E (runCalls S E cs h)).1 = c.expect S (E.val h) (runCalls S E cs h) := by
  obtain ⟨_, h2, h3⟩ := C30_frame S hE hv cs ha
  rw [(call_plain S h3 hv c hc).1, h2]

omit [Codec K] [NumText K] in
/-- `bucket_to_explicit` leaves every array alone.  The storage of the new embeddings is new: later
changes to it do not reach the source. -/
theorem C30_explicit_fresh (hE : E.OK h) (hv : BuiltVocab E.vocab) {E' : HEmb} {h' : Heap K}
    (hr : E.bucketToExplicit h = (.ok E', h')) :
    Heap.Le Never h h' ∧ (E.val h).bucketToExplicit = .ok (E'.val h') ∧ E'.norms = E.norms ∧
      ∀ h'' : Heap K, Heap.Le (fun l i => ∃ v ∈ E'.storage.views, v.cells l i) h' h'' →
        E.val h'' = E.val h := by
  obtain ⟨x, h1, e1, e2, e3⟩ := b2e_refines hE (fun _ => toExplicit_bound hv)
  rw [hr] at e1
  cases e1
  cases hb : (E.val h).bucketToExplicit with
  | error y => rw [hb] at e3; exact e3.elim
  | ok b =>
    rw [hb] at e3
    obtain ⟨rfl, e4, e5, e6⟩ := e3
    refine ⟨e2, rfl, e4, fun h'' hle => ?_⟩
    rw [HEmb.val_le (P := fun l i => ∃ v ∈ E'.storage.views, v.cells l i) ?_ hle,
      HEmb.val_le hE.valid.never e2]
    intro v hm
    refine ⟨(hE.valid v hm).le e2, ?_⟩
    rintro i _ ⟨u, hu, hl, _⟩
    have := (hE.valid v hm).lt
    have := e6 u hu
    omega

end

/-- `Embeddings.write` writes the bytes of the value and changes no array. -/
theorem C30_write (T : Toml) {h : Heap F32} (E : HEmb) (bs : Bytes) :
    ∃ r bs', E.write T (h, bs) = (r, (h, bs')) ∧ (E.val h).write T bs = (r, bs') := by
  exact ⟨_, _, hw_bind_ok rfl, rfl⟩

/-! ### The hypotheses can be met -/

@[instance_reducible] def Sample.ratCodec : Codec Rat := ⟨fun q => UInt32.ofNat q.num.toNat, fun b => b.toNat⟩

@[instance_reducible] def Sample.ratText : NumText Rat := ⟨fun q => decimal q.num.toNat, fun _ => .ok 0⟩

/-- The read-only storage, the norms and the third buffer, of which the first call gets every other
element; the second call fails because its output buffer is too short. -/
def Sample.callsRat : List (Call Rat) :=
  [.embedding [97, 98, 97] (some Sample.outRat) none, .embedding [97, 98] (some ⟨2, [0]⟩) none,
    .wordSimilarity [97, 98] 1, .analogy [97, 98] [97, 98, 97] [97, 98] 1 (some []), .word2vec,
    .text true [32], .fasttext, .bucketToExplicit, .embeddingSimilarity Sample.outRat 1 none]

example : Sample.hembRat.OK Sample.heapRat ∧ BuiltVocab Sample.hembRat.vocab ∧
    OutsApart Sample.hembRat Sample.callsRat ∧
    ((@runCalls Rat _ Sample.ratCodec Sample.ratText (@Sel.sorting Rat (.ofOrder Rat) _) Sample.hembRat
      Sample.callsRat Sample.heapRat).take 3) =
      [⟨[3, 4, 0, 2, 300, 0, 7, 7, 0, 400], false⟩, ⟨[5, 2], true⟩,
        ⟨[9, 4 / 7, 9, 3 / 7, 8, 7], true⟩] := by
  refine ⟨Sample.hembRat_ok, Sample.builtEmbRat.vocab, ?_, by decide +kernel⟩
  have hviews : Sample.hembRat.views = [⟨0, [0, 1]⟩, ⟨0, [2, 3]⟩, ⟨0, [4, 5]⟩, ⟨0, [6, 7]⟩,
    ⟨0, [8, 9]⟩, ⟨1, [0, 1]⟩] := rfl
  have hloc : ∀ o : View, o.loc = 2 → Apart o Sample.hembRat.views := by
    intro o ho v hv hl
    rw [hviews] at hv
    simp only [List.mem_cons, List.not_mem_nil, or_false] at hv
    rw [ho] at hl
    rcases hv with rfl | rfl | rfl | rfl | rfl | rfl <;> cases hl
  intro c hc o ho
  refine hloc o ?_
  have : ∀ c ∈ Sample.callsRat, ∀ o ∈ c.out, o.loc = 2 := by
    intro c hc
    simp only [Sample.callsRat, List.mem_cons, List.not_mem_nil, or_false] at hc
    rcases hc with rfl | rfl | rfl | rfl | rfl | rfl | rfl | rfl | rfl <;>
      · intro o ho
        cases ho <;> rfl
  exact this c hc o ho

/-- The conversion succeeds for these embeddings. -/
example : (Sample.hembRat.bucketToExplicit Sample.heapRat).1.isOk := by decide +kernel

/-- The norms are not copied: if they are changed in the new embeddings, they change in the source. -/
theorem C30_explicit_shares_norms :
    ∃ E' h' h'', Sample.hembRat.bucketToExplicit Sample.heapRat = (.ok E', h') ∧
      E'.norms.map (fun v => (HM.write v [1, 1] h').2) = some h'' ∧
      (Sample.hembRat.val h').norms = some [5, 2] ∧ (Sample.hembRat.val h'').norms = some [1, 1] := by
  have h1 : (Sample.hembRat.bucketToExplicit Sample.heapRat).1.toOption.map
      (fun E' => E'.norms) = some (some ⟨1, [0, 1]⟩) := by decide +kernel
  cases hr : Sample.hembRat.bucketToExplicit Sample.heapRat with
  | mk x h' =>
    rw [hr] at h1
    cases x with
    | error x => cases h1
    | ok E' =>
      have h2 : E'.norms = some ⟨1, [0, 1]⟩ := Option.some.inj h1
      have h3 : h' = (Sample.hembRat.bucketToExplicit Sample.heapRat).2 := by rw [hr]
      refine ⟨E', h', _, rfl, by rw [h2]; rfl, ?_, ?_⟩
      · rw [h3]; decide +kernel
      · rw [h3]; decide +kernel

end FF
