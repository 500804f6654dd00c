import Verif.Lemmas.Word2Vec
import Verif.Spec.Samples
import Verif.Spec.Num
/-! C38: word2vec round trip. -/

namespace FF

section
variable {K : Type} [NumOps K] [Codec K]

/-- `write_word2vec` writes the word2vec format: the words in order, each with its row times its
norm, and nothing for subwords. -/
theorem C38_written (e : Embeddings K) (he : BuiltEmb e) (bs : Bytes)
    (h : (writeWord2vec e).file = (.ok (), bs)) :
    ∃ rows : List (PyStr × List F32), bs = w2vFile e.storage.nCols rows ∧
      rows.map Prod.fst = e.vocab.words ∧
      ∀ (i : Nat) w r, rows[i]? = some (w, r) → ∃ v, Exported e i v ∧ r = v.map Codec.bits := by
  obtain ⟨vs, h1, _, h2⟩ := writeWord2vec_inv he h
  refine ⟨_, h2, fileRows_fst h1.1, ?_⟩
  intro i w r hr
  have : ((fileRows e.vocab.words vs).map Prod.snd)[i]? = some r := by
    rw [List.getElem?_map, hr]; rfl
  rw [fileRows_snd h1.1, List.getElem?_map] at this
  cases hv : vs[i]? with
  | none => rw [hv] at this; cases this
  | some v =>
    rw [hv] at this
    exact ⟨v, h1.2 i v hv, (Option.some.inj this).symm⟩

/-- `load_word2vec` on any word2vec file with suitable words returns the words in order, the
normalised vectors and their norms. -/
theorem C38_load (lossy : Bool) (cols : Nat) (rows : List (PyStr × List F32))
    (hw : ∀ p ∈ rows, W2vWord p.1) (hl : ∀ p ∈ rows, p.2.length = cols)
    (hn : (rows.map Prod.fst).Nodup) (hs : ShapeOk rows.length cols) :
    ∃ e : Embeddings K, Rd.run (loadWord2vec lossy) (w2vFile cols rows) = .ok e ∧
      Normalized cols (rows.map Prod.fst) (rows.map fun p => p.2.map Codec.ofBits) e := by
  refine ⟨_, loadWord2vec_ok lossy rows hw hl hn hs, ?_⟩
  have := w2vResult_normalized (K := K) (cols := cols)
    (rows := rows.map fun p => (p.1, p.2.map Codec.ofBits)) (by rw [List.map_map]; exact hn)
  rw [List.map_map, List.map_map] at this
  exact this

/-- Round trip: writing succeeds, and loading gives the same words with the exported vectors (as
float32 values), normalised, and their norms. -/
theorem C38_round_trip (lossy : Bool) (e : Embeddings K) (he : BuiltEmb e)
    (hc : CodesOk e.storage) (hw : ∀ w ∈ e.vocab.words, W2vWord w)
    (hs : ShapeOk e.vocab.words.length e.storage.nCols)
    (hsz : (w2vFile e.storage.nCols
      (e.vocab.words.map fun w => (w, List.replicate e.storage.nCols 0))).length < 2 ^ 63) :
    ∃ vs bs e', ExportedAll e vs ∧ (writeWord2vec e).file = (.ok (), bs) ∧
      Rd.run (loadWord2vec lossy) bs = .ok e' ∧
      Normalized e.storage.nCols e.vocab.words
        (vs.map fun v => v.map fun x => (Codec.ofBits (Codec.bits x) : K)) e' := by
  obtain ⟨vs, hv⟩ := exportedAll_total he hc
  have hf := fileRows_fst (K := K) hv.1
  have hsn := fileRows_snd (K := K) hv.1
  have hlen : ∀ p ∈ fileRows e.vocab.words vs, p.2.length = e.storage.nCols := by
    intro p hp
    have : p.2 ∈ (fileRows e.vocab.words vs).map Prod.snd := List.mem_map_of_mem hp
    rw [hsn] at this
    obtain ⟨v, hvm, hvp⟩ := List.mem_map.mp this
    obtain ⟨i, hi, rfl⟩ := List.getElem_of_mem hvm
    rw [← hvp, List.length_map]
    exact exported_length he (hv.2 i _ (List.getElem?_eq_getElem hi))
  have hwr := writeWord2vec_ok he hv (fun w h => any_surrogate.mpr (hw w h).2.2.2)
    (by rw [w2vFile_length hlen, hf]; exact hsz)
  obtain ⟨e', h1, h2⟩ := C38_load (K := K) lossy e.storage.nCols (fileRows e.vocab.words vs)
    (fun p hp => hw _ (by rw [← hf]; exact List.mem_map_of_mem hp)) hlen
    (by rw [hf]; exact he.vocab.nodup) (by rw [fileRows_length hv.1]; exact hs)
  refine ⟨vs, _, e', hv, hwr, h1, ?_⟩
  rw [hf] at h2
  have e3 : ((fileRows e.vocab.words vs).map fun p => p.2.map (Codec.ofBits (K := K))) =
      vs.map fun v => v.map fun x => Codec.ofBits (Codec.bits x) := by
    have : ((fileRows e.vocab.words vs).map fun p => p.2.map (Codec.ofBits (K := K))) =
        ((fileRows e.vocab.words vs).map Prod.snd).map fun r => r.map Codec.ofBits := by
      rw [List.map_map]; rfl
    rw [this, hsn, List.map_map]
    apply List.map_congr_left
    intro v _
    simp
  rw [e3] at h2
  exact h2

end

/-- On float32 values the loaded vectors are the exported ones, bit for bit. -/
theorem C38_bit_exact [NumOps F32] (lossy : Bool) (e : Embeddings F32) (he : BuiltEmb e)
    (hc : CodesOk e.storage) (hw : ∀ w ∈ e.vocab.words, W2vWord w)
    (hs : ShapeOk e.vocab.words.length e.storage.nCols)
    (hsz : (w2vFile e.storage.nCols
      (e.vocab.words.map fun w => (w, List.replicate e.storage.nCols 0))).length < 2 ^ 63) :
    ∃ vs bs e', ExportedAll e vs ∧ (writeWord2vec e).file = (.ok (), bs) ∧
      Rd.run (loadWord2vec lossy) bs = .ok e' ∧
      Normalized e.storage.nCols e.vocab.words vs e' := by
  obtain ⟨vs, bs, e', h1, h2, h3, h4⟩ := C38_round_trip lossy e he hc hw hs hsz
  have : (vs.map fun v => v.map fun x => (Codec.ofBits (Codec.bits x) : F32)) = vs := by
    have : (fun v : List F32 => v.map fun x => (Codec.ofBits (Codec.bits x) : F32)) = id := by
      funext v
      show v.map id = v
      simp
    rw [this, List.map_id]
  rw [this] at h4
  exact ⟨vs, bs, e', h1, h2, h3, h4⟩

namespace Sample

/-- Some arithmetic on bit patterns, to have concrete instances. -/
def f32Ops : NumOps F32 where
  add a b := a + b
  sub a b := a - b
  mul a b := a * b
  div a b := a / b
  zero := 0
  ofNat n := UInt32.ofNat n
  dot a b := (List.zipWith (· * ·) a b).foldl (· + ·) 0
  norm a := a.foldl (· + ·) 0
  normAxis a := a.foldl (· + ·) 0

theorem w2vWords : ∀ w ∈ words, W2vWord w := by
  have h : ∀ w ∈ words, (w.all fun c => c.val != 32) = true ∧ w.any isSurrogate = false ∧
      (match w.head? with | some c => isSpace c | none => false) = false ∧
      (match w.getLast? with | some c => isSpace c | none => false) = false := by decide
  intro w hw
  obtain ⟨h1, h2, h3, h4⟩ := h w hw
  refine ⟨by simpa using h1, ?_, ?_, any_surrogate.mp h2⟩
  · intro c hc; rw [hc] at h3; exact h3
  · intro c hc; rw [hc] at h4; exact h4

/-- Norms and subword rows: both matter. -/
example : ∃ vs bs e', @ExportedAll F32 f32Ops embBucket vs ∧
    (@writeWord2vec F32 f32Ops _ embBucket).file = (.ok (), bs) ∧
    Rd.run (@loadWord2vec F32 f32Ops _ false) bs = .ok e' ∧
    @Normalized F32 f32Ops 2 words vs e' :=
  @C38_bit_exact f32Ops false embBucket builtEmbBucket trivial w2vWords
    (by unfold ShapeOk; decide) (by decide +kernel)

example : (@writeWord2vec F32 f32Ops _ embBucket).file.2 = w2vFile 2
    [([97], [7, 14]), ([0xDF], [24, 32]), ([0x8A9E], [45, 54])] := by decide +kernel

example : ∃ e : Embeddings F32, Rd.run (@loadWord2vec F32 f32Ops _ true) (w2vFile 2
    [([97], [7, 14]), ([0xDF], [24, 32])]) = .ok e ∧ @Normalized F32 f32Ops 2 [[97], [0xDF]]
    [[7, 14], [24, 32]] e :=
  @C38_load F32 f32Ops _ true 2 [([97], [7, 14]), ([0xDF], [24, 32])]
    (by
      intro p hp
      refine w2vWords _ ?_
      simp only [List.mem_cons, List.not_mem_nil, or_false] at hp
      rcases hp with rfl | rfl <;> decide)
    (by decide) (by decide) (by unfold ShapeOk; decide)

end Sample

end FF
