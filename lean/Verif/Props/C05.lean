import Verif.Lemmas.LoadOne
import Verif.Spec.Samples
/-! C05: loading single components out of an embeddings file. -/

namespace FF

/-- The chunks in front of the vocabulary. -/
theorem metaEnc_chunks {T : Toml} {md : Option Meta} {mb : Bytes} (h : MetaEnc T md mb) :
    ∃ cs, mb = chunksBytes cs ∧ (∀ p ∈ cs, p.1 = .metadata) ∧ (md = none → cs = []) := by
  cases md with
  | none => exact ⟨[], h, by simp, fun _ => rfl⟩
  | some m =>
    obtain ⟨str, _, _, _, rfl⟩ := h
    exact ⟨[(.metadata, utf8 str)], by simp [chunksBytes, chunkBytes_eq, metaBody, chunkHead],
      by simp, by intro h; cases h⟩

theorem chunksBytes_append (a b : List (ChunkId × Bytes)) :
    chunksBytes (a ++ b) = chunksBytes a ++ chunksBytes b := by
  induction a with
  | nil => rfl
  | cons x a ih => obtain ⟨c, b'⟩ := x; simp [chunksBytes, ih]

theorem vocabEnc_chunk {v : Vocab} (hx : ∀ ix, v.sub = some (.expl ix) → ix.ngrams = []) :
    vocabEnc v = chunkBytes v.chunkId (vocabBody v) := by
  have := vocabLen_eq v
  have hl : (vocabBody v).length = vocabLen v := by
    rcases hs : v.sub with _ | (ix | ix | ix) <;> rw [hs] at this <;> simp only at this
    · exact this
    · exact this
    · exact this
    · rw [hx ix hs] at this; exact this
  rw [vocabEnc, chunkBytes_eq, hl]; rfl

theorem storageEnc_chunk {st : Storage F32} (hw : StorageWF st) (pos : Nat) :
    storageEnc pos st = chunkBytes st.chunkId (storageBody (padFloat32 (pos + 4)) st) := by
  rw [storageEnc, chunkBytes_eq, length_storageBody _ _ hw]; rfl

theorem normsEnc_chunk (n : List F32) (pos : Nat) :
    normsEnc pos (some n) = chunkBytes .ndNorms (normsBody (padFloat32 (pos + 4)) n) := by
  rw [normsEnc, chunkBytes_eq, length_normsBody]; rfl

/-- `load_metadata` returns the metadata of the embeddings. -/
theorem C05_metadata (T : Toml) (e : Embeddings F32) (m : Meta) (bs : Bytes)
    (hT : TomlOk T e.metadata) (hw : (e.write T).file = (.ok (), bs)) (hm : e.metadata = some m) :
    Rd.run (loadMetadata T) bs = .ok m := by
  obtain ⟨mb, h⟩ := embWrite_inv hw
  obtain ⟨hme, heq, _, _, _, _, _, hsz⟩ := h
  rw [hm] at hme
  obtain ⟨str, h1, h2, h3, rfl⟩ := hme
  rw [heq] at hsz ⊢
  simp only [List.length_append, metaBody] at hsz
  obtain ⟨s', r⟩ := loadMetadata_at (T := T) (m := m) (str := str)
    (hdr := e.chunkIds.map ChunkId.toNat) (cs := []) (pos := 0) h2 (hT m str hm h1) h3 (by omega)
    (chunkIds_ne e) (chunkIds_len e) (chunkIds_lt e) (by simp)
    (by rw [chunksBytes, List.append_nil]; omega)
  exact rd_run_of r

/-- `load_vocab`, and the loader for the class, return the vocabulary of the embeddings. -/
theorem C05_vocab (T : Toml) (e : Embeddings F32) (bs : Bytes) (he : BuiltEmb e)
    (hg : HasNgrams e.vocab) (hw : (e.write T).file = (.ok (), bs)) :
    ∃ v', SameVocab e.vocab v' ∧ Rd.run loadVocab bs = .ok v' ∧
      Rd.run (loadVocabAs e.vocab) bs = .ok v' := by
  obtain ⟨mb, h⟩ := embWrite_inv hw
  obtain ⟨hme, heq, hvf, hvl, _, _, _, hsz⟩ := h
  obtain ⟨cs, rfl, hcs, _⟩ := metaEnc_chunks hme
  rw [heq] at hsz ⊢
  simp only [List.length_append] at hsz
  obtain ⟨⟨s1, r1⟩, s2, r2⟩ := loadVocab_at (cs := cs) (pos := 0) he.vocab.wf hvf hvl hg
    (chunkIds_ne e) (chunkIds_len e) (chunkIds_lt e) (by intro p hp; rw [hcs p hp]; decide)
    (by rw [List.length_append]; omega)
  exact ⟨_, canonVocab_same he.vocab.wf hvf, rd_run_of r1, rd_run_of r2⟩

theorem vocabId_storage (v : Vocab) : v.chunkId ∉ [ChunkId.ndArray, .quantizedArray] := by
  unfold Vocab.chunkId
  rcases v.sub with _ | (ix | ix | ix) <;> simp

theorem vocabId_norms (v : Vocab) : v.chunkId ∉ [ChunkId.ndNorms] := by
  unfold Vocab.chunkId
  rcases v.sub with _ | (ix | ix | ix) <;> simp

theorem vocabId_meta (v : Vocab) : v.chunkId ∉ [ChunkId.metadata] := by
  unfold Vocab.chunkId
  rcases v.sub with _ | (ix | ix | ix) <;> simp

/-- `load_storage`, and the loader for the class, return the storage of the embeddings.
(Missing: `ExplicitVocab`s with n-grams, see `C05_explicit_refuted`.) -/
theorem C05_storage_partial (T : Toml) (e : Embeddings F32) (bs : Bytes) (hst : StorageWF e.storage)
    (hx : ∀ ix, e.vocab.sub = some (.expl ix) → ix.ngrams = [])
    (hw : (e.write T).file = (.ok (), bs)) :
    Rd.run (loadStorage false) bs = .ok e.storage ∧
      Rd.run (loadStorageAs e.storage false) bs = .ok e.storage := by
  obtain ⟨mb, h⟩ := embWrite_inv hw
  obtain ⟨hme, heq, hvf, hvl, hsf, hsl, _, hsz⟩ := h
  obtain ⟨cs, rfl, hcs, _⟩ := metaEnc_chunks hme
  rw [heq] at hsz ⊢
  rw [vocabEnc_chunk hx] at *
  generalize hp : headerEnc (e.chunkIds.map ChunkId.toNat) ++ chunksBytes cs ++
    chunkBytes e.vocab.chunkId (vocabBody e.vocab) = p at *
  have hp' : p = headerEnc (e.chunkIds.map ChunkId.toNat) ++
      chunksBytes (cs ++ [(e.vocab.chunkId, vocabBody e.vocab)]) := by
    rw [← hp, chunksBytes_append]; simp [chunksBytes]
  have hsz' : (p ++ storageEnc p.length e.storage).length < maxSize := by
    rw [← List.append_assoc, ← List.append_assoc, hp, ← List.append_assoc, List.length_append] at hsz
    omega
  obtain ⟨⟨s1, r1⟩, s2, r2⟩ := loadStorage_at (cs := cs ++ [(e.vocab.chunkId, vocabBody e.vocab)])
    (pos := 0) (post := normsEnc (p ++ storageEnc p.length e.storage).length e.norms) hp' hst hsf hsl
    (chunkIds_ne e) (chunkIds_len e) (chunkIds_lt e) (by
      intro p hp
      rcases List.mem_append.mp hp with hp | hp
      · rw [hcs p hp]; decide
      · rw [List.mem_singleton] at hp; subst hp; exact vocabId_storage _) hsz'
  simp only [chunksBytes_append, chunksBytes, List.append_assoc, List.nil_append] at r1 r2
  exact ⟨rd_run_of r1, rd_run_of r2⟩

/-- `load_norms` returns the norms of the embeddings.
(Missing: `ExplicitVocab`s with n-grams, see `C05_explicit_refuted`.) -/
theorem C05_norms_partial (T : Toml) (e : Embeddings F32) (n : List F32) (bs : Bytes)
    (hst : StorageWF e.storage) (hx : ∀ ix, e.vocab.sub = some (.expl ix) → ix.ngrams = [])
    (hw : (e.write T).file = (.ok (), bs)) (hn : e.norms = some n) :
    Rd.run loadNorms bs = .ok n := by
  obtain ⟨mb, h⟩ := embWrite_inv hw
  obtain ⟨hme, heq, hvf, hvl, hsf, hsl, hnl, hsz⟩ := h
  obtain ⟨cs, rfl, hcs, _⟩ := metaEnc_chunks hme
  obtain ⟨hn1, hn2⟩ := hnl n hn
  rw [heq] at hsz ⊢
  rw [hn] at *
  rw [vocabEnc_chunk hx, storageEnc_chunk hst] at *
  generalize hV : (e.vocab.chunkId, vocabBody e.vocab) = V at *
  generalize hS : storageBody _ e.storage = S at *
  generalize hp : headerEnc (e.chunkIds.map ChunkId.toNat) ++ chunksBytes cs ++
    chunkBytes e.vocab.chunkId (vocabBody e.vocab) ++ chunkBytes e.storage.chunkId S = p at *
  have hp' : p = headerEnc (e.chunkIds.map ChunkId.toNat) ++
      chunksBytes (cs ++ [V, (e.storage.chunkId, S)]) := by
    rw [← hp, chunksBytes_append, ← hV]; simp [chunksBytes]
  have hsz' : (p ++ normsEnc p.length (some n)).length < maxSize := by
    rw [← List.append_assoc, ← List.append_assoc, ← List.append_assoc, hp] at hsz
    exact hsz
  obtain ⟨s1, r1⟩ := loadNorms_at (cs := cs ++ [V, (e.storage.chunkId, S)])
    (pos := 0) (post := []) hp' hn1 hn2
    (chunkIds_ne e) (chunkIds_len e) (chunkIds_lt e) (by
      intro p hp
      rcases List.mem_append.mp hp with hp | hp
      · rw [hcs p hp]; decide
      · simp only [List.mem_cons, List.not_mem_nil, or_false] at hp
        rcases hp with rfl | rfl
        · rw [← hV]; exact vocabId_norms _
        · cases e.storage <;> simp [Storage.chunkId]) hsz'
  rw [← hV] at r1
  simp only [chunksBytes_append, chunksBytes, List.append_assoc, List.nil_append, List.append_nil] at r1
  exact rd_run_of r1

theorem embChunks {T : Toml} {e : Embeddings F32} {bs : Bytes} (hst : StorageWF e.storage)
    (hx : ∀ ix, e.vocab.sub = some (.expl ix) → ix.ngrams = [])
    (hw : (e.write T).file = (.ok (), bs)) :
    ∃ cs, bs = headerEnc (e.chunkIds.map ChunkId.toNat) ++ chunksBytes cs ∧ bs.length < maxSize ∧
      ∀ c, c ∉ e.chunkIds → ∀ p ∈ cs, p.1 ∉ [c] := by
  obtain ⟨mb, h⟩ := embWrite_inv hw
  obtain ⟨hme, heq, _, _, _, _, _, hsz⟩ := h
  obtain ⟨cs, rfl, hcs, hcs0⟩ := metaEnc_chunks hme
  rw [vocabEnc_chunk hx, storageEnc_chunk hst] at heq
  have hmem : ∀ c, c ∉ e.chunkIds → ∀ p ∈ cs, p.1 ∉ [c] := by
    intro c hc p hp hm
    rw [List.mem_singleton, hcs p hp] at hm
    subst hm
    cases hmd : e.metadata with
    | none => rw [hcs0 hmd] at hp; cases hp
    | some m => exact hc (by simp [Embeddings.chunkIds, hmd])
  have hv : ∀ c, c ∉ e.chunkIds → e.vocab.chunkId ∉ [c] := by
    intro c hc hm
    rw [List.mem_singleton] at hm
    exact hc (by simp [Embeddings.chunkIds, hm])
  have hs : ∀ c, c ∉ e.chunkIds → e.storage.chunkId ∉ [c] := by
    intro c hc hm
    rw [List.mem_singleton] at hm
    exact hc (by simp [Embeddings.chunkIds, hm])
  cases hn : e.norms with
  | none =>
    rw [hn] at heq
    refine ⟨cs ++ [(_, _), (_, _)], by rw [heq]; simp [chunksBytes_append, chunksBytes, normsEnc]; rfl,
      hsz, ?_⟩
    intro c hc p hp
    rcases List.mem_append.mp hp with hp | hp
    · exact hmem c hc p hp
    · simp only [List.mem_cons, List.not_mem_nil, or_false] at hp
      rcases hp with rfl | rfl
      · exact hv c hc
      · exact hs c hc
  | some n =>
    rw [hn, normsEnc_chunk] at heq
    refine ⟨cs ++ [(_, _), (_, _), (_, _)], by
      rw [heq]; simp [chunksBytes_append, chunksBytes]; rfl, hsz, ?_⟩
    intro c hc p hp
    rcases List.mem_append.mp hp with hp | hp
    · exact hmem c hc p hp
    · simp only [List.mem_cons, List.not_mem_nil, or_false] at hp
      rcases hp with rfl | rfl | rfl
      · exact hv c hc
      · exact hs c hc
      · intro hm
        rw [List.mem_singleton] at hm
        exact hc (by simp [Embeddings.chunkIds, hn, ← hm])

/-- Components the embeddings do not have are reported with `ValueError`.
(Missing: `ExplicitVocab`s with n-grams, see `C05_explicit_refuted`.) -/
theorem C05_missing_partial (T : Toml) (e : Embeddings F32) (bs : Bytes)
    (hst : StorageWF e.storage) (hx : ∀ ix, e.vocab.sub = some (.expl ix) → ix.ngrams = [])
    (hw : (e.write T).file = (.ok (), bs)) :
    (e.norms = none → Rd.run loadNorms bs = .error .valueError) ∧
      (e.metadata = none → Rd.run (loadMetadata T) bs = .error .valueError) := by
  obtain ⟨cs, rfl, hsz, hcs⟩ := embChunks hst hx hw
  constructor
  · intro hn
    have hc : ChunkId.ndNorms ∉ e.chunkIds := by
      have := vocabId_norms e.vocab
      have h2 : e.storage.chunkId ≠ .ndNorms := by cases e.storage <;> simp [Storage.chunkId]
      cases hmd : e.metadata <;> simp_all [Embeddings.chunkIds, eq_comm]
    unfold Rd.run loadNorms
    rw [rd_bind_ok (findChunk_none _ _ cs 0 (chunkIds_ne e) (chunkIds_len e) (chunkIds_lt e)
      (hcs _ hc) hsz)]
    rfl
  · intro hn
    have hc : ChunkId.metadata ∉ e.chunkIds := by
      have := vocabId_meta e.vocab
      have h2 : e.storage.chunkId ≠ .metadata := by cases e.storage <;> simp [Storage.chunkId]
      cases hmd : e.norms <;> simp_all [Embeddings.chunkIds, eq_comm]
    unfold Rd.run loadMetadata
    rw [rd_bind_ok (findChunk_none _ _ cs 0 (chunkIds_ne e) (chunkIds_len e) (chunkIds_lt e)
      (hcs _ hc) hsz)]
    rfl

/-- Behind an `ExplicitVocab` with n-grams neither storage nor norms are found, because the
length field of the vocabulary chunk is too small: `find_chunk` continues inside the
vocabulary.  The file itself is fine for `load_finalfusion` (C01). -/
theorem C05_explicit_refuted :
    ∃ (T : Toml) (e : Embeddings F32) (bs : Bytes), BuiltEmb e ∧ HasNgrams e.vocab ∧
      TomlOk T e.metadata ∧ e.norms ≠ none ∧ (e.write T).file = (.ok (), bs) ∧
      Rd.run (loadStorage false) bs = .error .valueError ∧
      Rd.run loadNorms bs = .error .valueError :=
  ⟨Sample.toml, Sample.embExpl, _, Sample.builtEmbExpl, Sample.ngExpl, Sample.tomlExpl,
    by simp [Sample.embExpl], Sample.file_ok Sample.writeExpl, Sample.of_errOf (by decide +kernel),
    Sample.of_errOf (by decide +kernel)⟩

namespace Sample

/-- Six n-grams, of which the last one consists of the bytes of a chunk with a 1×1 matrix -/
def chunkNgram : PyStr :=
  [2, 0, 0, 0] ++ [20, 0, 0, 0, 0, 0, 0, 0] ++ [1, 0, 0, 0, 0, 0, 0, 0] ++ [1, 0, 0, 0] ++ [10, 0, 0, 0] ++
    List.replicate 12 49

def chunkNgrams : List PyStr := [[97], [98], [99], [100], [101], chunkNgram]

def chunkIx : ExplIndexer := ⟨chunkNgrams, 1, 40, enumItems chunkNgrams |>.map fun p => (p.1, (p.2 : Int)), 6⟩

def embChunk : Embeddings F32 :=
  ⟨.nd ⟨1, [[1], [2], [3], [4], [5], [6], [7]]⟩, ⟨[[97]], enumItems [[97]], some (.expl chunkIx)⟩, none, none⟩

theorem builtChunkIx : BuiltIndexer (.expl chunkIx) :=
  .explIdx (gs := chunkNgrams) (mn := 1) (mx := 40) (d := chunkIx.index) (by decide) (by decide +kernel)

theorem builtEmbChunk : BuiltEmb embChunk :=
  ⟨⟨by intro ix h; cases h; exact builtChunkIx, by decide⟩,
    by unfold StorageWF embChunk Mat.WF ShapeOk; decide, rfl⟩

theorem ngChunk : HasNgrams embChunk.vocab := by intro ix h; cases h; decide

theorem tomlChunk : TomlOk toml embChunk.metadata := by intro m s h; cases h

end Sample

/-- `load_storage` may even return other numbers without an error: if an n-gram has the bytes of a chunk, that chunk
is found. -/
theorem C05_explicit_wrong :
    ∃ (T : Toml) (e : Embeddings F32) (bs : Bytes) (st : Storage F32), BuiltEmb e ∧ HasNgrams e.vocab ∧
      TomlOk T e.metadata ∧ (e.write T).file = (.ok (), bs) ∧ Rd.run (loadStorage false) bs = .ok st ∧
      st ≠ e.storage := by
  have hw : ((Sample.embChunk.write Sample.toml).file).1 = .ok () := by decide +kernel
  refine ⟨Sample.toml, Sample.embChunk, _, .nd ⟨1, [[0x31313131]]⟩, Sample.builtEmbChunk,
    Sample.ngChunk, Sample.tomlChunk, Sample.file_ok hw, ?_, by simp [Sample.embChunk]⟩
  decide +kernel

/-! ### The hypotheses can be met -/

example : ∃ bs, BuiltEmb Sample.embSimple ∧ HasNgrams Sample.embSimple.vocab ∧
    TomlOk Sample.toml Sample.embSimple.metadata ∧ Sample.embSimple.metadata = some [] ∧
    Sample.embSimple.norms = some [7, 8, 9] ∧
    (∀ ix, Sample.embSimple.vocab.sub = some (.expl ix) → ix.ngrams = []) ∧
    (Sample.embSimple.write Sample.toml).file = (.ok (), bs) :=
  ⟨_, Sample.builtEmbSimple, Sample.ngSimple, Sample.tomlSimple, rfl, rfl,
    (by intro ix h; cases h), Sample.file_ok Sample.writeSimple⟩

example : ∃ bs, Sample.embFt.norms = none ∧ StorageWF Sample.embFt.storage ∧
    (Sample.embFt.write Sample.toml).file = (.ok (), bs) ∧ Sample.embBucket.metadata = none :=
  ⟨_, rfl, Sample.wfq, Sample.file_ok Sample.writeFt, rfl⟩

example : HasNgrams Sample.embExpl.vocab ∧ ∃ bs, (Sample.embExpl.write Sample.toml).file =
    (.ok (), bs) := ⟨Sample.ngExpl, _, Sample.file_ok Sample.writeExpl⟩

end FF
