import Verif.Lemmas.CutExact
import Verif.Spec.Samples
/-! C02: chunks written on their own can be loaded on their own. -/

namespace FF

/-- Vocabularies, with `load_vocab` and with the loader for the class. -/
theorem C02_vocab_partial (v : Vocab) (bs : Bytes) (hv : BuiltVocab v) (hg : HasNgrams v)
    (hw : (writeStandalone v.chunkId v.writeChunk).file = (.ok (), bs)) :
    ∃ v', SameVocab v v' ∧ Rd.run loadVocab bs = .ok v' ∧ Rd.run (loadVocabAs v) bs = .ok v' := by
  obtain ⟨h1, h2, h3, h4⟩ := vocabWrite_inv (writeStandalone_inv hw)
  have hl : (headerEnc [v.chunkId.toNat]).length < maxSize := by
    rw [h1] at h4; rw [List.length_append] at h4; omega
  obtain ⟨⟨s1, r1⟩, s2, r2⟩ := loadVocab_at (hdr := [v.chunkId.toNat]) (cs := []) (post := [])
    (pos := 0) hv.wf h2 h3 hg (by simp) (by simp) (by simpa using chunkId_toNat_lt _) (by simp)
    (by simpa [chunksBytes] using hl)
  simp only [chunksBytes, List.nil_append, List.append_nil] at r1 r2
  refine ⟨canonVocab v, canonVocab_same hv.wf h2, ?_, ?_⟩
  · rw [h1]; exact rd_run_of r1
  · rw [h1]; exact rd_run_of r2

/-- Storages, with `load_storage` and with the loader for the class. -/
theorem C02_storage (st : Storage F32) (bs : Bytes) (hst : StorageWF st)
    (hw : (writeStandalone st.chunkId st.writeChunk).file = (.ok (), bs)) :
    Rd.run (loadStorage false) bs = .ok st ∧ Rd.run (loadStorageAs st false) bs = .ok st := by
  obtain ⟨h1, h2, h3, h4⟩ := storageWrite_inv (writeStandalone_inv hw)
  rw [h1] at h4
  obtain ⟨⟨s1, r1⟩, s2, r2⟩ := loadStorage_at (hdr := [st.chunkId.toNat]) (cs := []) (post := [])
    (pos := 0) (p := headerEnc [st.chunkId.toNat]) (by simp [chunksBytes]) hst h2 h3 (by simp)
    (by simp) (by simpa using chunkId_toNat_lt _) (by simp) h4
  simp only [chunksBytes, List.nil_append, List.append_nil] at r1 r2
  exact ⟨by rw [h1]; exact rd_run_of r1, by rw [h1]; exact rd_run_of r2⟩

/-- Norms. -/
theorem C02_norms (n : List F32) (bs : Bytes)
    (hw : (writeStandalone .ndNorms (writeNorms n)).file = (.ok (), bs)) :
    Rd.run loadNorms bs = .ok n := by
  obtain ⟨h1, h2, h3, h4⟩ := normsWrite_inv (writeStandalone_inv hw)
  rw [h1] at h4
  obtain ⟨s1, r1⟩ := loadNorms_at (hdr := [ChunkId.ndNorms.toNat]) (cs := []) (post := [])
    (pos := 0) (p := headerEnc [ChunkId.ndNorms.toNat]) (by simp [chunksBytes]) h2 h3 (by simp)
    (by simp) (by simpa using chunkId_toNat_lt .ndNorms) (by simp) h4
  simp only [chunksBytes, List.nil_append, List.append_nil] at r1
  rw [h1]; exact rd_run_of r1

/-- Metadata. -/
theorem C02_metadata (T : Toml) (m : Meta) (bs : Bytes) (hT : TomlOk T (some m))
    (hw : (writeStandalone .metadata (writeMetadata T m)).file = (.ok (), bs)) :
    Rd.run (loadMetadata T) bs = .ok m := by
  obtain ⟨str, hd, he, h1, h3, h4⟩ := metaWrite_inv (writeStandalone_inv hw)
  rw [h1, List.length_append] at h4
  obtain ⟨s1, r1⟩ := loadMetadata_at (T := T) (m := m) (str := str) (hdr := [ChunkId.metadata.toNat])
    (cs := []) (post := []) (pos := 0) he (hT m str rfl hd) h3
    (by simp [metaBody] at h4; omega) (by simp) (by simp)
    (by simpa using chunkId_toNat_lt .metadata) (by simp) (by simp [chunksBytes]; omega)
  simp only [chunksBytes, List.nil_append, List.append_nil] at r1
  rw [h1]; exact rd_run_of r1

/-- An `ExplicitVocab` without n-grams is written but cannot be read. -/
theorem C02_empty_explicit_refuted :
    ∃ (v : Vocab) (bs : Bytes), BuiltVocab v ∧
      (writeStandalone v.chunkId v.writeChunk).file = (.ok (), bs) ∧
      Rd.run loadVocab bs = .error .valueError ∧
      Rd.run loadExplicitVocab bs = .error .valueError := by
  refine ⟨⟨[[97]], [([97], 0)], some (.expl ⟨[], 3, 6, [], 0⟩)⟩, _, ⟨?_, by decide⟩,
    Sample.file_ok (by decide +kernel), Sample.of_errOf (by decide +kernel),
    Sample.of_errOf (by decide +kernel)⟩
  intro ix h
  cases h
  exact .expl (gs := []) (mn := 3) (mx := 6) (by decide)

/-- This happens to every `ExplicitVocab` without n-grams: the loaders raise `ValueError`. -/
theorem C02_empty_explicit (v : Vocab) (bs : Bytes) (hv : BuiltVocab v) (hg : ¬ HasNgrams v)
    (hw : (writeStandalone v.chunkId v.writeChunk).file = (.ok (), bs)) :
    Rd.run loadVocab bs = .error .valueError ∧ Rd.run (loadVocabAs v) bs = .error .valueError := by
  obtain ⟨h1, ⟨h2, h5, h6⟩, h3, h4⟩ := vocabWrite_inv (writeStandalone_inv hw)
  obtain ⟨ix, hs, hng⟩ : ∃ ix, v.sub = some (.expl ix) ∧ ix.ngrams = [] := by
    unfold HasNgrams at hg
    by_contra hne
    exact hg fun ix hs hn => hne ⟨ix, hs, hn⟩
  have hsub := hv.wf.sub
  rw [hs] at h6 hsub
  have hc : v.chunkId = .explicitVocab := by unfold Vocab.chunkId; rw [hs]
  have hb : vocabBody v = packRaw [(8, v.words.length), (8, ix.ngrams.length), (4, ix.minN),
      (4, ix.maxN)] ++ (wordsEnc v.words ++ itemsIdxEnc (ngramItems ix)) := by
    unfold vocabBody; rw [hs]
  rw [hb, hc] at h1
  have key := explRead_empty hsub hng h6.1 h6.2.1 h5
    (headerEnc [ChunkId.explicitVocab.toNat] ++ chunkHead .explicitVocab (vocabLen v))
    (wordsEnc v.words ++ itemsIdxEnc (ngramItems ix)) (by
      rw [← List.append_assoc (headerEnc _ ++ _ ++ _)]; exact readItems_parses v.words h2 _ _)
  constructor
  · unfold Rd.run
    rw [h1, show loadVocab = (findChunk [.simpleVocab, .fastTextVocab, .explicitVocab, .bucketVocab] >>=
      fun c => match c with | none => Rd.fail .valueError | some c => readVocabChunk c) from rfl,
      find_run (m := readVocabChunk .explicitVocab) (by simp) h3 rfl, key]
  · unfold loadVocabAs Rd.run
    rw [hs, h1]
    simp only
    rw [show loadExplicitVocab = (findChunk [.explicitVocab] >>=
      fun c => match c with | none => Rd.fail .valueError | some _ => readExplicitVocab) from rfl,
      find_run (m := readVocabChunk .explicitVocab) (by simp) h3 rfl, key]

/-- So a vocabulary that has been written can be loaded exactly if it is not an `ExplicitVocab`
without n-grams. -/
theorem C02_vocab_exact (v : Vocab) (bs : Bytes) (hv : BuiltVocab v)
    (hw : (writeStandalone v.chunkId v.writeChunk).file = (.ok (), bs)) (load : Rd Vocab)
    (hload : load = loadVocab ∨ load = loadVocabAs v) :
    (∃ v', Rd.run load bs = .ok v') ↔ HasNgrams v := by
  constructor
  · rintro ⟨v', h⟩
    by_contra hg
    have := C02_empty_explicit v bs hv hg hw
    rcases hload with rfl | rfl
    · rw [this.1] at h; cases h
    · rw [this.2] at h; cases h
  · intro hg
    obtain ⟨v', _, h1, h2⟩ := C02_vocab_partial v bs hv hg hw
    rcases hload with rfl | rfl
    · exact ⟨v', h1⟩
    · exact ⟨v', h2⟩

/-- `Chunk.write` of a `Header` is refused. -/
theorem C02_header_refused (chunk : Wr Unit) :
    (writeStandalone .header chunk).file = (.error .typeError, []) := rfl

/-! ### The hypotheses can be met -/

example : ∃ bs, BuiltVocab Sample.expl ∧ HasNgrams Sample.expl ∧
    (writeStandalone Sample.expl.chunkId Sample.expl.writeChunk).file = (.ok (), bs) :=
  ⟨_, Sample.builtExpl, Sample.ngExpl, Sample.file_ok (by decide +kernel)⟩

example : ∃ (v : Vocab) (bs : Bytes), BuiltVocab v ∧ ¬ HasNgrams v ∧
    (writeStandalone v.chunkId v.writeChunk).file = (.ok (), bs) := by
  refine ⟨⟨[[97], [98, 99]], [([97], 0), ([98, 99], 1)], some (.expl ⟨[], 3, 6, [], 0⟩)⟩, _,
    ⟨?_, by decide⟩, fun h => h _ rfl rfl, Sample.file_ok (by decide +kernel)⟩
  intro ix h
  cases h
  exact .expl (gs := []) (mn := 3) (mx := 6) (by decide)

example : ∃ bs, StorageWF (.quant Sample.q5) ∧
    (writeStandalone .quantizedArray (Storage.quant Sample.q5).writeChunk).file = (.ok (), bs) :=
  ⟨_, Sample.wfq, Sample.file_ok (by decide +kernel)⟩

example : ∃ bs, (writeStandalone .ndNorms (writeNorms [1, 2, 3])).file = (.ok (), bs) :=
  ⟨_, Sample.file_ok (by decide +kernel)⟩

example : ∃ bs, TomlOk Sample.toml (some []) ∧
    (writeStandalone .metadata (writeMetadata Sample.toml [])).file = (.ok (), bs) :=
  ⟨_, Sample.tomlSimple, Sample.file_ok (by decide +kernel)⟩

end FF
