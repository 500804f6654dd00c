import Verif.Lemmas.Writable
import Verif.Spec.Samples
/-! C01: writing an embeddings file and loading it gives the same embeddings. -/

namespace FF

/-- If `Embeddings.write` succeeds, `load_finalfusion` returns embeddings with the same
words, word and n-gram indices, indexer parameters, storage bits, norms bits and metadata. -/
theorem C01_roundtrip (T : Toml) (e : Embeddings F32) (bs : Bytes)
    (he : BuiltEmb e) (hg : HasNgrams e.vocab) (hT : TomlOk T e.metadata)
    (hw : (e.write T).file = (.ok (), bs)) :
    ∃ e', Rd.run (loadFinalfusion T false) bs = .ok e' ∧ SameEmb e e' := by
  obtain ⟨mb, h⟩ := embWrite_inv hw
  have hwf := he.wf hg
  exact ⟨canonEmb e, embLoad h hwf hT, canonEmb_same hwf h⟩

/-- Writing only fails if something does not fit the format: embeddings with encodable words,
n-grams and metadata, non-negative n-gram indices and sizes within the field widths are written
and loaded back. -/
theorem C01_write_succeeds (T : Toml) (e : Embeddings F32) (metaText : PyStr)
    (he : BuiltEmb e) (hg : HasNgrams e.vocab) (hT : TomlOk T e.metadata)
    (hw : Writable T e metaText) :
    ∃ bs e', (e.write T).file = (.ok (), bs) ∧
      Rd.run (loadFinalfusion T false) bs = .ok e' ∧ SameEmb e e' := by
  obtain ⟨mb, bs, h⟩ := hw.bytes he
  have hwr := embWrite_ok he.storage h
  obtain ⟨e', h1, h2⟩ := C01_roundtrip T e bs he hg hT hwr
  exact ⟨bs, e', hwr, h1, h2⟩

/-- Unless the vocabulary is an `ExplicitVocab` (whose index dictionary is rebuilt in the order
of the n-gram list), the loaded value is literally identical. -/
theorem C01_roundtrip_eq (T : Toml) (e : Embeddings F32) (bs : Bytes)
    (he : BuiltEmb e) (hT : TomlOk T e.metadata)
    (hw : (e.write T).file = (.ok (), bs)) (hx : ∀ ix, e.vocab.sub ≠ some (.expl ix)) :
    Rd.run (loadFinalfusion T false) bs = .ok e := by
  obtain ⟨mb, h⟩ := embWrite_inv hw
  have hwf := he.wf fun ix hix => absurd hix (hx ix)
  rw [embLoad h hwf hT]
  have : canonVocab e.vocab = e.vocab := by
    unfold canonVocab
    rcases hs : e.vocab.sub with _ | (ix | ix | ix)
    · rfl
    · rfl
    · rfl
    · exact absurd hs (hx ix)
  rw [canonEmb, this]

/-- Embeddings with an `ExplicitVocab` without n-grams. -/
def C01_witness : Embeddings F32 :=
  ⟨.nd ⟨1, [[5]]⟩, ⟨[[97]], [([97], 0)], some (.expl ⟨[], 3, 6, [], 0⟩)⟩, none, none⟩

/-- Writing embeddings with an `ExplicitVocab` without n-grams succeeds, but the file cannot
be loaded (`max()` of an empty sequence, explicit_indexer.pyx:52). -/
theorem C01_empty_explicit_refuted :
    ∃ (T : Toml) (e : Embeddings F32) (bs : Bytes), BuiltEmb e ∧ TomlOk T e.metadata ∧
      (e.write T).file = (.ok (), bs) ∧
      Rd.run (loadFinalfusion T false) bs = .error .valueError := by
  refine ⟨Sample.toml, C01_witness, _, ?_, ?_, Sample.file_ok (by decide +kernel),
    Sample.of_errOf (by decide +kernel)⟩
  · refine ⟨⟨?_, by decide⟩, ?_, rfl⟩
    · intro ix h
      cases h
      exact .expl (gs := []) (mn := 3) (mx := 6) (by decide)
    · unfold StorageWF C01_witness Mat.WF ShapeOk; decide
  · intro m s h; cases h

/-! ### The hypotheses can be met -/

example : ∃ bs, (Sample.embSimple.write Sample.toml).file = (.ok (), bs) ∧
    BuiltEmb Sample.embSimple ∧ HasNgrams Sample.embSimple.vocab ∧
    TomlOk Sample.toml Sample.embSimple.metadata :=
  ⟨_, Sample.file_ok Sample.writeSimple, Sample.builtEmbSimple, Sample.ngSimple, Sample.tomlSimple⟩

example : ∃ bs, (Sample.embExpl.write Sample.toml).file = (.ok (), bs) ∧
    BuiltEmb Sample.embExpl ∧ HasNgrams Sample.embExpl.vocab ∧
    TomlOk Sample.toml Sample.embExpl.metadata :=
  ⟨_, Sample.file_ok Sample.writeExpl, Sample.builtEmbExpl, Sample.ngExpl, Sample.tomlExpl⟩

theorem Sample.writableExpl : Writable Sample.toml Sample.embExpl [] where
  words := by
    intro w hw
    simp only [Sample.embExpl, Sample.expl, Sample.words, List.mem_cons, List.not_mem_nil,
      or_false] at hw
    rcases hw with rfl | rfl | rfl <;> exact ⟨any_surrogate.mp (by decide), by decide⟩
  ngrams := by
    intro ix h
    cases h
    refine ⟨?_, by decide⟩
    intro w hw
    simp only [Sample.explIx, List.mem_cons, List.not_mem_nil, or_false] at hw
    rcases hw with rfl | rfl | rfl <;> exact ⟨any_surrogate.mp (by decide), by decide⟩
  metadata := by intro m h; cases h
  shape := by
    show _ ∧ _ ∧ _
    decide +kernel
  size := by decide +kernel

example : Writable Sample.toml Sample.embExpl [] ∧ BuiltEmb Sample.embExpl ∧
    HasNgrams Sample.embExpl.vocab ∧ TomlOk Sample.toml Sample.embExpl.metadata :=
  ⟨Sample.writableExpl, Sample.builtEmbExpl, Sample.ngExpl, Sample.tomlExpl⟩

example : ∃ bs, (Sample.embBucket.write Sample.toml).file = (.ok (), bs) ∧
    BuiltEmb Sample.embBucket ∧ TomlOk Sample.toml Sample.embBucket.metadata ∧
    ∀ ix, Sample.embBucket.vocab.sub ≠ some (.expl ix) :=
  ⟨_, Sample.file_ok Sample.writeBucket, Sample.builtEmbBucket, Sample.tomlBucket,
    by intro ix h; cases h⟩

end FF
