import Verif.Props.C01
/-! C49: writing, loading and writing again produces the same bytes. -/

namespace FF

theorem ngramIdx_canon {ix : ExplIndexer} (hn : ix.ngrams.Nodup) {g : PyStr} (hg : g ∈ ix.ngrams) :
    ngramIdx (canonExpl ix) g = ngramIdx ix g := by
  have : Dict.get? (canonExpl ix).index g = some ((ngramIdx ix g : Nat) : Int) := by
    refine Dict.get?_of_mem ?_ ?_
    · simpa [canonExpl, Dict.keys, Function.comp_def] using hn
    · simp only [canonExpl, List.mem_map]
      exact ⟨g, hg, rfl⟩
  rw [ngramIdx, this]
  simp

theorem ngramItems_canon {ix : ExplIndexer} (hn : ix.ngrams.Nodup) :
    ngramItems (canonExpl ix) = ngramItems ix := by
  unfold ngramItems
  show List.map _ ix.ngrams = _
  refine List.map_congr_left fun g hg => ?_
  rw [ngramIdx_canon hn hg]

theorem vocabEnc_canon {v : Vocab} (hw : VocabWF v) : vocabEnc (canonVocab v) = vocabEnc v := by
  unfold vocabEnc canonVocab
  have hsub := hw.sub
  rcases hs : v.sub with _ | (ix | ix | ix)
  · rfl
  · rfl
  · rfl
  · rw [hs] at hsub
    have := ngramItems_canon hsub.nodup
    simp only [Vocab.chunkId, vocabLen, vocabBody, hs]
    rw [this]
    rfl

theorem vocabFits_canon {v : Vocab} (hw : VocabWF v) (hf : VocabFits v) :
    VocabFits (canonVocab v) := by
  unfold canonVocab
  have hsub := hw.sub
  rcases hs : v.sub with _ | (ix | ix | ix)
  · exact hf
  · exact hf
  · exact hf
  · rw [hs] at hsub
    simp only at hsub
    obtain ⟨h1, h2, h3⟩ := hf
    rw [hs] at h3
    obtain ⟨h4, h5, h6, h7⟩ := h3
    refine ⟨h1, h2, h4, h5, h6, fun g hg => ?_⟩
    rw [ngramIdx_canon hsub.nodup hg]
    obtain ⟨h8, h9, h10⟩ := h7 g hg
    refine ⟨h8, h9, ?_⟩
    refine Dict.get?_of_mem ?_ ?_
    · simpa [canonExpl, Dict.keys, Function.comp_def] using hsub.nodup
    · simp only [canonExpl, List.mem_map]
      exact ⟨g, hg, rfl⟩

/-- Whatever `load_finalfusion` returns for a written file is written to the same bytes. -/
theorem C49_canonical (T : Toml) (e e' : Embeddings F32) (bs : Bytes)
    (he : BuiltEmb e) (hg : HasNgrams e.vocab) (hT : TomlOk T e.metadata)
    (hw : (e.write T).file = (.ok (), bs))
    (hl : Rd.run (loadFinalfusion T false) bs = .ok e') :
    (e'.write T).file = (.ok (), bs) := by
  obtain ⟨mb, h⟩ := embWrite_inv hw
  have hwf := he.wf hg
  rw [embLoad h hwf hT] at hl
  cases hl
  refine embWrite_ok (mb := mb) hwf.storage ?_
  have hv := vocabEnc_canon hwf.vocab
  have hids : (canonEmb e).chunkIds = e.chunkIds := by
    unfold Embeddings.chunkIds canonEmb canonVocab
    rcases hs : e.vocab.sub with _ | (ix | ix | ix) <;> simp [Vocab.chunkId, hs]
  have hlen : vocabLen (canonVocab e.vocab) = vocabLen e.vocab := by
    unfold canonVocab
    rcases hs : e.vocab.sub with _ | (ix | ix | ix)
    · rfl
    · rfl
    · rfl
    · simp only [vocabLen, hs]; rfl
  obtain ⟨a1, a2, a3, a4, a5, a6, a7, a8⟩ := h
  refine ⟨a1, ?_, vocabFits_canon hwf.vocab a3, ?_, a5, ?_, ?_, a8⟩
  · rw [hids]; show _ = _ ++ (mb ++ (vocabEnc (canonVocab e.vocab) ++ _))
    simp only [canonEmb, hv]; exact a2
  · show vocabLen (canonVocab e.vocab) < _
    rw [hlen]; exact a4
  · rw [hids]; simp only [canonEmb, hv]; exact a6
  · rw [hids]; simp only [canonEmb, hv]; exact a7

/-- Embeddings that differ only in the order of the explicit index dictionary have the same
file, and embeddings with the same file are observably the same. -/
theorem C49_bytes_determine (T : Toml) (e f : Embeddings F32) (bs : Bytes)
    (he : BuiltEmb e) (hg : HasNgrams e.vocab) (hT : TomlOk T e.metadata)
    (hf : BuiltEmb f) (hg' : HasNgrams f.vocab) (hT' : TomlOk T f.metadata)
    (hw : (e.write T).file = (.ok (), bs)) (hw' : (f.write T).file = (.ok (), bs)) :
    SameEmb e f := by
  obtain ⟨e1, h1, s1⟩ := C01_roundtrip T e bs he hg hT hw
  obtain ⟨f1, h2, s2⟩ := C01_roundtrip T f bs hf hg' hT' hw'
  rw [h1] at h2
  cases h2
  refine ⟨?_, s1.storage.trans s2.storage.symm, s1.norms.trans s2.norms.symm,
    s1.metadata.trans s2.metadata.symm⟩
  obtain ⟨a1, a2, a3⟩ := s1.vocab
  obtain ⟨b1, b2, b3⟩ := s2.vocab
  refine ⟨a1.trans b1.symm, fun w => (a2 w).trans (b2 w).symm, ?_⟩
  rcases hse : e.vocab.sub with _ | (i | i | i) <;> rcases hsf : f.vocab.sub with _ | (j | j | j) <;>
    rcases hsg : e1.vocab.sub with _ | (k | k | k) <;>
    rw [hse, hsg] at a3 <;> rw [hsf, hsg] at b3 <;>
    first
    | trivial
    | exact a3.elim
    | exact b3.elim
    | exact (show i = j from (show i = k from a3).trans (show j = k from b3).symm)
    | exact ⟨a3.1.trans b3.1.symm, a3.2.1.trans b3.2.1.symm, a3.2.2.1.trans b3.2.2.1.symm,
        a3.2.2.2.1.trans b3.2.2.2.1.symm, fun g => (a3.2.2.2.2 g).trans (b3.2.2.2.2 g).symm⟩

/-! ### The hypotheses can be met -/

example : ∃ bs e', (Sample.embExpl.write Sample.toml).file = (.ok (), bs) ∧
    Rd.run (loadFinalfusion Sample.toml false) bs = .ok e' ∧
    BuiltEmb Sample.embExpl ∧ HasNgrams Sample.embExpl.vocab ∧
    TomlOk Sample.toml Sample.embExpl.metadata := by
  obtain ⟨e', h, _⟩ := C01_roundtrip Sample.toml Sample.embExpl _ Sample.builtEmbExpl Sample.ngExpl
    Sample.tomlExpl (Sample.file_ok Sample.writeExpl)
  exact ⟨_, e', Sample.file_ok Sample.writeExpl, h, Sample.builtEmbExpl, Sample.ngExpl,
    Sample.tomlExpl⟩

/-- The same indexer with another dictionary order: a different value with the same file. -/
example : (Sample.embExpl.write Sample.toml).file =
    (({ Sample.embExpl with vocab := { Sample.expl with sub := some (.expl { Sample.explIx with
      index := [([60, 97], 0), ([97, 62], 1), ([60, 0xDF], 0)] }) } } : Embeddings F32).write
      Sample.toml).file := by decide +kernel

end FF
