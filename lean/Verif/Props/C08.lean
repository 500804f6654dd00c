import Verif.Lemmas.Built
import Verif.Lemmas.Mmap
import Verif.Spec.Samples
/-! C08: embeddings files cut off at any byte. -/

namespace FF

/-- Every proper prefix of a written file is rejected, except the one that ends exactly where
the norms chunk starts: that one loads as the same embeddings without norms. -/
theorem C08_truncated (T : Toml) (e : Embeddings F32) (bs : Bytes)
    (he : BuiltEmb e) (hg : HasNgrams e.vocab) (hT : TomlOk T e.metadata)
    (hne : e.storage.nonempty) (hwd : e.vocab.words ≠ [])
    (hw : (e.write T).file = (.ok (), bs)) :
    ∃ l0, (∀ k, k < bs.length → k ≠ l0 →
        ∃ er, Rd.run (loadFinalfusion T false) (bs.take k) = .error er) ∧
      (e.norms = none → l0 = bs.length) ∧
      (e.norms ≠ none → l0 < bs.length ∧
        (∃ rest, bs.drop l0 = le 4 ChunkId.ndNorms.toNat ++ rest) ∧
        ∃ e', Rd.run (loadFinalfusion T false) (bs.take l0) = .ok e' ∧
          SameEmb { e with norms := none } e') := by
  obtain ⟨mb, h⟩ := embWrite_inv hw
  have hwf := he.wf hg
  obtain ⟨l0, hlen, hdrop, hlay, hk⟩ := embLoad_trunc h hwf hT
  refine ⟨l0, ?_, ?_, ?_⟩
  · intro k hlt hkl
    rcases hk k hlt with her | ⟨e', _, hr⟩
    · exact her
    · rcases hr with ⟨_, h2⟩ | ⟨_, h2⟩
      · exact absurd (h2 hne).2 hkl
      · rcases h2 with h2 | h2
        · exact absurd hne h2
        · have := ((check_parts.mp hwf.check).2 [] h2).2
          rw [Vocab.len, hwf.vocab.index, enumItems_length] at this
          exact absurd (List.length_eq_zero_iff.mp this) hwd
  · intro hn
    rw [hn] at hlen
    simpa [normsEnc] using hlen.symm
  · intro hn
    obtain ⟨n, hn⟩ := Option.ne_none_iff_exists'.mp hn
    rw [hn] at hlen hdrop
    have hwf' : EmbWF { e with norms := none } :=
      ⟨hwf.vocab, hwf.expl, hwf.storage, check_parts.mpr ⟨(check_parts.mp hwf.check).1, by simp⟩⟩
    refine ⟨?_, ?_, _, embLoad_layout hlay (chunkIds_ne e) (chunkIds_len e) (chunkIds_lt e) hwf' hT,
      ⟨canonVocab_same hwf.vocab h.vfits, rfl, rfl, rfl⟩⟩
    · simp only [normsEnc, chunkHead, packRaw, List.length_append, length_le] at hlen
      omega
    · simp only [normsEnc, chunkHead, packRaw, List.append_assoc] at hdrop
      exact ⟨_, hdrop⟩

/-- Without any condition on sizes: whatever loads from a prefix of a written file is the
written embeddings, with or without its norms. -/
theorem C08_never_different (T : Toml) (e : Embeddings F32) (bs : Bytes)
    (he : BuiltEmb e) (hg : HasNgrams e.vocab) (hT : TomlOk T e.metadata)
    (hw : (e.write T).file = (.ok (), bs)) (k : Nat) (e' : Embeddings F32)
    (hl : Rd.run (loadFinalfusion T false) (bs.take k) = .ok e') :
    SameEmb e e' ∨ SameEmb { e with norms := none } e' := by
  obtain ⟨mb, h⟩ := embWrite_inv hw
  have hwf := he.wf hg
  have hv := canonVocab_same hwf.vocab h.vfits
  by_cases hk : k < bs.length
  · obtain ⟨l0, _, _, _, hk'⟩ := embLoad_trunc h hwf hT
    rcases hk' k hk with ⟨er, her⟩ | ⟨e'', he'', hr⟩
    · rw [her] at hl; cases hl
    · rw [he''] at hl
      cases hl
      rcases hr with ⟨rfl, _⟩ | ⟨rfl, _⟩
      · exact Or.inr ⟨hv, rfl, rfl, rfl⟩
      · exact Or.inl ⟨hv, rfl, rfl, rfl⟩
  · rw [List.take_of_length_le (by omega), embLoad h hwf hT] at hl
    cases hl
    exact Or.inl ⟨hv, rfl, rfl, rfl⟩

/-- Memory mapping a truncated file: everything but the cut in front of the norms chunk is
rejected as well. -/
theorem C08_truncated_mmap (T : Toml) (e : Embeddings F32) (bs : Bytes)
    (he : BuiltEmb e) (hg : HasNgrams e.vocab) (hT : TomlOk T e.metadata)
    (hne : e.storage.nonempty) (hwd : e.vocab.words ≠ [])
    (hw : (e.write T).file = (.ok (), bs)) :
    ∃ l0, (∀ k, k < bs.length → k ≠ l0 →
        ∃ er, Rd.run (loadFinalfusion T true) (bs.take k) = .error er) ∧
      (e.norms = none → l0 = bs.length) ∧
      (e.norms ≠ none → l0 < bs.length ∧
        (∃ rest, bs.drop l0 = le 4 ChunkId.ndNorms.toNat ++ rest) ∧
        ∃ e', Rd.run (loadFinalfusion T true) (bs.take l0) = .ok e' ∧
          SameEmb { e with norms := none } e') := by
  obtain ⟨l0, h1, h2, h3⟩ := C08_truncated T e bs he hg hT hne hwd hw
  refine ⟨l0, ?_, h2, ?_⟩
  · intro k hk hkl
    cases hr : Rd.run (loadFinalfusion T true) (bs.take k) with
    | error er => exact ⟨er, rfl⟩
    | ok e' =>
      obtain ⟨er, her⟩ := h1 k hk hkl
      obtain ⟨s', hs⟩ := rd_run_ok hr
      rw [rd_run_of (loadFinalfusion_mmap_read hs)] at her
      cases her
  · intro hn
    obtain ⟨hl, hrest, e', hl', hsame⟩ := h3 hn
    refine ⟨hl, hrest, e', ?_, hsame⟩
    obtain ⟨mb, hb⟩ := embWrite_inv hw
    have hsz := hb.size
    obtain ⟨s', hs⟩ := rd_run_ok hl'
    refine rd_run_of (loadFinalfusion_read_mmap hs ?_ ?_)
    · rw [← hsame.storage]; exact hne
    · simp only [List.length_take]; omega

/-! ### The hypotheses can be met -/

example : ∃ bs, (Sample.embExpl.write Sample.toml).file = (.ok (), bs) ∧
    BuiltEmb Sample.embExpl ∧ HasNgrams Sample.embExpl.vocab ∧
    TomlOk Sample.toml Sample.embExpl.metadata ∧ Sample.embExpl.storage.nonempty ∧
    Sample.embExpl.vocab.words ≠ [] ∧ Sample.embExpl.norms ≠ none :=
  ⟨_, Sample.file_ok Sample.writeExpl, Sample.builtEmbExpl, Sample.ngExpl, Sample.tomlExpl,
    by show _ ≠ _; decide, by decide, by decide⟩

example : ∃ bs, (Sample.embFt.write Sample.toml).file = (.ok (), bs) ∧
    BuiltEmb Sample.embFt ∧ HasNgrams Sample.embFt.vocab ∧
    TomlOk Sample.toml Sample.embFt.metadata ∧ Sample.embFt.storage.nonempty ∧
    Sample.embFt.vocab.words ≠ [] ∧ Sample.embFt.norms = none :=
  ⟨_, Sample.file_ok Sample.writeFt, Sample.builtEmbFt, Sample.ngFt, Sample.tomlFt,
    by show _ ≠ _; decide, by decide, by decide⟩

end FF
