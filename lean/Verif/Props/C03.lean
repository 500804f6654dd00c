import Verif.Lemmas.Built
import Verif.Spec.Chunks
import Verif.Spec.Samples
/-! C03: length fields of chunks. -/

namespace FF

theorem goodChunk_of {pre out body : Bytes} {c : ChunkId} {n : Nat}
    (h : out = pre ++ (chunkHead c n ++ body)) (hn : body.length = n) (hl : n < 256 ^ 8) :
    GoodChunk pre out c := by
  refine ⟨body, ?_, by omega⟩
  rw [h, hn.symm]
  simp [chunkBytes, chunkHead, packRaw]

/-- `SimpleVocab`, `FinalfusionBucketVocab`, `FastTextVocab`, and `ExplicitVocab` without
n-grams.  (Missing: other `ExplicitVocab`s, see `C03_explicit_refuted`.) -/
theorem C03_vocab_partial (v : Vocab) (pre out : Bytes)
    (hx : ∀ ix, v.sub = some (.expl ix) → ix.ngrams = [])
    (h : v.writeChunk pre = (.ok (), out)) : GoodChunk pre out v.chunkId := by
  obtain ⟨h1, _, h3, _⟩ := vocabWrite_inv h
  refine goodChunk_of h1 ?_ h3
  have := vocabLen_eq v
  rcases hs : v.sub with _ | (ix | ix | ix) <;> rw [hs] at this <;> simp only at this
  · exact this
  · exact this
  · exact this
  · rw [hx ix hs] at this; exact this

/-- `NdArray` and `QuantizedArray` -/
theorem C03_storage (st : Storage F32) (pre out : Bytes) (hw : StorageWF st)
    (h : st.writeChunk pre = (.ok (), out)) : GoodChunk pre out st.chunkId := by
  obtain ⟨h1, _, h3, _⟩ := storageWrite_inv h
  exact goodChunk_of h1 (length_storageBody _ _ hw) h3

/-- `Norms` -/
theorem C03_norms (n : List F32) (pre out : Bytes) (h : writeNorms n pre = (.ok (), out)) :
    GoodChunk pre out .ndNorms := by
  obtain ⟨h1, _, h3, _⟩ := normsWrite_inv h
  exact goodChunk_of h1 (length_normsBody _ _) h3

/-- `Metadata` -/
theorem C03_metadata (T : Toml) (m : Meta) (pre out : Bytes)
    (h : writeMetadata T m pre = (.ok (), out)) : GoodChunk pre out .metadata := by
  obtain ⟨str, _, _, h1, h3, _⟩ := metaWrite_inv h
  exact ⟨utf8 str, by rw [h1]; simp [metaBody, chunkHead, chunkBytes, packRaw], h3⟩

/-- What `ExplicitVocab.write_chunk` writes into the length field: eight bytes too few per
n-gram (the index stored with each n-gram is not counted, subword.py:374-377). -/
theorem C03_explicit_field (v : Vocab) (ix : ExplIndexer) (pre out : Bytes)
    (hx : v.sub = some (.expl ix)) (h : v.writeChunk pre = (.ok (), out)) :
    ∃ n body, out = pre ++ (le 4 ChunkId.explicitVocab.toNat ++ (le 8 n ++ body)) ∧
      n < 256 ^ 8 ∧ n + 8 * ix.ngrams.length = body.length := by
  obtain ⟨h1, _, h3, _⟩ := vocabWrite_inv h
  have hl := vocabLen_eq v
  have hc : v.chunkId = .explicitVocab := by simp only [Vocab.chunkId, hx]
  rw [hx] at hl
  rw [hc] at h1
  refine ⟨vocabLen v, vocabBody v, ?_, h3, ?_⟩
  · rw [h1]; simp [chunkHead, packRaw]
  · simp only at hl; omega

/-- No `ExplicitVocab` with at least one n-gram is written with a correct length field. -/
theorem C03_explicit_refuted (v : Vocab) (ix : ExplIndexer) (pre out : Bytes)
    (hx : v.sub = some (.expl ix)) (hg : ix.ngrams ≠ []) (h : v.writeChunk pre = (.ok (), out)) :
    ¬ GoodChunk pre out v.chunkId := by
  rintro ⟨body, hb, hl⟩
  obtain ⟨n, body', hb', hn, hlen⟩ := C03_explicit_field v ix pre out hx h
  have hc : v.chunkId = .explicitVocab := by simp only [Vocab.chunkId, hx]
  rw [hc] at hb
  rw [hb] at hb'
  have h1 := List.append_cancel_left hb'
  have h2 := List.append_cancel_left h1
  have h3 := List.append_inj h2 (by simp)
  have h4 : unle (le 8 body.length) = unle (le 8 n) := by rw [h3.1]
  rw [unle_le _ _ hl, unle_le _ _ hn, h3.2] at h4
  have := List.length_pos_of_ne_nil hg
  omega

/-! ### The hypotheses can be met -/

example : ∃ out, Sample.bucket.writeChunk [1, 2, 3] = (.ok (), out) ∧
    ∀ ix, Sample.bucket.sub = some (.expl ix) → ix.ngrams = [] :=
  ⟨_, Sample.wr_ok (by decide +kernel), by intro ix h; cases h⟩

example : ∃ out, (Storage.quant Sample.q5).writeChunk [1, 2, 3] = (.ok (), out) ∧
    StorageWF (.quant Sample.q5) := ⟨_, Sample.wr_ok (by decide +kernel), Sample.wfq⟩

example : ∃ out, writeNorms [1, 2, 3] [1, 2, 3] = (.ok (), out) :=
  ⟨_, Sample.wr_ok (by decide +kernel)⟩

example : ∃ out, writeMetadata ⟨fun _ => .ok [97, 0xDF], fun _ => .ok []⟩ [] [1, 2, 3]
    = (.ok (), out) := ⟨_, Sample.wr_ok (by decide +kernel)⟩

example : ∃ ix out, Sample.expl.sub = some (.expl ix) ∧ ix.ngrams ≠ [] ∧
    Sample.expl.writeChunk [1, 2, 3] = (.ok (), out) :=
  ⟨_, _, rfl, by decide, Sample.wr_ok (by decide +kernel)⟩

end FF
