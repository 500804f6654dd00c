import Verif.Lemmas.FfFile
import Verif.Lemmas.Writable
/-! The bytes that are written. -/

namespace FF
open Fifu (HasAt Pad Head MetaOut VocabOut StorageOut NormsOut)

theorem chunk_eq (c : ChunkId) (n : Nat) (b : Bytes) :
    Fifu.chunk c.toNat n b = chunkHead c n ++ b := by
  unfold Fifu.chunk chunkHead packRaw
  rw [uint_eq]
  simp [packRaw]

theorem ids_eq (ids : List Nat) : ids.flatMap (le 4) = packRaw (ids.map fun i => (4, i)) := by
  induction ids with
  | nil => rfl
  | cons i ids ih => rw [List.flatMap_cons, ih, List.map_cons, packRaw_cons]

theorem header_eq (ids : List Nat) : Fifu.header ids = headerEnc ids := by
  unfold Fifu.header headerEnc
  rw [uint_eq, ids_eq, List.append_assoc, List.append_assoc]
  rfl

theorem metaOut_iff {T : Toml} {md : Option Meta} {ids : List Nat} {b : Bytes}
    (hl : b.length < maxSize) :
    MetaOut T md ids b ↔ MetaEnc T md b ∧ ids = md.toList.map fun _ => 5 := by
  constructor
  · intro h
    cases h with
    | none => exact ⟨rfl, rfl⟩
    | @some m text h1 h2 =>
      refine ⟨⟨text, h1, encode_eq (noSurr_iff.mp h2), ?_, ?_⟩, rfl⟩
      · unfold Fifu.chunk at hl
        simp only [List.length_append] at hl
        unfold maxSize at hl
        omega
      · exact chunk_eq .metadata _ _
  · rintro ⟨h, rfl⟩
    cases md with
    | none =>
      have : b = [] := h
      subst this
      exact .none
    | some m =>
      obtain ⟨text, h1, h2, h3, rfl⟩ := h
      have : metaBody (utf8 text) = Fifu.chunk 5 (utf8 text).length (utf8 text) :=
        (chunk_eq .metadata _ _).symm
      rw [this]
      exact .some h1 (noSurr_iff.mpr (encode_ok h2).2)

theorem wordsFit_iff {ws : List PyStr} :
    Fifu.WordsFit ws ↔ (∀ w ∈ ws, ItemOk w) ∧ ws.length < 256 ^ 8 := by
  unfold Fifu.WordsFit
  rw [pow_64]
  simp only [storable_iff]

theorem vocabOut_iff {v : Vocab} {id : Nat} {b : Bytes} :
    VocabOut v id b ↔ VocabFits v ∧ b = vocabEnc v ∧ id = v.chunkId.toNat := by
  constructor
  · intro h
    cases h with
    | @simple words index content fit h1 =>
      obtain ⟨f1, f2⟩ := wordsFit_iff.mp fit
      refine ⟨⟨f1, f2, trivial⟩, ?_, rfl⟩
      rw [uint_eq, words_eq] at h1
      refine (chunk_eq .simpleVocab _ _).trans ?_
      have : content.length = 8 + words.length * 4 + byteSum words := by
        rw [h1]; simp [length_wordsEnc]; omega
      rw [this, h1]
      rfl
    | @bucket words index exp mn mx content fit a1 a2 a3 h1 =>
      obtain ⟨f1, f2⟩ := wordsFit_iff.mp fit
      refine ⟨⟨f1, f2, lt_of_lt_of_eq a1 pow_32, lt_of_lt_of_eq a2 pow_32, lt_of_lt_of_eq a3 pow_32⟩,
        ?_, rfl⟩
      rw [uint_eq, words_eq] at h1
      refine (chunk_eq .bucketVocab _ _).trans ?_
      have : content.length = byteSum words + 8 + words.length * 4 + 8 + 4 := by
        rw [h1]; simp [length_wordsEnc]; omega
      rw [this, h1]
      simp [vocabEnc, vocabBody, vocabLen, Vocab.chunkId, packRaw]
    | @fastText words index buckets mn mx content fit a1 a2 a3 h1 =>
      obtain ⟨f1, f2⟩ := wordsFit_iff.mp fit
      refine ⟨⟨f1, f2, lt_of_lt_of_eq a1 pow_32, lt_of_lt_of_eq a2 pow_32, lt_of_lt_of_eq a3 pow_32⟩,
        ?_, rfl⟩
      rw [uint_eq, words_eq] at h1
      refine (chunk_eq .fastTextVocab _ _).trans ?_
      have : content.length = byteSum words + 8 + words.length * 4 + 8 + 4 := by
        rw [h1]; simp [length_wordsEnc]; omega
      rw [this, h1]
      simp [vocabEnc, vocabBody, vocabLen, Vocab.chunkId, packRaw]
    | @explicit words index ix grams content len fit a1 a2 a3 a4 a5 h1 h2 =>
      obtain ⟨f1, f2⟩ := wordsFit_iff.mp fit
      have hgl : grams.length = ix.ngrams.length := by rw [← a4]; simp
      have hi : ∀ g ∈ grams, ngramIdx ix g.1 = g.2 := by
        intro g hg
        unfold ngramIdx
        rw [(a5 g hg).2.2]
        simp
      have hg : grams = ngramItems ix := by
        unfold ngramItems
        rw [← a4, List.map_map]
        conv_lhs => rw [← List.map_id grams]
        refine List.map_congr_left fun g hg => ?_
        simp only [id_eq, Function.comp_apply, hi g hg]
      have h5 : ∀ g ∈ ix.ngrams, ItemOk g ∧ ngramIdx ix g < 256 ^ 8 ∧
          Dict.get? ix.index g = some (ngramIdx ix g : Int) := by
        intro g hg
        rw [← a4] at hg
        obtain ⟨p, hp, rfl⟩ := List.mem_map.mp hg
        obtain ⟨b1, b2, b3⟩ := a5 p hp
        rw [hi p hp]
        exact ⟨storable_iff.mp b1, lt_of_lt_of_eq b2 pow_64, b3⟩
      refine ⟨⟨f1, f2, lt_of_lt_of_eq a1 pow_32, lt_of_lt_of_eq a2 pow_32,
        lt_of_lt_of_eq (hgl ▸ a3) pow_64, h5⟩, ?_, rfl⟩
      have hge := grams_eq grams
      rw [uint_eq] at h1 hge
      rw [words_eq, hge] at h1
      refine (chunk_eq .explicitVocab _ _).trans ?_
      have hbs : byteSum (grams.map Prod.fst) = byteSum ix.ngrams := by rw [a4]
      have : len = byteSum words + 8 + words.length * 4 +
          (byteSum ix.ngrams + 8 + ix.ngrams.length * 4) + 8 := by
        rw [h1] at h2
        simp only [List.length_append, length_le, length_wordsEnc, length_itemsIdxEnc, hbs] at h2
        omega
      rw [this, h1, hgl, hg]
      simp [vocabEnc, vocabBody, vocabLen, Vocab.chunkId, packRaw]
  · rintro ⟨hf, rfl, rfl⟩
    obtain ⟨words, index, sub⟩ := v
    obtain ⟨f1, f2, hf⟩ := hf
    have fit := wordsFit_iff.mpr ⟨f1, f2⟩
    rcases sub with _ | (ix | ix | ix)
    · have : vocabEnc ⟨words, index, none⟩ = Fifu.chunk 1
        (Fifu.uint 8 words.length ++ words.flatMap Fifu.str).length
        (Fifu.uint 8 words.length ++ words.flatMap Fifu.str) := by
        rw [uint_eq, words_eq]
        refine Eq.trans ?_ (chunk_eq .simpleVocab _ _).symm
        simp [vocabEnc, vocabBody, vocabLen, Vocab.chunkId, length_wordsEnc]
        congr 1; omega
      rw [this]
      exact .simple fit rfl
    · obtain ⟨exp, mn, mx⟩ := ix
      obtain ⟨a1, a2, a3⟩ := hf
      have : vocabEnc ⟨words, index, some (.fifu ⟨exp, mn, mx⟩)⟩ = Fifu.chunk 3
        (Fifu.uint 8 words.length ++ Fifu.uint 4 mn ++ Fifu.uint 4 mx ++ Fifu.uint 4 exp ++
          words.flatMap Fifu.str).length
        (Fifu.uint 8 words.length ++ Fifu.uint 4 mn ++ Fifu.uint 4 mx ++ Fifu.uint 4 exp ++
          words.flatMap Fifu.str) := by
        rw [uint_eq, words_eq]
        refine Eq.trans ?_ (chunk_eq .bucketVocab _ _).symm
        simp [vocabEnc, vocabBody, vocabLen, Vocab.chunkId, length_wordsEnc, packRaw]
        congr 1; omega
      rw [this]
      exact .bucket fit (lt_of_lt_of_eq a1 pow_32.symm) (lt_of_lt_of_eq a2 pow_32.symm)
        (lt_of_lt_of_eq a3 pow_32.symm) rfl
    · obtain ⟨exp, mn, mx⟩ := ix
      obtain ⟨a1, a2, a3⟩ := hf
      have : vocabEnc ⟨words, index, some (.ft ⟨exp, mn, mx⟩)⟩ = Fifu.chunk 7
        (Fifu.uint 8 words.length ++ Fifu.uint 4 mn ++ Fifu.uint 4 mx ++ Fifu.uint 4 exp ++
          words.flatMap Fifu.str).length
        (Fifu.uint 8 words.length ++ Fifu.uint 4 mn ++ Fifu.uint 4 mx ++ Fifu.uint 4 exp ++
          words.flatMap Fifu.str) := by
        rw [uint_eq, words_eq]
        refine Eq.trans ?_ (chunk_eq .fastTextVocab _ _).symm
        simp [vocabEnc, vocabBody, vocabLen, Vocab.chunkId, length_wordsEnc, packRaw]
        congr 1; omega
      rw [this]
      exact .fastText fit (lt_of_lt_of_eq a1 pow_32.symm) (lt_of_lt_of_eq a2 pow_32.symm)
        (lt_of_lt_of_eq a3 pow_32.symm) rfl
    · obtain ⟨a1, a2, a3, a4⟩ := hf
      have hgl : (ngramItems ix).length = ix.ngrams.length := by simp [ngramItems]
      have hgf : (ngramItems ix).map Prod.fst = ix.ngrams := by simp [ngramItems, Function.comp_def]
      have hge := grams_eq (ngramItems ix)
      have : vocabEnc ⟨words, index, some (.expl ix)⟩ = Fifu.chunk 8
        (vocabLen ⟨words, index, some (.expl ix)⟩)
        (Fifu.uint 8 words.length ++ Fifu.uint 8 (ngramItems ix).length ++ Fifu.uint 4 ix.minN ++
          Fifu.uint 4 ix.maxN ++ words.flatMap Fifu.str ++
          (ngramItems ix).flatMap fun g => Fifu.str g.1 ++ Fifu.uint 8 g.2) := by
        rw [hge, uint_eq, words_eq]
        refine Eq.trans ?_ (chunk_eq .explicitVocab _ _).symm
        simp [vocabEnc, vocabBody, Vocab.chunkId, packRaw, hgl]
      rw [this]
      refine .explicit fit (lt_of_lt_of_eq a1 pow_32.symm) (lt_of_lt_of_eq a2 pow_32.symm)
        (by rw [hgl]; exact lt_of_lt_of_eq a3 pow_64.symm) hgf ?_ rfl ?_
      · intro g hg
        obtain ⟨g, hg', rfl⟩ := List.mem_map.mp hg
        obtain ⟨b1, b2, b3⟩ := a4 g hg'
        exact ⟨storable_iff.mpr b1, lt_of_lt_of_eq b2 pow_64.symm, b3⟩
      · rw [hge, uint_eq, words_eq]
        simp only [vocabLen, List.length_append, length_le, length_wordsEnc, length_itemsIdxEnc, hgf,
          hgl]
        omega

theorem storageOut_iff {pos : Nat} {st : Storage F32} {id : Nat} {b : Bytes} (hw : StorageWF st) :
    StorageOut pos st id b ↔
      StorageFits st ∧ b = storageEnc pos st ∧ id = st.chunkId.toNat := by
  have h28 : padFloat32 (pos + 28) = padFloat32 (pos + 4) := pad_shift _ _ (by omega)
  have h48 : padFloat32 (pos + 48) = padFloat32 (pos + 4) := pad_shift _ _ (by omega)
  have hl := length_storageBody (padFloat32 (pos + 4)) st hw
  cases st with
  | nd m =>
    have e : Fifu.uint 8 m.rows.length ++ Fifu.uint 4 m.cols ++ Fifu.uint 4 10 ++
        Fifu.zero (padFloat32 (pos + 4)) ++ Fifu.floats m.rows.flatten =
        storageBody (padFloat32 (pos + 4)) (.nd m) := by
      rw [uint_eq, floats_eq]
      simp [storageBody, ndBody, packRaw, zeros, Fifu.zero, Mat.flat]
    have e2 : Fifu.chunk 2 (storageBody (padFloat32 (pos + 4)) (.nd m)).length
        (storageBody (padFloat32 (pos + 4)) (.nd m)) = storageEnc pos (.nd m) := by
      refine (chunk_eq .ndArray _ _).trans ?_
      rw [hl]
      rfl
    constructor
    · intro h
      cases h with
      | @nd _ pad content a1 a2 a3 a4 =>
        rw [pad_iff, h28] at a3
        subst a3
        rw [e] at a4
        subst a4
        exact ⟨⟨lt_of_lt_of_eq a1 pow_64, lt_of_lt_of_eq a2 pow_32⟩, e2, rfl⟩
    · rintro ⟨⟨a1, a2⟩, rfl, rfl⟩
      rw [← e2]
      exact .nd (lt_of_lt_of_eq a1 pow_64.symm) (lt_of_lt_of_eq a2 pow_32.symm) (pad_iff.mpr h28.symm)
        e.symm
  | quant q =>
    have e : Fifu.uint 4 (if q.pq.projection.isSome then 1 else 0) ++
        Fifu.uint 4 (if q.norms.isSome then 1 else 0) ++ Fifu.uint 4 q.qlen ++
        Fifu.uint 4 q.pq.reconstructedLen ++ Fifu.uint 4 q.pq.nCentroids ++
        Fifu.uint 8 q.codes.length ++ Fifu.uint 4 1 ++ Fifu.uint 4 10 ++
        Fifu.zero (padFloat32 (pos + 4)) ++
        Fifu.optFloats (q.pq.projection.map fun m => m.rows.flatten) ++
        Fifu.floats (q.pq.quantizers.map List.flatten).flatten ++ Fifu.optFloats q.norms ++
        q.codes.flatten = storageBody (padFloat32 (pos + 4)) (.quant q) := by
      rw [uint_eq, floats_eq, optFloats_eq]
      simp only [storageBody, qBody, qHead, zeros, Fifu.zero, List.append_assoc]
      rfl
    have e2 : Fifu.chunk 4 (storageBody (padFloat32 (pos + 4)) (.quant q)).length
        (storageBody (padFloat32 (pos + 4)) (.quant q)) = storageEnc pos (.quant q) := by
      refine (chunk_eq .quantizedArray _ _).trans ?_
      rw [hl]
      rfl
    constructor
    · intro h
      cases h with
      | @quant _ pf nf pad content a1 a2 a3 a4 a5 a6 a7 a8 =>
        rw [pad_iff, h48] at a7
        subst a5 a6 a7
        rw [e] at a8
        subst a8
        exact ⟨⟨lt_of_lt_of_eq a1 pow_32, lt_of_lt_of_eq a2 pow_32, lt_of_lt_of_eq a3 pow_32,
          lt_of_lt_of_eq a4 pow_64⟩, e2, rfl⟩
    · rintro ⟨⟨a1, a2, a3, a4⟩, rfl, rfl⟩
      rw [← e2]
      exact .quant (lt_of_lt_of_eq a1 pow_32.symm) (lt_of_lt_of_eq a2 pow_32.symm)
        (lt_of_lt_of_eq a3 pow_32.symm) (lt_of_lt_of_eq a4 pow_64.symm) rfl rfl
        (pad_iff.mpr h48.symm) e.symm

theorem normsOut_iff {pos : Nat} {o : Option (List F32)} {ids : List Nat} {b : Bytes} :
    NormsOut pos o ids b ↔ (∀ n, o = some n → n.length < 256 ^ 8) ∧ b = normsEnc pos o ∧
      ids = o.toList.map fun _ => 6 := by
  have h24 : padFloat32 (pos + 24) = padFloat32 (pos + 4) := pad_shift _ _ (by omega)
  cases o with
  | none =>
    constructor
    · intro h
      cases h
      exact ⟨by simp, rfl, rfl⟩
    · rintro ⟨_, rfl, rfl⟩
      exact .none
  | some xs =>
    have e : Fifu.uint 8 xs.length ++ Fifu.uint 4 10 ++ Fifu.zero (padFloat32 (pos + 4)) ++
        Fifu.floats xs = normsBody (padFloat32 (pos + 4)) xs := by
      rw [uint_eq, floats_eq]
      simp [normsBody, packRaw, zeros, Fifu.zero]
    have e2 : Fifu.chunk 6 (normsBody (padFloat32 (pos + 4)) xs).length
        (normsBody (padFloat32 (pos + 4)) xs) = normsEnc pos (some xs) := by
      refine (chunk_eq .ndNorms _ _).trans ?_
      rw [length_normsBody]
      rfl
    constructor
    · intro h
      cases h with
      | @some _ pad content a1 a2 a3 =>
        rw [pad_iff, h24] at a2
        subst a2
        rw [e] at a3
        subst a3
        refine ⟨?_, e2, rfl⟩
        intro n hn
        cases hn
        exact lt_of_lt_of_eq a1 pow_64
    · rintro ⟨a1, rfl, rfl⟩
      rw [← e2]
      exact .some (lt_of_lt_of_eq (a1 xs rfl) pow_64.symm) (pad_iff.mpr h24.symm) e.symm

theorem chunkIds_eq (e : Embeddings F32) : e.chunkIds.map ChunkId.toNat =
    (e.metadata.toList.map fun _ => 5) ++ [e.vocab.chunkId.toNat, e.storage.chunkId.toNat] ++
      (e.norms.toList.map fun _ => 6) := by
  unfold Embeddings.chunkIds
  cases e.metadata <;> cases e.norms <;> rfl

theorem embWrite_iff {T : Toml} {e : Embeddings F32} {bs : Bytes} (hw : StorageWF e.storage) :
    (e.write T).file = (.ok (), bs) ↔ Fifu.Out T e bs ∧ bs.length < 2 ^ 63 := by
  constructor
  · intro h
    obtain ⟨mb, h⟩ := embWrite_inv h
    obtain ⟨h1, h2, h3, h4, h5, h6, h7, h8⟩ := h
    refine ⟨?_, h8⟩
    have hm : mb.length < maxSize := by
      rw [h2] at h8
      simp only [List.length_append] at h8
      omega
    refine ⟨_, _, _, _, headerEnc (e.chunkIds.map ChunkId.toNat), _, _, _, _, (metaOut_iff hm).mpr ⟨h1, rfl⟩,
      vocabOut_iff.mpr ⟨h3, rfl, rfl⟩, ?_, (storageOut_iff hw).mpr ⟨h5, rfl, rfl⟩,
      normsOut_iff.mpr ⟨fun n hn => (h7 n hn).1, rfl, rfl⟩, ?_⟩
    · rw [header_eq, chunkIds_eq]
    · rw [h2]
      simp only [List.append_assoc]
  · rintro ⟨⟨mi, vi, si, ni, h, m, v, s, n, h1, h2, rfl, h4, h5, rfl⟩, hl⟩
    have hl' := hl
    simp only [List.length_append] at hl'
    rw [metaOut_iff (by unfold maxSize; omega)] at h1
    rw [vocabOut_iff] at h2
    rw [storageOut_iff hw] at h4
    rw [normsOut_iff] at h5
    obtain ⟨h1, rfl⟩ := h1
    obtain ⟨h2, rfl, rfl⟩ := h2
    obtain ⟨h4, rfl, rfl⟩ := h4
    obtain ⟨h5, rfl, rfl⟩ := h5
    rw [header_eq, ← chunkIds_eq] at hl hl' ⊢
    have hmax : maxSize = 2 ^ 63 := rfl
    refine embWrite_ok hw (mb := m) ⟨h1, by simp only [List.append_assoc], h2, ?_, h4, ?_, ?_, hl⟩
    · have : vocabLen e.vocab ≤ (vocabEnc e.vocab).length := by
        have hf := h2.2.2
        unfold vocabEnc vocabLen vocabBody
        rcases hs : e.vocab.sub with _ | (ix | ix | ix) <;> rw [hs] at hf <;>
          simp [length_wordsEnc, length_itemsIdxEnc, calcsize, ngramItems, Function.comp_def] <;> omega
      omega
    · have := length_storageBody (padFloat32 ((headerEnc (e.chunkIds.map ChunkId.toNat) ++ m ++
        vocabEnc e.vocab).length + 4)) e.storage hw
      rw [← this]
      unfold storageEnc at hl'
      simp only [List.length_append] at hl' ⊢
      omega
    · intro xs hx
      refine ⟨h5 xs hx, ?_⟩
      rw [← length_normsBody]
      rw [hx] at hl'
      unfold normsEnc at hl'
      simp only [List.length_append] at hl' ⊢
      omega

end FF
