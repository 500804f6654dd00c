import Verif.Lemmas.CutExact
import Verif.Spec.Samples
/-! C09: standalone chunk files cut off at any byte. -/

namespace FF

/-- Storages with at least one element: every proper prefix of the file is rejected, both by
`load_storage` and by the loader for the class. -/
theorem C09_storage (st : Storage F32) (bs : Bytes) (hst : StorageWF st) (hne : st.nonempty)
    (hw : (writeStandalone st.chunkId st.writeChunk).file = (.ok (), bs)) (k : Nat)
    (hk : k < bs.length) :
    (∃ e, Rd.run (loadStorage false) (bs.take k) = .error e) ∧
      ∃ e, Rd.run (loadStorageAs st false) (bs.take k) = .error e := by
  obtain ⟨h1, h2, h3, h4⟩ := storageWrite_inv (writeStandalone_inv hw)
  have ht := readStorage_short st hst h2 _ hne (by rw [h1] at h4; exact h4)
  cases st with
  | nd m =>
    exact ⟨load_short rfl h1 (by simp [Storage.chunkId]) h3 rfl ⟨_, rfl⟩ ht k hk,
      load_short (load := loadNdArray false) rfl h1 (by simp [Storage.chunkId]) h3 rfl ⟨_, rfl⟩
        ht k hk⟩
  | quant q =>
    exact ⟨load_short rfl h1 (by simp [Storage.chunkId]) h3 rfl ⟨_, rfl⟩ ht k hk,
      load_short (load := loadQuantizedArray false) rfl h1 (by simp [Storage.chunkId]) h3 rfl
        ⟨_, rfl⟩ ht k hk⟩

/-- Every storage, also one without elements: a proper prefix of the file is rejected, or yields
the storage that was written. -/
theorem C09_storage_any (st : Storage F32) (bs : Bytes) (hst : StorageWF st)
    (hw : (writeStandalone st.chunkId st.writeChunk).file = (.ok (), bs)) (k : Nat)
    (hk : k < bs.length) (load : Rd (Storage F32))
    (hload : load = loadStorage false ∨ load = loadStorageAs st false) :
    (∃ e, Rd.run load (bs.take k) = .error e) ∨ Rd.run load (bs.take k) = .ok st := by
  obtain ⟨h1, h2, h3, h4⟩ := storageWrite_inv (writeStandalone_inv hw)
  have hs := readStorage_same st hst h2 _ (by rw [h1] at h4; exact h4)
  have ht : Trunc (readStorageChunk st) (headerEnc [st.chunkId.toNat] ++ chunkHead st.chunkId
      (storageLen (padFloat32 ((headerEnc [st.chunkId.toNat]).length + 4)) st))
      (storageBody (padFloat32 ((headerEnc [st.chunkId.toNat]).length + 4)) st)
      fun _ st' => st' = st := by
    intro j hj
    rcases hs j hj with h | ⟨s', h, _⟩
    · exact Or.inl h
    · exact Or.inr ⟨st, s', h, rfl⟩
  have key : (∃ e, Rd.run load (bs.take k) = .error e) ∨
      ∃ a, Rd.run load (bs.take k) = .ok a ∧ a = st := by
    rcases hload with rfl | rfl
    · cases st with
      | nd m =>
        exact load_trunc (load := loadStorage false) rfl h1 (by simp [Storage.chunkId]) h3 rfl ⟨_, rfl⟩ ht k hk
      | quant q =>
        exact load_trunc (load := loadStorage false) rfl h1 (by simp [Storage.chunkId]) h3 rfl ⟨_, rfl⟩ ht k hk
    · cases st with
      | nd m =>
        exact load_trunc (load := loadNdArray false) rfl h1 (by simp [Storage.chunkId]) h3 rfl
          ⟨_, rfl⟩ ht k hk
      | quant q =>
        exact load_trunc (load := loadQuantizedArray false) rfl h1 (by simp [Storage.chunkId]) h3 rfl
          ⟨_, rfl⟩ ht k hk
  rcases key with h | ⟨a, h, rfl⟩
  · exact Or.inl h
  · exact Or.inr h

/-- A matrix without elements: the file has 48 bytes, and exactly the cuts that leave 44 load. -/
theorem C09_empty_ndarray_exact (m : Mat F32) (bs : Bytes) (hm : StorageWF (.nd m)) (h0 : m.size = 0)
    (hw : (writeStandalone .ndArray (Storage.nd m).writeChunk).file = (.ok (), bs)) (k : Nat)
    (hk : k < bs.length) :
    bs.length = 48 ∧
    ((∃ st, Rd.run (loadStorage false) (bs.take k) = .ok st) ↔ 44 ≤ k) := by
  obtain ⟨h1, h2, h3, h4⟩ := storageWrite_inv (writeStandalone_inv hw)
  have hh : (headerEnc [ChunkId.ndArray.toNat]).length = 16 := by
    simp [headerEnc, magic, packRaw]
  have hf : m.flat = [] := by
    have := hm.1.flat_length; rw [h0] at this; exact List.length_eq_zero_iff.mp this
  rw [hh, show padFloat32 (16 + 4) = 4 from rfl] at h3
  have h1 : bs = headerEnc [ChunkId.ndArray.toNat] ++ (chunkHead .ndArray (ndLen 4 m) ++
      (packRaw [(8, m.rows.length), (4, m.cols)] ++ (le 4 10 ++ zeros 4))) := by
    rw [h1, hh]
    show _ ++ (chunkHead .ndArray (ndLen 4 m) ++ ndBody 4 m) = _
    rw [ndBody_eq, hf]
    simp [f32sLE]
  have hlen : bs.length = 48 := by
    rw [h1]; simp [hh, calcsize]
  have hpre : (headerEnc [ChunkId.ndArray.toNat] ++ chunkHead .ndArray (ndLen 4 m)).length = 28 := by
    simp [hh]
  have hcut := readArrayHeader_cut m.rows.length m.cols (headerEnc [ChunkId.ndArray.toNat] ++
    chunkHead .ndArray (ndLen 4 m)) h2.1 h2.2 (by rw [hpre]; decide)
  rw [hpre] at hcut
  simp only [show padFloat32 (28 + 16) = 4 from rfl] at hcut
  refine ⟨hlen, ?_, fun hk44 => ?_⟩
  · rintro ⟨st, h⟩
    have ht : Trunc (readStorageChunk (.nd m)) (headerEnc [ChunkId.ndArray.toNat] ++ chunkHead .ndArray
        (ndLen 4 m)) (packRaw [(8, m.rows.length), (4, m.cols)] ++ (le 4 10 ++ zeros 4))
        fun l _ => 44 ≤ l := by
      intro j hj
      rw [hpre]
      rcases hcut j (by simp [calcsize] at hj; omega) with ⟨_, e, h⟩ | ⟨h, _⟩
      · exact Or.inl ⟨e, rd_bind_error (rd_bind_error h)⟩
      · cases hx : readStorageChunk (.nd m) ⟨headerEnc [ChunkId.ndArray.toNat] ++ chunkHead .ndArray
          (ndLen 4 m) ++ (packRaw [(8, m.rows.length), (4, m.cols)] ++ (le 4 10 ++ zeros 4)).take j, 28⟩ with
        | error e => exact Or.inl ⟨e, rfl⟩
        | ok p => exact Or.inr ⟨p.1, p.2, rfl, by omega⟩
    rcases load_trunc (load := loadStorage false) (c := .ndArray) rfl h1 (by simp) h3 rfl ⟨_, rfl⟩ ht k hk
      with ⟨e, he⟩ | ⟨_, _, h⟩
    · rw [he] at h; cases h
    · exact h
  · obtain ⟨j, rfl⟩ : ∃ j, k = 28 + j := ⟨k - 28, by omega⟩
    have htake : bs.take (28 + j) = headerEnc [ChunkId.ndArray.toNat] ++
        (chunkHead .ndArray (ndLen 4 m) ++ (packRaw [(8, m.rows.length), (4, m.cols)] ++
          (le 4 10 ++ zeros 4)).take j) := by
      rw [h1, ← List.append_assoc, List.take_append, hpre, List.take_of_length_le (by omega),
        Nat.add_sub_cancel_left, List.append_assoc]
    rw [htake]
    rcases hcut j (by omega) with ⟨h, _⟩ | ⟨_, s', h', hs⟩
    · omega
    · rw [← hpre] at h'
      have hr : readStorageChunk (.nd m) ⟨headerEnc [ChunkId.ndArray.toNat] ++ chunkHead .ndArray
          (ndLen 4 m) ++ (packRaw [(8, m.rows.length), (4, m.cols)] ++ (le 4 10 ++ zeros 4)).take j,
          (headerEnc [ChunkId.ndArray.toNat] ++ chunkHead .ndArray (ndLen 4 m)).length⟩ =
          .ok (.nd m, s') := by
        show (readNdArray >>= fun m => pure (Storage.nd m)) _ = _
        refine (rd_bind_ok (a := m) (s' := s') ?_).trans rfl
        unfold readNdArray
        rw [rd_bind_ok h']
        simp only
        rw [rd_bind_ok (fromFileF32_eof _ _ hs (by show 4 * m.size < _; rw [h0]; decide))]
        have := reshape2_flat m hm.1 (arrayFits_mat hm.2)
        rw [hf] at this
        rw [this]
        rfl
      exact ⟨_, load_run (load := loadStorage false) (c := .ndArray) rfl (by simp) h3 rfl _ hr⟩

/-- Metadata: every proper prefix of the file is rejected. -/
theorem C09_metadata (T : Toml) (m : Meta) (bs : Bytes)
    (hw : (writeStandalone .metadata (writeMetadata T m)).file = (.ok (), bs)) (k : Nat)
    (hk : k < bs.length) : ∃ e, Rd.run (loadMetadata T) (bs.take k) = .error e := by
  obtain ⟨str, hd, he, h1, h3, h4⟩ := metaWrite_inv (writeStandalone_inv hw)
  have hm : (utf8 str).length < maxSize := by
    rw [h1, List.length_append] at h4; simp [metaBody] at h4; omega
  exact load_short rfl h1 (by simp) h3 rfl ⟨_, rfl⟩ (readMetadata_short _ h3 hm) k hk

/-- Vocabularies: whatever is cut off, the loaders raise, unless the file ends inside the bytes
of the last word of a simple, bucket or fastText vocabulary.  In that case they raise or
return the vocabulary with the last word shortened to what is left of it.

Partial: the property asks for an exception in that case too. -/
theorem C09_vocab_partial (v : Vocab) (bs : Bytes) (hv : BuiltVocab v) (hg : HasNgrams v)
    (hw : (writeStandalone v.chunkId v.writeChunk).file = (.ok (), bs)) (k : Nat)
    (hk : k < bs.length) (load : Rd Vocab) (hload : load = loadVocab ∨ load = loadVocabAs v) :
    (∃ e, Rd.run load (bs.take k) = .error e) ∨
    ∃ v', Rd.run load (bs.take k) = .ok v' ∧ (∀ ix, v.sub ≠ some (.expl ix)) ∧ v'.sub = v.sub ∧
      ∃ init w w', v.words = init ++ [w] ∧ v'.words = init ++ [w'] ∧ w' <+: w ∧ w' ≠ w ∧
        bs.length + (utf8 w').length = k + (utf8 w).length := by
  obtain ⟨h1, h2, h3, h4⟩ := vocabWrite_inv (writeStandalone_inv hw)
  have ht := vocabRead_trunc hv.wf h2 hg
    (headerEnc [v.chunkId.toNat] ++ chunkHead v.chunkId (vocabLen v))
  rw [List.append_assoc, ← h1] at ht
  have key : (∃ e, Rd.run load (bs.take k) = .error e) ∨ ∃ v', Rd.run load (bs.take k) = .ok v' ∧
      VocabCut bs.length k v v' ∧ ∀ ix, v.sub ≠ some (.expl ix) := by
    rcases hload with rfl | rfl
    · exact load_trunc (load := loadVocab) rfl h1 (vocabId_mem v) h3 rfl ⟨_, rfl⟩ ht k hk
    · unfold loadVocabAs
      unfold Vocab.chunkId at ht h1
      rcases hs : v.sub with _ | (ix | ix | ix) <;> rw [hs] at ht h1 <;> simp only at ht h1 ⊢
      · exact load_trunc (load := loadSimpleVocab) rfl h1 (List.mem_singleton.mpr rfl) h3 rfl ⟨_, rfl⟩
          ht k hk
      · exact load_trunc (load := loadBucketVocab) rfl h1 (List.mem_singleton.mpr rfl) h3 rfl ⟨_, rfl⟩
          ht k hk
      · exact load_trunc (load := loadFastTextVocab) rfl h1 (List.mem_singleton.mpr rfl) h3 rfl ⟨_, rfl⟩
          ht k hk
      · exact load_trunc (load := loadExplicitVocab) rfl h1 (List.mem_singleton.mpr rfl) h3 rfl ⟨_, rfl⟩
          ht k hk
  rcases key with h | ⟨v', hr, ⟨hc, hs⟩, he⟩
  · exact Or.inl h
  · exact Or.inr ⟨v', hr, he, hs, hc⟩

/-- Norms: the loader raises or returns an initial part of the norms, and never all of them
unless there are none.

Partial: the property asks for an exception. -/
theorem C09_norms_partial (n : List F32) (bs : Bytes)
    (hw : (writeStandalone .ndNorms (writeNorms n)).file = (.ok (), bs)) (k : Nat)
    (hk : k < bs.length) :
    (∃ e, Rd.run loadNorms (bs.take k) = .error e) ∨
    ∃ n', Rd.run loadNorms (bs.take k) = .ok n' ∧ n' <+: n ∧ (n'.length < n.length ∨ n = []) := by
  obtain ⟨h1, h2, h3, h4⟩ := normsWrite_inv (writeStandalone_inv hw)
  have hb := h4
  rw [h1] at hb
  simp only [List.length_append, length_chunkHead, length_normsBody, normsLen] at hb
  have hlen : (headerEnc [ChunkId.ndNorms.toNat] ++ chunkHead .ndNorms
      (normsLen (padFloat32 ((headerEnc [ChunkId.ndNorms.toNat]).length + 4)) n)).length
      = (headerEnc [ChunkId.ndNorms.toNat]).length + 12 := by simp
  have hp : padFloat32 ((headerEnc [ChunkId.ndNorms.toNat]).length + 4)
      = padFloat32 ((headerEnc [ChunkId.ndNorms.toNat]).length + 12 + 12) :=
    pad_shift _ _ (by omega)
  have ht : Trunc readNorms (headerEnc [ChunkId.ndNorms.toNat] ++ chunkHead .ndNorms
      (normsLen (padFloat32 ((headerEnc [ChunkId.ndNorms.toNat]).length + 4)) n))
      (normsBody (padFloat32 ((headerEnc [ChunkId.ndNorms.toNat]).length + 4)) n)
      fun _ n' => n' <+: n ∧ (n'.length < n.length ∨ n = []) := by
    intro j hj
    have := readNorms_trunc n (headerEnc [ChunkId.ndNorms.toNat] ++ chunkHead .ndNorms
      (normsLen (padFloat32 ((headerEnc [ChunkId.ndNorms.toNat]).length + 4)) n)) h2 (by omega)
      (by rw [hlen]; omega) j (by rw [hlen, ← hp]; exact hj)
    rw [hlen, ← hp] at this
    rcases this with h | ⟨n', s', h, h5, h6⟩
    · left; rw [hlen]; exact h
    · right
      rw [hlen]
      refine ⟨n', s', h, h6, ?_⟩
      rcases h5 with h5 | ⟨_, h5⟩
      · exact Or.inl h5
      · exact Or.inr h5
  exact load_trunc (load := loadNorms) rfl h1 (List.mem_singleton.mpr rfl) h3 rfl ⟨_, rfl⟩
          ht k hk

/-- Exactly which cuts of a vocabulary file load: those in the bytes of the last word of a simple,
bucket or fastText vocabulary, at the boundary of a character, if what is left of the word is
not another word of the vocabulary. -/
theorem C09_vocab_exact (v : Vocab) (bs : Bytes) (hv : BuiltVocab v) (hg : HasNgrams v)
    (hw : (writeStandalone v.chunkId v.writeChunk).file = (.ok (), bs)) (k : Nat)
    (hk : k < bs.length) (load : Rd Vocab) (hload : load = loadVocab ∨ load = loadVocabAs v) :
    (∃ v', Rd.run load (bs.take k) = .ok v') ↔
      (∀ ix, v.sub ≠ some (.expl ix)) ∧ ∃ init w w', v.words = init ++ [w] ∧ w' <+: w ∧ w' ≠ w ∧
        w' ∉ init ∧ bs.length + (utf8 w').length = k + (utf8 w).length := by
  constructor
  · rintro ⟨v', h⟩
    rcases C09_vocab_partial v bs hv hg hw k hk load hload with ⟨e, he⟩ | ⟨v2, h2, h3, _, init, w, w',
      p1, p2, p3, p4, p5⟩
    · rw [he] at h; cases h
    · have hnd := load_nodup hload h2
      rw [p2, List.nodup_append] at hnd
      exact ⟨h3, init, w, w', p1, p3, p4,
        fun hm => hnd.2.2 w' hm w' (List.mem_singleton.mpr rfl) rfl, p5⟩
  · rintro ⟨he, init, w, w', p1, p2, p3, p4, p5⟩
    obtain ⟨h1, h2, h3, h4⟩ := vocabWrite_inv (writeStandalone_inv hw)
    have hlt : (utf8 w').length < (utf8 w).length := by omega
    have hcut : bs.take k = headerEnc [v.chunkId.toNat] ++ (chunkHead v.chunkId (vocabLen v) ++
        (vocabFields v ++ (wordsEnc init ++ (le 4 (utf8 w).length ++ utf8 w')))) := by
      obtain ⟨t, rfl⟩ := p2
      have : bs = (headerEnc [v.chunkId.toNat] ++ (chunkHead v.chunkId (vocabLen v) ++
        (vocabFields v ++ (wordsEnc init ++ (le 4 (utf8 (w' ++ t)).length ++ utf8 w'))))) ++ utf8 t := by
        rw [h1, vocabBody_fields he, p1, wordsEnc_append]
        simp only [wordsEnc, itemEnc, utf8_append, List.append_assoc, List.append_nil]
      have hl := congrArg List.length this
      rw [List.length_append] at hl
      rw [utf8_append, List.length_append] at p5
      rw [this]
      exact List.take_left' (by omega)
    obtain ⟨s', hr⟩ := vocabRead_cut hv.wf h2 he p1 p2 hlt p4
      (headerEnc [v.chunkId.toNat] ++ chunkHead v.chunkId (vocabLen v))
    rw [hcut]
    rcases hload with rfl | rfl
    · exact ⟨_, load_run (load := loadVocab) rfl (vocabId_mem v) h3 rfl _ hr⟩
    · unfold loadVocabAs
      unfold Vocab.chunkId at hr ⊢
      rcases hs : v.sub with _ | (ix | ix | ix) <;> rw [hs] at hr <;> simp only at hr ⊢
      · exact ⟨_, load_run (load := loadSimpleVocab) rfl (List.mem_singleton.mpr rfl) h3 rfl _ hr⟩
      · exact ⟨_, load_run (load := loadBucketVocab) rfl (List.mem_singleton.mpr rfl) h3 rfl _ hr⟩
      · exact ⟨_, load_run (load := loadFastTextVocab) rfl (List.mem_singleton.mpr rfl) h3 rfl _ hr⟩
      · exact absurd hs (he ix)

/-- Exactly which cuts of a norms file load, and what they load: the first 40 bytes (header,
chunk head, number and type of the norms) must be there, and all norms that are complete are
returned. -/
theorem C09_norms_exact (n : List F32) (bs : Bytes)
    (hw : (writeStandalone .ndNorms (writeNorms n)).file = (.ok (), bs)) (k : Nat)
    (hk : k < bs.length) :
    bs.length = 44 + 4 * n.length ∧
    (k < 40 → ∃ e, Rd.run loadNorms (bs.take k) = .error e) ∧
    (40 ≤ k → Rd.run loadNorms (bs.take k) = .ok (n.take ((k - 44) / 4))) := by
  obtain ⟨h1, h2, h3, h4⟩ := normsWrite_inv (writeStandalone_inv hw)
  have hh : (headerEnc [ChunkId.ndNorms.toNat]).length = 16 := by
    simp [headerEnc, magic, packRaw]
  have hp : padFloat32 20 = 4 := rfl
  rw [hh, hp] at h1 h3
  have hlen : bs.length = 44 + 4 * n.length := by
    rw [h1]
    simp only [List.length_append, length_chunkHead, length_normsBody, normsLen, hh]
    omega
  have hpre : (headerEnc [ChunkId.ndNorms.toNat] ++ chunkHead .ndNorms (normsLen 4 n)).length = 28 := by
    simp [hh]
  have hb : (normsBody 4 n).length = 16 + 4 * n.length := by
    rw [length_normsBody]; simp [normsLen]
  have hcut := readNorms_cut n (headerEnc [ChunkId.ndNorms.toNat] ++ chunkHead .ndNorms
    (normsLen 4 n)) h2 (by omega) (by rw [hpre]; decide)
  rw [hpre] at hcut
  simp only [show padFloat32 (28 + 12) = 4 from rfl] at hcut
  refine ⟨hlen, fun hk40 => ?_, fun hk40 => ?_⟩
  · have ht : Trunc readNorms (headerEnc [ChunkId.ndNorms.toNat] ++ chunkHead .ndNorms
        (normsLen 4 n)) (normsBody 4 n) fun l _ => 40 ≤ l := by
      intro j hj
      rw [hpre]
      rcases hcut j hj with ⟨_, h⟩ | ⟨h, s', h'⟩
      · exact Or.inl h
      · exact Or.inr ⟨_, s', h', by omega⟩
    rcases load_trunc (load := loadNorms) rfl h1 (List.mem_singleton.mpr rfl) h3 rfl ⟨_, rfl⟩ ht k hk
      with h | ⟨_, _, h⟩
    · exact h
    · omega
  · obtain ⟨j, rfl⟩ : ∃ j, k = 28 + j := ⟨k - 28, by omega⟩
    have htake : bs.take (28 + j) = headerEnc [ChunkId.ndNorms.toNat] ++
        (chunkHead .ndNorms (normsLen 4 n) ++ (normsBody 4 n).take j) := by
      rw [h1, ← List.append_assoc, List.take_append, hpre, List.take_of_length_le (by omega),
        Nat.add_sub_cancel_left, List.append_assoc]
    rw [htake]
    rcases hcut j (by omega) with ⟨h, _⟩ | ⟨_, s', h'⟩
    · omega
    · rw [show 28 + j - 44 = j - 16 by omega]
      rw [← hpre] at h'
      exact load_run (load := loadNorms) rfl (List.mem_singleton.mpr rfl) h3 rfl _ h'

/-- The property fails for vocabularies: a file cut off inside the last word loads. -/
theorem C09_vocab_refuted : ∃ (v v' : Vocab) (bs : Bytes) (k : Nat), BuiltVocab v ∧
    (writeStandalone v.chunkId v.writeChunk).file = (.ok (), bs) ∧ k < bs.length ∧
    Rd.run loadVocab (bs.take k) = .ok v' ∧ v.words = [[97], [98, 99]] ∧
    v'.words = [[97], [98]] := by
  refine ⟨⟨[[97], [98, 99]], [([97], 0), ([98, 99], 1)], none⟩,
    ⟨[[97], [98]], [([97], 0), ([98], 1)], none⟩, _, 46, ⟨(by intro ix h; cases h), by decide⟩,
    Sample.file_ok (by decide +kernel), by decide +kernel, by decide +kernel, rfl, rfl⟩

/-- The property fails for norms: a file cut off inside the last norm loads. -/
theorem C09_norms_refuted : ∃ (n : List F32) (bs : Bytes) (k : Nat),
    (writeStandalone .ndNorms (writeNorms n)).file = (.ok (), bs) ∧ k < bs.length ∧
    n = [1, 2, 3] ∧ Rd.run loadNorms (bs.take k) = .ok [1, 2] :=
  ⟨_, _, 55, Sample.file_ok (by decide +kernel), by decide +kernel, rfl, by decide +kernel⟩

/-- The property fails for storages without elements: the padding may be missing. -/
theorem C09_empty_storage_refuted : ∃ (st : Storage F32) (bs : Bytes) (k : Nat), StorageWF st ∧
    (writeStandalone st.chunkId st.writeChunk).file = (.ok (), bs) ∧ k < bs.length ∧
    Rd.run (loadStorage false) (bs.take k) = .ok st :=
  ⟨.nd ⟨0, []⟩, _, 44, by unfold StorageWF Mat.WF ShapeOk; decide, Sample.file_ok (by decide +kernel),
    by decide +kernel, by decide +kernel⟩

/-! ### The hypotheses can be met -/

example : ∃ bs, StorageWF (.quant Sample.q5) ∧ (Storage.quant Sample.q5).nonempty ∧
    (writeStandalone .quantizedArray (Storage.quant Sample.q5).writeChunk).file = (.ok (), bs) ∧
    50 < bs.length :=
  ⟨_, Sample.wfq, by show _ ≠ _; decide, Sample.file_ok (by decide +kernel), by decide +kernel⟩

example : ∃ bs, StorageWF (.nd (⟨2, []⟩ : Mat F32)) ∧ (⟨2, []⟩ : Mat F32).size = 0 ∧
    (writeStandalone .ndArray (Storage.nd ⟨2, []⟩).writeChunk).file = (.ok (), bs) ∧
    45 < bs.length :=
  ⟨_, by unfold StorageWF Mat.WF ShapeOk; decide, rfl, Sample.file_ok (by decide +kernel), by decide +kernel⟩

example : ∃ bs, (writeStandalone .metadata (writeMetadata ⟨fun _ => .ok [97], fun _ => .ok []⟩
    [])).file = (.ok (), bs) ∧ 28 < bs.length :=
  ⟨_, Sample.file_ok (by decide +kernel), by decide +kernel⟩

example : ∃ bs, BuiltVocab Sample.expl ∧ HasNgrams Sample.expl ∧
    (writeStandalone Sample.expl.chunkId Sample.expl.writeChunk).file = (.ok (), bs) ∧
    40 < bs.length :=
  ⟨_, Sample.builtExpl, Sample.ngExpl, Sample.file_ok (by decide +kernel), by decide +kernel⟩

example : ∃ bs, (writeStandalone .ndNorms (writeNorms [1, 2, 3])).file = (.ok (), bs) ∧
    40 < bs.length :=
  ⟨_, Sample.file_ok (by decide +kernel), by decide +kernel⟩

end FF
