import Verif.Lemmas.WriteOk
import Verif.Spec.Writable
/-! Writable embeddings are written. -/

namespace FF

theorem any_surrogate {w : PyStr} : w.any isSurrogate = false ↔
    ∀ c ∈ w, c.val < 0xD800 ∨ 0xDFFF < c.val := by
  rw [List.any_eq_false]
  constructor
  · intro h c hc
    exact isSurrogate_false.mp (by simpa using h c hc)
  · intro h c hc
    simpa using isSurrogate_false.mpr (h c hc)

theorem Storable.item {w : PyStr} (h : Storable w) : ItemOk w :=
  ⟨any_surrogate.mpr h.1, by have := h.2; omega⟩

theorem sum_map_add (ws : List PyStr) (k : Nat) :
    (ws.map fun w => k + (utf8 w).length).sum = k * ws.length + byteSum ws := by
  induction ws with
  | nil => rfl
  | cons w ws ih => simp [byteSum, Nat.mul_add] at ih ⊢; omega

theorem explIdx_fits {ix : ExplIndexer} (hv : ExplValid ix) (hneg : ∀ p ∈ ix.index, (0 : Int) ≤ p.2)
    (hl : ix.ngrams.length < 2 ^ 63) : ∀ g ∈ ix.ngrams, ngramIdx ix g < 256 ^ 8 ∧
      Dict.get? ix.index g = some (ngramIdx ix g : Int) := by
  intro g hg
  have hmem : g ∈ Dict.keys ix.index := hv.keys.mem_iff.mpr hg
  obtain ⟨i, hi⟩ := Option.isSome_iff_exists.mp (Dict.get?_isSome.mpr hmem)
  have hm := Dict.get?_mem hi
  have h0 := hneg _ hm
  have htop := hv.top i (List.mem_map.mpr ⟨_, hm, rfl⟩)
  have hb := hv.bound
  have hdl : (ix.index.map Prod.snd).dedup.length ≤ ix.index.length := by
    have := (List.dedup_sublist (ix.index.map Prod.snd)).length_le
    simpa using this
  have hkl : ix.index.length = ix.ngrams.length := by
    have := hv.keys.length_eq
    simpa [Dict.keys] using this
  simp only at h0
  unfold ngramIdx
  rw [hi]
  simp only [Option.getD_some]
  refine ⟨by omega, ?_⟩
  congr 1
  omega

theorem Writable.bytes {T : Toml} {e : Embeddings F32} {txt : PyStr} (h : Writable T e txt)
    (he : BuiltEmb e) : ∃ mb bs, EmbBytes T e mb bs := by
  obtain ⟨hw, hg, hm, hsh, hsz⟩ := h
  have hmax : maxSize = 2 ^ 63 := rfl
  have hvwf := he.vocab.wf
  -- metadata
  obtain ⟨mb, hmb, hml⟩ : ∃ mb, MetaEnc T e.metadata mb ∧ mb.length ≤ 12 + (utf8 txt).length := by
    cases hmd : e.metadata with
    | none => exact ⟨[], rfl, by simp⟩
    | some m =>
      obtain ⟨h1, h2⟩ := hm m hmd
      refine ⟨metaBody (utf8 txt), ⟨txt, h1, encode_eq (any_surrogate.mpr h2), ?_, rfl⟩, ?_⟩
      · omega
      · simp [metaBody]
  -- vocabulary
  have hvb : (vocabEnc e.vocab).length ≤ 36 + vocabBytes e.vocab := by
    unfold vocabEnc vocabBytes
    rw [List.length_append, length_chunkHead, sum_map_add]
    unfold vocabBody
    rcases hs : e.vocab.sub with _ | (ix | ix | ix)
    · simp [length_wordsEnc]; omega
    · simp [length_wordsEnc, calcsize]; omega
    · simp [length_wordsEnc, calcsize]; omega
    · have h1 : (ngramItems ix).map Prod.fst = ix.ngrams := by simp [ngramItems, Function.comp_def]
      have h2 : (ngramItems ix).length = ix.ngrams.length := by simp [ngramItems]
      simp only [List.length_append, length_packRaw, length_wordsEnc, length_itemsIdxEnc, h1, h2,
        sum_map_add, List.map_cons, List.map_nil, calcsize, List.sum_cons, List.sum_nil]
      omega
  have hvl : vocabLen e.vocab ≤ 24 + vocabBytes e.vocab := by
    unfold vocabLen vocabBytes
    rw [sum_map_add]
    rcases hs : e.vocab.sub with _ | (ix | ix | ix) <;> simp only [sum_map_add] <;> omega
  have hwl : e.vocab.words.length ≤ vocabBytes e.vocab := by
    unfold vocabBytes
    rw [sum_map_add]
    omega
  have hvf : VocabFits e.vocab := by
    refine ⟨fun w hx => (hw w hx).item, by omega, ?_⟩
    have hsub := hvwf.sub
    rcases hs : e.vocab.sub with _ | (ix | ix | ix) <;> rw [hs] at hsub <;> simp only at hsub ⊢
    · obtain ⟨_, _, _, h4, h5, h6, h7, h8⟩ := fifuNew_ok.mp hsub
      omega
    · obtain ⟨_, _, _, h4, h5, h6, h7, h8⟩ := ftNew_ok.mp hsub
      omega
    · obtain ⟨hg1, hg2⟩ := hg ix hs
      have hgl : ix.ngrams.length ≤ vocabBytes e.vocab := by
        unfold vocabBytes
        rw [hs]
        simp only [sum_map_add]
        omega
      have hmm := hsub.minMax
      have hm32 := hsub.max32
      refine ⟨by omega, by omega, by omega, fun g hgm => ?_⟩
      obtain ⟨h1, h2⟩ := explIdx_fits hsub hg2 (by omega) g hgm
      exact ⟨(hg1 g hgm).item, h1, h2⟩
  -- storage
  have hpad : ∀ p, padFloat32 p ≤ 4 := fun p => by unfold padFloat32; omega
  have hsl : ∀ p, storageLen (padFloat32 p) e.storage ≤ 40 + storageBytes e.storage := by
    intro p
    have hp := hpad p
    have hwf := he.storage
    cases hst : e.storage with
    | nd m =>
      simp only [storageLen, ndLen, storageBytes, Mat.size]
      omega
    | quant q =>
      rw [hst] at hwf
      simp only [storageLen, qLen, storageBytes]
      rw [Nat.pow_two]
      cases hq : q.norms with
      | none => cases hq' : q.pq.projection <;> simp only <;> omega
      | some n =>
        have := QWF.norms hwf n hq
        cases hq' : q.pq.projection <;> simp only <;> omega
  have hse : ∀ p, (storageEnc p e.storage).length ≤ 52 + storageBytes e.storage := by
    intro p
    unfold storageEnc
    rw [List.length_append, length_chunkHead, length_storageBody _ _ he.storage]
    have := hsl (p + 4)
    omega
  have hsf : StorageFits e.storage := by
    have hwf := he.storage
    cases hst : e.storage with
    | nd m =>
      rw [hst] at hsh
      refine ⟨?_, by simp only at hsh; omega⟩
      have h1 := (check_parts.mp (embNew_ok.mp he.new).1).1
      rw [hst] at h1
      simp only [Storage.nRows] at h1
      have hsub := hvwf.sub
      have hvlen : e.vocab.len = e.vocab.words.length := by
        unfold Vocab.len; rw [hvwf.index, enumItems_length]
      unfold Vocab.upperBound at h1
      rcases hs : e.vocab.sub with _ | (ix | ix | ix) <;> rw [hs] at hsub h1 <;>
        simp only [Indexer.upperBound, hvlen] at hsub h1
      · omega
      · obtain ⟨_, _, _, h4, h5, h6, h7, h8⟩ := fifuNew_ok.mp hsub
        have : 2 ^ ix.bucketsExp ≤ 2 ^ 63 := Nat.pow_le_pow_right (by decide) (by omega)
        simp only [FifuIndexer.upperBound] at h1
        have h1' : m.rows.length = e.vocab.words.length + 2 ^ ix.bucketsExp := by exact_mod_cast h1
        omega
      · obtain ⟨_, _, _, h4, h5, h6, h7, h8⟩ := ftNew_ok.mp hsub
        simp only [FtIndexer.upperBound] at h1
        omega
      · have hb := hsub.bound
        have hdl : (ix.index.map Prod.snd).dedup.length ≤ ix.index.length := by
          have := (List.dedup_sublist (ix.index.map Prod.snd)).length_le
          simpa using this
        have hkl : ix.index.length = ix.ngrams.length := by
          have := hsub.keys.length_eq
          simpa [Dict.keys] using this
        have hgl : ix.ngrams.length ≤ vocabBytes e.vocab := by
          unfold vocabBytes
          rw [hs]
          simp only [sum_map_add]
          omega
        omega
    | quant q =>
      rw [hst] at hsh hwf
      simp only [StorageFits]
      obtain ⟨h1, h2, h3⟩ := hsh
      refine ⟨by omega, by omega, by omega, ?_⟩
      have := hsl 0
      rw [hst] at hsz
      simp only [storageBytes] at hsz
      omega
  have hne : ∀ p, (normsEnc p e.norms).length ≤ 28 + 4 * ((e.norms.map List.length).getD 0) := by
    intro p
    cases hn : e.norms with
    | none => simp [normsEnc]
    | some n =>
      have := hpad (p + 4)
      simp only [normsEnc, List.length_append, length_chunkHead, length_normsBody, normsLen,
        Option.map_some, Option.getD_some]
      omega
  have hid : (e.chunkIds.map ChunkId.toNat).length ≤ 4 := by
    unfold Embeddings.chunkIds
    cases e.metadata <;> cases e.norms <;> simp
  have hhd := length_headerEnc (e.chunkIds.map ChunkId.toNat)
  refine ⟨mb, _, ⟨hmb, rfl, hvf, by omega, hsf, ?_, ?_, ?_⟩⟩
  · have := hsl ((headerEnc (e.chunkIds.map ChunkId.toNat) ++ mb ++ vocabEnc e.vocab).length + 4)
    omega
  · intro n hn
    rw [hn] at hsz
    simp only [Option.map_some, Option.getD_some] at hsz
    refine ⟨by omega, ?_⟩
    unfold normsLen
    have := hpad ((headerEnc (e.chunkIds.map ChunkId.toNat) ++ mb ++ vocabEnc e.vocab ++
      storageEnc (headerEnc (e.chunkIds.map ChunkId.toNat) ++ mb ++ vocabEnc e.vocab).length
        e.storage).length + 4)
    omega
  · have h1 := hse (headerEnc (e.chunkIds.map ChunkId.toNat) ++ mb ++ vocabEnc e.vocab).length
    have h2 := hne (headerEnc (e.chunkIds.map ChunkId.toNat) ++ mb ++ vocabEnc e.vocab ++
      storageEnc (headerEnc (e.chunkIds.map ChunkId.toNat) ++ mb ++ vocabEnc e.vocab).length
        e.storage).length
    rw [List.length_append, List.length_append, List.length_append, List.length_append]
    omega

end FF
