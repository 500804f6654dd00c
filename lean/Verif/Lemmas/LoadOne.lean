import Verif.Lemmas.FindChunk
import Verif.Lemmas.Built
/-! Loading a single chunk out of a file with several chunks. -/

namespace FF

variable {hdr : List Nat} {cs : List (ChunkId × Bytes)} {post : Bytes} {pos : Nat}

theorem vocabId_mem (v : Vocab) :
    v.chunkId ∈ [ChunkId.simpleVocab, .fastTextVocab, .explicitVocab, .bucketVocab] := by
  unfold Vocab.chunkId
  rcases v.sub with _ | (ix | ix | ix) <;> simp

theorem find_read {α : Type} {ids : List ChunkId} {c : ChunkId} {n : Nat} {body : Bytes} {m : Rd α}
    {a : α} {f : Option ChunkId → Rd α} (h0 : hdr ≠ []) (h1 : hdr.length < 256 ^ 4)
    (h2 : ∀ i ∈ hdr, i < 256 ^ 4) (hcs : ∀ p ∈ cs, p.1 ∉ ids) (hc : c ∈ ids) (hn : n < 256 ^ 8)
    (hl : (headerEnc hdr ++ chunksBytes cs).length < maxSize) (hf : f (some c) = m)
    (hp : Parses m (headerEnc hdr ++ chunksBytes cs ++ chunkHead c n) body a) :
    ∃ s', (findChunk ids >>= f) ⟨headerEnc hdr ++ (chunksBytes cs ++
      ((chunkHead c n ++ body) ++ post)), pos⟩ = .ok (a, s') := by
  have h := findChunk_at ids hdr cs c n (body ++ post) pos h0 h1 h2 hcs hc hn hl
  rw [List.append_assoc (chunkHead c n)]
  unfold chunkHead at hp ⊢
  rw [rd_bind_ok h, hf]
  refine ⟨_, Eq.trans ?_ (hp post)⟩
  congr 2
  simp

theorem loadVocab_at {v : Vocab} (hw : VocabWF v) (hf : VocabFits v) (hl : vocabLen v < 256 ^ 8)
    (hne : ∀ ix, v.sub = some (.expl ix) → ix.ngrams ≠ [])
    (h0 : hdr ≠ []) (h1 : hdr.length < 256 ^ 4) (h2 : ∀ i ∈ hdr, i < 256 ^ 4)
    (hcs : ∀ p ∈ cs, p.1 ∉ [ChunkId.simpleVocab, .fastTextVocab, .explicitVocab, .bucketVocab])
    (hs : (headerEnc hdr ++ chunksBytes cs).length < maxSize) :
    (∃ s', loadVocab ⟨headerEnc hdr ++ (chunksBytes cs ++ (vocabEnc v ++ post)), pos⟩ =
        .ok (canonVocab v, s')) ∧
      ∃ s', loadVocabAs v ⟨headerEnc hdr ++ (chunksBytes cs ++ (vocabEnc v ++ post)), pos⟩ =
        .ok (canonVocab v, s') := by
  have hp := vocabRead_parses hw hf hne
    (headerEnc hdr ++ chunksBytes cs ++ chunkHead v.chunkId (vocabLen v))
  constructor
  · unfold loadVocab vocabEnc
    exact find_read h0 h1 h2 hcs (vocabId_mem v) hl hs rfl hp
  · have hid : ∀ i, v.chunkId = i → ∀ p ∈ cs, p.1 ∉ [i] := by
      rintro i rfl p hp hm
      rw [List.mem_singleton] at hm
      exact hcs p hp (hm ▸ vocabId_mem v)
    unfold loadVocabAs vocabEnc
    unfold Vocab.chunkId at hp hid ⊢
    rcases hv : v.sub with _ | (ix | ix | ix) <;> rw [hv] at hp hid <;> simp only at hp hid ⊢
    · exact find_read h0 h1 h2 (hid _ rfl) (by simp) hl hs rfl hp
    · exact find_read h0 h1 h2 (hid _ rfl) (by simp) hl hs rfl hp
    · exact find_read h0 h1 h2 (hid _ rfl) (by simp) hl hs rfl hp
    · exact find_read h0 h1 h2 (hid _ rfl) (by simp) hl hs rfl hp

theorem loadStorage_at {st : Storage F32} {p : Bytes} (hp : p = headerEnc hdr ++ chunksBytes cs)
    (hw : StorageWF st) (hf : StorageFits st)
    (hl : storageLen (padFloat32 (p.length + 4)) st < 256 ^ 8)
    (h0 : hdr ≠ []) (h1 : hdr.length < 256 ^ 4) (h2 : ∀ i ∈ hdr, i < 256 ^ 4)
    (hcs : ∀ p ∈ cs, p.1 ∉ [ChunkId.ndArray, .quantizedArray])
    (hs : (p ++ storageEnc p.length st).length < maxSize) :
    (∃ s', loadStorage false ⟨headerEnc hdr ++ (chunksBytes cs ++
        (storageEnc p.length st ++ post)), pos⟩ = .ok (st, s')) ∧
      ∃ s', loadStorageAs st false ⟨headerEnc hdr ++ (chunksBytes cs ++
        (storageEnc p.length st ++ post)), pos⟩ = .ok (st, s') := by
  have hps := readStorage_parses st hw hf p hs
  subst hp
  have hs' : (headerEnc hdr ++ chunksBytes cs).length < maxSize := by
    rw [List.length_append] at hs; omega
  have hid : ∀ i ∈ [ChunkId.ndArray, .quantizedArray], ∀ p ∈ cs, p.1 ∉ [i] := by
    rintro i hi p hp hm
    rw [List.mem_singleton] at hm
    exact hcs p hp (hm ▸ hi)
  cases st with
  | nd m =>
    exact ⟨find_read h0 h1 h2 hcs (by simp [Storage.chunkId]) hl hs' rfl hps,
      find_read h0 h1 h2 (hid _ (by simp)) (by simp [Storage.chunkId]) hl hs' rfl hps⟩
  | quant q =>
    exact ⟨find_read h0 h1 h2 hcs (by simp [Storage.chunkId]) hl hs' rfl hps,
      find_read h0 h1 h2 (hid _ (by simp)) (by simp [Storage.chunkId]) hl hs' rfl hps⟩

theorem loadNorms_at {n : List F32} {p : Bytes} (hp : p = headerEnc hdr ++ chunksBytes cs)
    (hr : n.length < 256 ^ 8) (hl : normsLen (padFloat32 (p.length + 4)) n < 256 ^ 8)
    (h0 : hdr ≠ []) (h1 : hdr.length < 256 ^ 4) (h2 : ∀ i ∈ hdr, i < 256 ^ 4)
    (hcs : ∀ p ∈ cs, p.1 ∉ [ChunkId.ndNorms])
    (hs : (p ++ normsEnc p.length (some n)).length < maxSize) :
    ∃ s', loadNorms ⟨headerEnc hdr ++ (chunksBytes cs ++
        (normsEnc p.length (some n) ++ post)), pos⟩ = .ok (n, s') := by
  have hps := readNormsChunk_parses n p hr hs (normsLen (padFloat32 (p.length + 4)) n)
  subst hp
  have hs' : (headerEnc hdr ++ chunksBytes cs).length < maxSize := by
    rw [List.length_append] at hs; omega
  exact find_read h0 h1 h2 hcs (by simp) hl hs' rfl hps

theorem loadMetadata_at {T : Toml} {m : Meta} {str : PyStr}
    (he : encode str = .ok (utf8 str)) (hld : T.loads str = .ok m)
    (hn : (utf8 str).length < 256 ^ 8) (hm : (utf8 str).length < maxSize)
    (h0 : hdr ≠ []) (h1 : hdr.length < 256 ^ 4) (h2 : ∀ i ∈ hdr, i < 256 ^ 4)
    (hcs : ∀ p ∈ cs, p.1 ∉ [ChunkId.metadata])
    (hs : (headerEnc hdr ++ chunksBytes cs).length < maxSize) :
    ∃ s', loadMetadata T ⟨headerEnc hdr ++ (chunksBytes cs ++
        (metaBody (utf8 str) ++ post)), pos⟩ = .ok (m, s') :=
  find_read h0 h1 h2 hcs (by simp) hn hs rfl (readMetadata_parses _ he hld hn hm)

theorem writeStandalone_inv {id : ChunkId} {chunk : Wr Unit} {bs : Bytes}
    (h : (writeStandalone id chunk).file = (.ok (), bs)) :
    chunk (headerEnc [id.toNat]) = (.ok (), bs) := by
  unfold Wr.file writeStandalone at h
  split at h
  · obtain ⟨_, s1, h1, _⟩ := wr_bind_inv h
    cases h1
  · obtain ⟨_, s1, h1, h⟩ := wr_bind_inv h
    have := (writeHeader_inv h1).1
    rw [List.nil_append] at this
    rw [← this]; exact h

end FF
