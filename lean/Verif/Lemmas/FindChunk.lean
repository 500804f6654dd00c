import Verif.Lemmas.Errs
import Verif.Lemmas.Mmap
import Verif.Spec.Chunks
/-! `find_chunk` on well-formed files. -/

namespace FF

theorem length_chunkBytes (c : ChunkId) (b : Bytes) : (chunkBytes c b).length = 12 + b.length := by
  simp [chunkBytes]; omega

theorem chunkBytes_eq (c : ChunkId) (b : Bytes) :
    chunkBytes c b = packRaw [(4, c.toNat), (8, b.length)] ++ b := by
  simp [chunkBytes, packRaw]

theorem findChunkLoop_skip (ids : List ChunkId) (cs : List (ChunkId × Bytes)) (pre post : Bytes)
    (fuel : Nat) (hcs : ∀ p ∈ cs, p.1 ∉ ids)
    (hl : (pre ++ chunksBytes cs).length < maxSize) :
    findChunkLoop ids (fuel + cs.length) ⟨pre ++ (chunksBytes cs ++ post), pre.length⟩ =
      findChunkLoop ids fuel ⟨pre ++ (chunksBytes cs ++ post), (pre ++ chunksBytes cs).length⟩ := by
  induction cs generalizing pre with
  | nil => simp [chunksBytes]
  | cons p cs ih =>
    obtain ⟨c, b⟩ := p
    have hb : b.length < 256 ^ 8 := by
      simp only [chunksBytes, List.length_append, length_chunkBytes, maxSize] at hl
      omega
    have e1 : pre ++ (chunksBytes ((c, b) :: cs) ++ post) =
        pre ++ packRaw [(4, c.toNat), (8, b.length)] ++ (b ++ (chunksBytes cs ++ post)) := by
      simp [chunksBytes, chunkBytes_eq]
    have e2 : pre ++ (chunksBytes ((c, b) :: cs) ++ post) =
        (pre ++ chunkBytes c b) ++ (chunksBytes cs ++ post) := by simp [chunksBytes]
    have hp := readChunkHeader_parses c b.length pre hb (b ++ (chunksBytes cs ++ post))
    rw [← e1] at hp
    show findChunkLoop ids ((fuel + cs.length) + 1) _ = _
    rw [findChunkLoop, rd_bind_ok hp]
    simp only
    rw [if_neg (hcs _ List.mem_cons_self)]
    have h12 : (packRaw [(4, c.toNat), (8, b.length)]).length = 12 := by simp [packRaw]
    rw [rd_bind_ok (m := seekCur b.length) (seekCur_ok (by
      simp only [chunksBytes, List.length_append, length_chunkBytes, h12] at hl ⊢
      omega))]
    have e3 : (pre ++ packRaw [(4, c.toNat), (8, b.length)]).length + b.length =
        (pre ++ chunkBytes c b).length := by simp [length_chunkBytes, h12]; omega
    simp only [e3]
    rw [e2, ih (pre ++ chunkBytes c b) (fun p hp => hcs p (List.mem_cons_of_mem _ hp)) (by
      simpa [chunksBytes] using hl)]
    simp [chunksBytes]

theorem length_chunksBytes (cs : List (ChunkId × Bytes)) : cs.length ≤ (chunksBytes cs).length := by
  induction cs with
  | nil => simp [chunksBytes]
  | cons p cs ih =>
    obtain ⟨c, b⟩ := p
    simp only [chunksBytes, List.length_append, length_chunkBytes, List.length_cons]
    omega

theorem findChunk_skip (ids : List ChunkId) (hdr : List Nat) (cs : List (ChunkId × Bytes))
    (post : Bytes) (pos : Nat) (h0 : hdr ≠ []) (h1 : hdr.length < 256 ^ 4)
    (h2 : ∀ i ∈ hdr, i < 256 ^ 4) (hcs : ∀ p ∈ cs, p.1 ∉ ids)
    (hl : (headerEnc hdr ++ chunksBytes cs).length < maxSize) :
    ∃ fuel, findChunk ids ⟨headerEnc hdr ++ (chunksBytes cs ++ post), pos⟩ =
      findChunkLoop ids (fuel + 1) ⟨headerEnc hdr ++ (chunksBytes cs ++ post),
        (headerEnc hdr ++ chunksBytes cs).length⟩ := by
  have hlen := length_chunksBytes cs
  generalize hd : headerEnc hdr ++ (chunksBytes cs ++ post) = data
  have hlen' : cs.length ≤ data.length := by
    rw [← hd]; simp only [List.length_append]; omega
  refine ⟨data.length - cs.length, ?_⟩
  have hr := readHeader_parses hdr [] h0 h1 h2 (chunksBytes cs ++ post)
  simp only [List.nil_append, List.length_nil] at hr
  rw [hd] at hr
  unfold findChunk
  rw [rd_bind_ok (m := seekSet 0) (s' := ⟨data, 0⟩) rfl, rd_bind_ok hr]
  have e : data.length + 1 = (data.length - cs.length + 1) + cs.length := by omega
  rw [e, ← hd]
  exact findChunkLoop_skip ids cs (headerEnc hdr) post _ hcs hl

/-- The length field `n` of the chunk that is found does not matter. -/
theorem findChunk_at (ids : List ChunkId) (hdr : List Nat) (cs : List (ChunkId × Bytes))
    (c : ChunkId) (n : Nat) (post : Bytes) (pos : Nat) (h0 : hdr ≠ []) (h1 : hdr.length < 256 ^ 4)
    (h2 : ∀ i ∈ hdr, i < 256 ^ 4) (hcs : ∀ p ∈ cs, p.1 ∉ ids) (hc : c ∈ ids) (hn : n < 256 ^ 8)
    (hl : (headerEnc hdr ++ chunksBytes cs).length < maxSize) :
    findChunk ids ⟨headerEnc hdr ++ (chunksBytes cs ++
        (packRaw [(4, c.toNat), (8, n)] ++ post)), pos⟩ =
      .ok (some c, ⟨headerEnc hdr ++ (chunksBytes cs ++ (packRaw [(4, c.toNat), (8, n)] ++ post)),
        ((headerEnc hdr ++ chunksBytes cs) ++ packRaw [(4, c.toNat), (8, n)]).length⟩) := by
  obtain ⟨fuel, h⟩ := findChunk_skip ids hdr cs (packRaw [(4, c.toNat), (8, n)] ++ post) pos
    h0 h1 h2 hcs hl
  rw [h]
  have hp := readChunkHeader_parses c n (headerEnc hdr ++ chunksBytes cs) hn post
  have e : headerEnc hdr ++ chunksBytes cs ++ packRaw [(4, c.toNat), (8, n)] ++ post =
      headerEnc hdr ++ (chunksBytes cs ++ (packRaw [(4, c.toNat), (8, n)] ++ post)) := by simp
  rw [e] at hp
  rw [findChunkLoop, rd_bind_ok hp]
  simp only
  rw [if_pos hc]
  rfl

theorem findChunk_none (ids : List ChunkId) (hdr : List Nat) (cs : List (ChunkId × Bytes))
    (pos : Nat) (h0 : hdr ≠ []) (h1 : hdr.length < 256 ^ 4)
    (h2 : ∀ i ∈ hdr, i < 256 ^ 4) (hcs : ∀ p ∈ cs, p.1 ∉ ids)
    (hl : (headerEnc hdr ++ chunksBytes cs).length < maxSize) :
    findChunk ids ⟨headerEnc hdr ++ chunksBytes cs, pos⟩ =
      .ok (none, ⟨headerEnc hdr ++ chunksBytes cs, (headerEnc hdr ++ chunksBytes cs).length⟩) := by
  obtain ⟨fuel, h⟩ := findChunk_skip ids hdr cs [] pos h0 h1 h2 hcs hl
  rw [List.append_nil] at h
  rw [h, findChunkLoop, rd_bind_ok (readChunkHeader_eof _ (by simp))]
  rfl

theorem findChunkLoop_mem (ids : List ChunkId) (fuel : Nat) (s s' : RFile) (c : ChunkId)
    (h : findChunkLoop ids fuel s = .ok (some c, s')) : c ∈ ids := by
  induction fuel generalizing s with
  | zero => cases h
  | succ n ih =>
    unfold findChunkLoop at h
    obtain ⟨r, s1, h1, h⟩ := rd_bind_inv h
    rcases r with _ | ⟨c', size⟩
    · cases h
    · simp only at h
      split at h
      · cases h; assumption
      · obtain ⟨_, s2, _, h⟩ := rd_bind_inv h
        exact ih s2 h

theorem findChunk_mem {ids : List ChunkId} {s s' : RFile} {c : ChunkId}
    (h : findChunk ids s = .ok (some c, s')) : c ∈ ids := by
  unfold findChunk at h
  obtain ⟨_, s1, _, h⟩ := rd_bind_inv h
  obtain ⟨_, s2, _, h⟩ := rd_bind_inv h
  exact findChunkLoop_mem _ _ _ _ _ h

theorem findChunk_fuel (ids : List ChunkId) (s : RFile) :
    findChunk ids s ≠ .error .outOfFuel := by
  have hP : IoErrs (· ≠ .outOfFuel) := by constructor <;> decide
  intro he
  unfold findChunk at he
  rw [rd_bind_ok (m := seekSet 0) (s' := ⟨s.data, 0⟩) rfl, rd_bind] at he
  cases hm : readHeader ⟨s.data, 0⟩ with
  | error e => rw [hm] at he; cases he; exact readHeader_errs hP _ _ hm rfl
  | ok p =>
    obtain ⟨r, s1⟩ := p
    rw [hm] at he
    have := readHeader_keeps _ _ _ hm
    refine findChunkLoop_fuel ids _ s1 (by omega) ?_ he
    rw [this]; simp only; omega

end FF
