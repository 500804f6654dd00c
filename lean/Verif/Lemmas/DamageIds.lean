import Verif.Spec.DamageIds
import Verif.Lemmas.DamageBuckets
/-! Replacing the identifier of a chunk. -/

namespace FF
open Fifu

theorem head_damaged {bs bs' : Bytes} {p id n : Nat} (h : Head bs p id) (hd : DiffersWithin bs bs' p (p + 4))
    (hat : HasAt bs' p (uint 4 n)) : Head bs' p n := by
  obtain ⟨len, h1, h2⟩ := h
  refine ⟨len, h1, ?_⟩
  rw [hasAt_append, length_uint] at h2 ⊢
  exact ⟨hat, EqFrom.hasAt (n := p + 4) ⟨hd.1, fun j hj => hd.2 j (Or.inr hj)⟩ h2.2 (Nat.le_refl _)⟩

/-- A chunk header is one of those in `ChunkIdentifier`, or raises a `ValueError`. -/
theorem readChunkHeader_cases {bs : Bytes} {p n : Nat} (h : Head bs p n) (hn : n < 2 ^ 32) :
    (∃ (c : ChunkId) (len : Nat), n = c.toNat ∧ readChunkHeader ⟨bs, p⟩ = .ok (some (c, len), ⟨bs, p + 12⟩)) ∨
      8 < n ∧ readChunkHeader ⟨bs, p⟩ = .error .valueError := by
  by_cases h8 : 8 < n
  · refine Or.inr ⟨h8, ?_⟩
    obtain ⟨len, h1, h2⟩ := h
    rw [uint_eq] at h2
    have hr := (readRequired_iff (ws := [4, 8]) (bs := bs) (p := p) (vs := [n, len]) (s' := ⟨bs, p + 12⟩)
      (by decide) (by decide)).mpr ⟨rfl, (by
        intro f hf
        simp only [List.zip_cons_cons, List.zip_nil_right, List.mem_cons, List.not_mem_nil, or_false] at hf
        rcases hf with rfl | rfl
        · exact lt_of_lt_of_eq hn (by norm_num)
        · exact lt_of_lt_of_eq h1 pow_64.symm), (by simpa [packRaw] using h2), rfl⟩
    unfold readRequired at hr
    rw [rd_bind_iff] at hr
    obtain ⟨o, s1, k1, k2⟩ := hr
    cases o with
    | none => cases k2
    | some v =>
      cases k2
      unfold readChunkHeader
      rw [rd_bind_ok k1]
      have : ChunkId.fromNat n = .error .valueError := by
        unfold ChunkId.fromNat
        split <;> first | omega | rfl
      simp only
      rw [this]
      rfl
  · refine Or.inl ?_
    have : ∃ c : ChunkId, n = c.toNat := by
      have : n = 0 ∨ n = 1 ∨ n = 2 ∨ n = 3 ∨ n = 4 ∨ n = 5 ∨ n = 6 ∨ n = 7 ∨ n = 8 := by omega
      rcases this with rfl | rfl | rfl | rfl | rfl | rfl | rfl | rfl | rfl
      · exact ⟨.header, rfl⟩
      · exact ⟨.simpleVocab, rfl⟩
      · exact ⟨.ndArray, rfl⟩
      · exact ⟨.bucketVocab, rfl⟩
      · exact ⟨.quantizedArray, rfl⟩
      · exact ⟨.metadata, rfl⟩
      · exact ⟨.ndNorms, rfl⟩
      · exact ⟨.fastTextVocab, rfl⟩
      · exact ⟨.explicitVocab, rfl⟩
    obtain ⟨c, rfl⟩ := this
    obtain ⟨len, h1, h2⟩ := h
    rw [uint_eq] at h2
    exact ⟨c, len, rfl, readChunkHeader_some.mpr ⟨h1, h2, rfl⟩⟩

theorem idError_chunk (c : ChunkId) : idError c.toNat = .formatError := by cases c <;> rfl

theorem idError_unknown {n : Nat} (h : 8 < n) : idError n = .valueError := if_neg (by omega)

/-- No vocabulary after the metadata. -/
theorem load_vocab_id {T : Toml} {mmap : Bool} {bs : Bytes} {p1 p2 n : Nat} {md : Option Meta}
    (hlen : bs.length + 4 < 2 ^ 63) (hh : HeaderAt bs p1) (m1 : MetaAt T bs p1 md p2) (hd : Head bs p2 n)
    (hn : n < 2 ^ 32) (h : n ∉ [1, 3, 5, 7, 8]) : Rd.run (loadFinalfusion T mmap) bs = .error (idError n) := by
  rcases readChunkHeader_cases hd hn with ⟨c, len, rfl, hr⟩ | ⟨h8, hr⟩
  · rw [idError_chunk]
    refine load_vocab_error hlen hh m1 (c := c) (by rintro rfl; exact h (by decide)) hd ?_
    cases c <;> first | rfl | exact absurd (by decide) h
  · rw [idError_unknown h8]
    obtain ⟨ids, h1⟩ := readHeader_iff.mpr ⟨p1, hh, rfl⟩
    have hreq : readRequiredChunkHeader ⟨bs, p2⟩ = .error .valueError := by
      unfold readRequiredChunkHeader
      exact rd_bind_error hr
    have hmeta : loadMetaPart T ⟨bs, p1⟩ = .error .valueError := by
      unfold loadMetaPart
      cases md with
      | none =>
        have : p2 = p1 := m1
        subst this
        exact rd_bind_error hreq
      | some m =>
        have h4 := (readMetadata_iff (by omega)).mpr ⟨p2, m1, rfl⟩
        have hk : ∃ n s, readRequiredChunkHeader ⟨bs, p1⟩ = .ok ((.metadata, n), s) := by
          rw [head_iff]
          obtain ⟨text, _, _, h6, _⟩ := m1
          refine ⟨(utf8 text).length, ?_, ?_⟩
          · have := List.IsPrefix.length_le h6
            simp only [List.length_append, List.length_drop] at this
            omega
          · rw [hasAt_append] at h6
            exact h6.1
        obtain ⟨n', s1, k'⟩ := hk
        have := (readRequiredChunkHeader_iff.mp k').2.2
        subst this
        rw [rd_bind_ok k']
        simp only
        rw [if_pos trivial, rd_bind_ok h4]
        exact rd_bind_error hreq
    have : loadFinalfusion T mmap ⟨bs, 0⟩ = .error .valueError := by
      unfold loadFinalfusion
      rw [rd_bind_ok h1]
      exact rd_bind_error hmeta
    unfold Rd.run
    rw [this]

/-- No matrix after the vocabulary. -/
theorem load_storage_id {T : Toml} {mmap : Bool} {bs : Bytes} {p1 p2 p3 n rows : Nat} {md : Option Meta} {v : Vocab}
    (hlen : bs.length + 4 < 2 ^ 63) (hh : HeaderAt bs p1) (m1 : MetaAt T bs p1 md p2) (v1 : VocabAt bs p2 v rows p3)
    (hd : Head bs p3 n) (hn : n < 2 ^ 32) (h : n ∉ [2, 4]) :
    Rd.run (loadFinalfusion T mmap) bs = .error (idError n) := by
  obtain ⟨ids, h1⟩ := readHeader_iff.mpr ⟨p1, hh, rfl⟩
  obtain ⟨c, hc, hd', h3⟩ := loadVocabPart_of v1
  have hst : loadStoragePart mmap ⟨bs, p3⟩ = .error (idError n) := by
    unfold loadStoragePart readRequiredChunkHeader
    rcases readChunkHeader_cases hd hn with ⟨c, len, rfl, hr⟩ | ⟨h8, hr⟩
    · rw [idError_chunk, rd_bind_ok (a := (c, len)) (s' := ⟨bs, p3 + 12⟩) (by rw [rd_bind_ok hr]; rfl)]
      cases c <;> first | rfl | exact absurd (by decide) h
    · rw [idError_unknown h8]
      exact rd_bind_error (rd_bind_error hr)
  have : loadFinalfusion T mmap ⟨bs, 0⟩ = .error (idError n) := by
    unfold loadFinalfusion
    rw [rd_bind_ok h1, rd_bind_ok (loadMetaPart_of hlen hc hd' m1)]
    simp only
    rw [rd_bind_ok h3]
    exact rd_bind_error hst
  unfold Rd.run
  rw [this]

/-- No norms after the matrix. -/
theorem load_norms_id {T : Toml} {mmap : Bool} {bs : Bytes} {p1 p2 p3 p4 n rows : Nat} {md : Option Meta} {v : Vocab}
    {st : Storage F32} (hlen : bs.length + 4 < 2 ^ 63) (hh : HeaderAt bs p1) (m1 : MetaAt T bs p1 md p2)
    (v1 : VocabAt bs p2 v rows p3) (t1 : StorageAt bs p3 st p4) (t2 : mmap → Mappable bs st p4)
    (hd : Head bs p4 n) (hn : n < 2 ^ 32) (h : n ∉ [6]) :
    Rd.run (loadFinalfusion T mmap) bs = .error (idError n) := by
  obtain ⟨ids, h1⟩ := readHeader_iff.mpr ⟨p1, hh, rfl⟩
  obtain ⟨c, hc, hd', h3⟩ := loadVocabPart_of v1
  have hstore : loadStoragePart mmap ⟨bs, p3⟩ = .ok (st, ⟨bs, p4⟩) := by
    cases mmap with
    | false => exact (loadStoragePart_at hlen).mpr ⟨p4, t1, rfl⟩
    | true => exact (loadStoragePart_mmap_at hlen).mpr ⟨p4, t1, t2 rfl, rfl⟩
  have hst : loadNormsPart ⟨bs, p4⟩ = .error (idError n) := by
    unfold loadNormsPart
    rcases readChunkHeader_cases hd hn with ⟨c, len, rfl, hr⟩ | ⟨h8, hr⟩
    · rw [idError_chunk, rd_bind_ok hr]
      cases c <;> first | rfl | exact absurd (by decide) h
    · rw [idError_unknown h8]
      exact rd_bind_error hr
  have : loadFinalfusion T mmap ⟨bs, 0⟩ = .error (idError n) := by
    unfold loadFinalfusion
    rw [rd_bind_ok h1, rd_bind_ok (loadMetaPart_of hlen hc hd' m1)]
    simp only
    rw [rd_bind_ok h3, rd_bind_ok hstore]
    exact rd_bind_error hst
  unfold Rd.run
  rw [this]

theorem findChunk_header {bs : Bytes} {x : PyErr} (h : readHeader ⟨bs, 0⟩ = .error x) (ids : List ChunkId) :
    findChunk ids ⟨bs, 0⟩ = .error x := by
  unfold findChunk
  rw [rd_bind_ok (a := ()) (s' := ⟨bs, 0⟩) (by rfl)]
  exact rd_bind_error h

theorem vocabAt_number {bs : Bytes} {p rows stop : Nat} {v : Vocab} (h : VocabAt bs p v rows stop) :
    Head bs p v.number := by
  cases h <;> assumption

theorem storageAt_number {bs : Bytes} {p stop : Nat} {st : Storage F32} (h : StorageAt bs p st stop) :
    Head bs p st.number := by
  cases h <;> assumption

end FF
