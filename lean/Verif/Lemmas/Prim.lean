import Verif.Lemmas.Reader
import Verif.Lemmas.Utf8
/-! Parsing lemmas for the primitive readers of io.py. -/

namespace FF

theorem drop_pre (pre rest : Bytes) : (pre ++ rest).drop pre.length = rest := by simp

theorem read_parses (pre enc : Bytes) (n : Nat) (hn : enc.length = n) (h : n < maxSize) :
    Parses (read n) pre enc enc := by
  intro post
  subst hn
  simp only [read, h, if_true]
  simp

theorem read_short (pre enc : Bytes) (n k : Nat) (hn : enc.length = n) (_hk : k < enc.length)
    (h : n < maxSize) :
    read n ⟨pre ++ enc.take k, pre.length⟩
      = .ok (enc.take k, ⟨pre ++ enc.take k, (pre ++ enc.take k).length⟩) := by
  subst hn
  simp only [read, h, if_true, drop_pre]
  have : (enc.take k).take enc.length = enc.take k := by
    rw [List.take_of_length_le]; simp
  rw [this]; simp

theorem read_eof (n : Nat) (s : RFile) (hs : s.data.length ≤ s.pos) (h : n < maxSize) :
    read n s = .ok ([], s) := by
  have : s.data.drop s.pos = [] := List.drop_of_length_le hs
  simp [read, h, this]

theorem read_ok_of_lt (n : Nat) (s : RFile) (h : n < maxSize) :
    read n s = .ok ((s.data.drop s.pos).take n,
      ⟨s.data, s.pos + ((s.data.drop s.pos).take n).length⟩) := by
  simp only [read, h, if_true]

theorem read_stays (n : Nat) : StaysEof (read n) := by
  intro s hs
  by_cases h : n < maxSize
  · exact Or.inr ⟨[], s, read_eof n s hs h, rfl, hs⟩
  · exact Or.inl ⟨.overflowError, by simp [read, h]⟩

theorem read_weak (pre enc : Bytes) (n : Nat) (hn : enc.length = n) :
    WeakShort (read n) pre enc := by
  intro k hk
  by_cases h : n < maxSize
  · refine Or.inr ⟨_, _, read_short pre enc n k hn hk h, rfl, ?_⟩
    simp
  · exact Or.inl ⟨.overflowError, by simp [read, h]⟩

/-- General behaviour of `_read_binary`. -/
theorem readBinary_eq (ws : List Nat) (s : RFile) (h : calcsize ws < maxSize) :
    readBinary ws s =
      let buf := (s.data.drop s.pos).take (calcsize ws)
      if buf.length = 0 then .ok (none, ⟨s.data, s.pos + buf.length⟩)
      else if buf.length ≠ calcsize ws then .error .formatError
      else .ok (some (unpack ws buf), ⟨s.data, s.pos + buf.length⟩) := by
  unfold readBinary
  rw [rd_bind_ok (read_ok_of_lt _ s h)]
  simp only
  split
  · rfl
  · split
    · rfl
    · rfl

theorem readBinary_parses (ws : List Nat) (fs : List (Nat × Nat)) (pre : Bytes)
    (hws : fs.map Prod.fst = ws) (h0 : 0 < calcsize ws) (h : calcsize ws < maxSize)
    (hr : ∀ f ∈ fs, f.2 < 256 ^ f.1) :
    Parses (readBinary ws) pre (packRaw fs) (some (fs.map Prod.snd)) := by
  intro post
  subst hws
  rw [readBinary_eq _ _ h]
  have e1 : (pre ++ packRaw fs ++ post).drop pre.length = packRaw fs ++ post := by
    rw [List.append_assoc, drop_pre]
  have e2 : (packRaw fs ++ post).take (calcsize (fs.map Prod.fst)) = packRaw fs := by
    rw [List.take_append_of_le_length (by simp), List.take_of_length_le (by simp)]
  simp only [e1, e2, length_packRaw, unpack_packRaw fs hr]
  rw [if_neg (by omega), if_neg (by simp)]
  simp

theorem readBinary_short (ws : List Nat) (pre enc : Bytes) (he : enc.length = calcsize ws)
    (h : calcsize ws < maxSize) (k : Nat) (hk : k < enc.length) :
    readBinary ws ⟨pre ++ enc.take k, pre.length⟩ =
      if k = 0 then .ok (none, ⟨pre ++ enc.take k, pre.length⟩) else .error .formatError := by
  rw [readBinary_eq _ _ h]
  have e1 : ((enc.take k).take (calcsize ws)) = enc.take k := by
    rw [List.take_of_length_le]; simp; omega
  have e2 : (enc.take k).length = k := by simp; omega
  simp only [drop_pre, e1, e2]
  by_cases h0 : k = 0
  · simp [h0]
  · rw [if_neg h0, if_neg h0, if_pos (by omega)]

theorem readBinary_eof (ws : List Nat) (s : RFile) (hs : s.data.length ≤ s.pos)
    (h : calcsize ws < maxSize) : readBinary ws s = .ok (none, s) := by
  rw [readBinary_eq _ _ h]
  have : s.data.drop s.pos = [] := List.drop_of_length_le hs
  simp [this]

theorem readBinary_big (ws : List Nat) (s : RFile) (h : ¬ calcsize ws < maxSize) :
    readBinary ws s = .error .overflowError := by
  unfold readBinary
  apply rd_bind_error
  simp [read, h]

theorem readRequired_parses (ws : List Nat) (fs : List (Nat × Nat)) (pre : Bytes)
    (hws : fs.map Prod.fst = ws) (h0 : 0 < calcsize ws) (h : calcsize ws < maxSize)
    (hr : ∀ f ∈ fs, f.2 < 256 ^ f.1) :
    Parses (readRequired ws) pre (packRaw fs) (fs.map Prod.snd) := by
  intro post
  unfold readRequired
  rw [rd_bind_ok (readBinary_parses ws fs pre hws h0 h hr post)]
  rfl

theorem readRequired_short (ws : List Nat) (pre enc : Bytes) (he : enc.length = calcsize ws) :
    FailsShort (readRequired ws) pre enc := by
  intro k hk
  unfold readRequired
  by_cases h : calcsize ws < maxSize
  · have := readBinary_short ws pre enc he h k hk
    by_cases h0 : k = 0
    · rw [if_pos h0] at this
      rw [rd_bind_ok this]
      exact ⟨_, rfl⟩
    · rw [if_neg h0] at this
      exact ⟨_, rd_bind_error this⟩
  · exact ⟨_, rd_bind_error (readBinary_big ws _ h)⟩

theorem readRequired_eof (ws : List Nat) : FailsEof (readRequired ws) := by
  intro s hs
  unfold readRequired
  by_cases h : calcsize ws < maxSize
  · rw [rd_bind_ok (readBinary_eof ws s hs h)]
    exact ⟨_, rfl⟩
  · exact ⟨_, rd_bind_error (readBinary_big ws s h)⟩

theorem readOne_parses (w n : Nat) (pre : Bytes) (h0 : 0 < w) (h : w < maxSize)
    (hr : n < 256 ^ w) : Parses (readOne w) pre (le w n) n := by
  intro post
  unfold readOne
  have := readRequired_parses [w] [(w, n)] pre rfl (by simpa [calcsize] using h0)
    (by simpa [calcsize] using h) (by simpa using hr) post
  simp only [packRaw, List.append_nil] at this
  rw [rd_bind_ok this]
  rfl

theorem readOne_short (w : Nat) (pre enc : Bytes) (he : enc.length = w) :
    FailsShort (readOne w) pre enc := by
  intro k hk
  unfold readOne
  obtain ⟨e, h⟩ := readRequired_short [w] pre enc (by simpa [calcsize] using he) k hk
  exact ⟨e, rd_bind_error h⟩

theorem readOne_eof (w : Nat) : FailsEof (readOne w) := (readRequired_eof [w]).bind

/-! ### Chunk headers -/

theorem chunkId_toNat_lt (c : ChunkId) : c.toNat < 256 ^ 4 := by cases c <;> decide

@[simp] theorem chunkId_fromNat_toNat (c : ChunkId) : ChunkId.fromNat c.toNat = .ok c := by
  cases c <;> rfl

theorem readChunkHeader_parses (c : ChunkId) (n : Nat) (pre : Bytes) (hn : n < 256 ^ 8) :
    Parses readChunkHeader pre (packRaw [(4, c.toNat), (8, n)]) (some (c, n)) := by
  intro post
  unfold readChunkHeader
  have hp := readBinary_parses [4, 8] [(4, c.toNat), (8, n)] pre rfl (by decide) (by decide)
    (by simp; exact ⟨chunkId_toNat_lt c, hn⟩) post
  rw [rd_bind_ok hp]
  simp only [List.map_cons, List.map_nil]
  rw [rd_bind_ok (m := Rd.lift (ChunkId.fromNat c.toNat)) (by rw [chunkId_fromNat_toNat]; rfl)]
  rfl

theorem readRequiredChunkHeader_parses (c : ChunkId) (n : Nat) (pre : Bytes) (hn : n < 256 ^ 8) :
    Parses readRequiredChunkHeader pre (packRaw [(4, c.toNat), (8, n)]) (c, n) := by
  intro post
  unfold readRequiredChunkHeader
  rw [rd_bind_ok (readChunkHeader_parses c n pre hn post)]
  rfl

theorem readChunkHeader_short (pre enc : Bytes) (he : enc.length = 12) (k : Nat)
    (hk : k < enc.length) :
    readChunkHeader ⟨pre ++ enc.take k, pre.length⟩ =
      if k = 0 then .ok (none, ⟨pre ++ enc.take k, pre.length⟩) else .error .formatError := by
  unfold readChunkHeader
  have := readBinary_short [4, 8] pre enc (by simp [calcsize, he]) (by decide) k hk
  by_cases h0 : k = 0
  · rw [if_pos h0] at this ⊢
    rw [rd_bind_ok this]
    rfl
  · rw [if_neg h0] at this ⊢
    exact rd_bind_error this

theorem readRequiredChunkHeader_short (pre enc : Bytes) (he : enc.length = 12) :
    FailsShort readRequiredChunkHeader pre enc := by
  intro k hk
  unfold readRequiredChunkHeader
  have := readChunkHeader_short pre enc he k hk
  by_cases h0 : k = 0
  · rw [if_pos h0] at this
    rw [rd_bind_ok this]
    exact ⟨_, rfl⟩
  · rw [if_neg h0] at this
    exact ⟨_, rd_bind_error this⟩

theorem readChunkHeader_eof (s : RFile) (hs : s.data.length ≤ s.pos) :
    readChunkHeader s = .ok (none, s) := by
  unfold readChunkHeader
  rw [rd_bind_ok (readBinary_eof [4, 8] s hs (by decide))]
  rfl

theorem readRequiredChunkHeader_eof : FailsEof readRequiredChunkHeader := by
  intro s hs
  unfold readRequiredChunkHeader
  rw [rd_bind_ok (readChunkHeader_eof s hs)]
  exact ⟨_, rfl⟩

/-! ### Float arrays -/

theorem fromFileF32_parses (xs : List F32) (pre : Bytes) (n : Nat) (hn : xs.length = n)
    (h : 4 * n < maxSize) : Parses (fromFileF32 n) pre (f32sLE xs) xs := by
  intro post
  subst hn
  have e1 : (pre ++ f32sLE xs ++ post).drop pre.length = f32sLE xs ++ post := by
    rw [List.append_assoc, drop_pre]
  have e2 : (f32sLE xs ++ post).take (4 * xs.length) = f32sLE xs := by
    rw [List.take_append_of_le_length (by simp), List.take_of_length_le (by simp)]
  simp only [fromFileF32, h, if_true, e1, e2, f32sOf_f32sLE]
  rw [if_pos (by simp)]
  simp

theorem fromFileF32_short (pre enc : Bytes) (n k : Nat) (hn : enc.length = 4 * n)
    (hk : k < enc.length) (h : 4 * n < maxSize) :
    fromFileF32 n ⟨pre ++ enc.take k, pre.length⟩
      = .ok (f32sOf (enc.take k), ⟨pre ++ enc.take k, (pre ++ enc.take k).length⟩) := by
  simp only [fromFileF32, h, if_true, drop_pre]
  rw [if_neg (by simp; omega)]
  congr 3
  simp

theorem fromFileF32_eof (n : Nat) (s : RFile) (hs : s.data.length ≤ s.pos) (h : 4 * n < maxSize) :
    fromFileF32 n s = .ok ([], s) := by
  have : s.data.drop s.pos = [] := List.drop_of_length_le hs
  simp only [fromFileF32, h, if_true, this]
  by_cases h0 : 4 * n ≤ ([] : Bytes).length
  · rw [if_pos h0]
    have : n = 0 := by simp at h0; exact h0
    subst this
    simp [f32sOf]
  · rw [if_neg h0]
    have : max s.pos s.data.length = s.pos := by omega
    rw [this]
    rfl

theorem fromFileU8_parses (xs : Bytes) (pre : Bytes) (n : Nat) (hn : xs.length = n)
    (h : n < maxSize) : Parses (fromFileU8 n) pre xs xs := by
  have := read_parses pre xs n hn h
  exact this

theorem fromFileU8_short (pre enc : Bytes) (n k : Nat) (hn : enc.length = n) (hk : k < enc.length)
    (h : n < maxSize) :
    fromFileU8 n ⟨pre ++ enc.take k, pre.length⟩
      = .ok (enc.take k, ⟨pre ++ enc.take k, (pre ++ enc.take k).length⟩) :=
  read_short pre enc n k hn hk h

theorem fromFileU8_eof (n : Nat) (s : RFile) (hs : s.data.length ≤ s.pos) (h : n < maxSize) :
    fromFileU8 n s = .ok ([], s) := read_eof n s hs h

theorem seekCur_parses (pre enc : Bytes) (n : Nat) (hn : enc.length = n)
    (h : (pre ++ enc).length < maxSize) : Parses (seekCur n) pre enc () := by
  intro post
  subst hn
  simp only [List.length_append] at h
  have h1 : enc.length < maxSize := by omega
  simp [seekCur, h1, h]

/-- Seeking always succeeds as long as offsets stay in range; it may pass the end. -/
theorem seekCur_weak (pre enc : Bytes) (n : Nat) (hn : enc.length = n) :
    WeakShort (seekCur n) pre enc := by
  intro k hk
  unfold EofOrFail seekCur
  by_cases h1 : n < maxSize
  · by_cases h2 : pre.length + n < maxSize
    · right
      refine ⟨(), ⟨pre ++ enc.take k, pre.length + n⟩, by simp only [h1, h2, if_true], rfl, ?_⟩
      simp; omega
    · left; exact ⟨.osError, by simp only [h1, h2, if_true, if_false]⟩
  · left; exact ⟨.valueError, by simp only [h1, if_false]⟩

theorem seekCur_stays (n : Nat) : StaysEof (seekCur n) := by
  intro s hs
  unfold EofOrFail seekCur
  by_cases h1 : n < maxSize
  · by_cases h2 : s.pos + n < maxSize
    · right
      refine ⟨(), ⟨s.data, s.pos + n⟩, by simp only [h1, h2, if_true], rfl, ?_⟩
      simp only; omega
    · left; exact ⟨.osError, by simp only [h1, h2, if_true, if_false]⟩
  · left; exact ⟨.valueError, by simp only [h1, if_false]⟩

theorem padFloat32_pos (p : Nat) : 0 < padFloat32 p ∧ padFloat32 p ≤ 4 := by
  unfold padFloat32; omega

theorem padFloat32_aligned (p : Nat) : (p + padFloat32 p) % 4 = 0 := by
  unfold padFloat32; omega

end FF
