import Verif.Lemmas.StorageIO
import Verif.Model.Embeddings
/-! Serialisation of whole embeddings files. -/

namespace FF

variable {α β : Type}

/-! ### Truncation with a description of the possible results -/

/-- On a truncated file `m` raises or its result is as described by `P`, which gets the
length of the truncated file. -/
def Trunc (m : Rd α) (pre enc : Bytes) (P : Nat → α → Prop) : Prop :=
  ∀ k, k < enc.length → (∃ e, m ⟨pre ++ enc.take k, pre.length⟩ = .error e) ∨
    ∃ a s', m ⟨pre ++ enc.take k, pre.length⟩ = .ok (a, s') ∧ P (pre.length + k) a

/-- The same at the end of a file. -/
def EofP (m : Rd α) (P : Nat → α → Prop) : Prop :=
  ∀ s : RFile, s.data.length ≤ s.pos → (∃ e, m s = .error e) ∨
    ∃ a s', m s = .ok (a, s') ∧ P s.data.length a

theorem FailsShort.trunc {m : Rd α} {pre enc : Bytes} {P : Nat → α → Prop}
    (h : FailsShort m pre enc) : Trunc m pre enc P := fun k hk => Or.inl (h k hk)

theorem Trunc.bind_fails {m : Rd α} {f : α → Rd β} {pre e1 e2 : Bytes} {a : α} {P : Nat → β → Prop}
    (hp : Parses m pre e1 a) (h1 : FailsShort m pre e1) (h2 : Trunc (f a) (pre ++ e1) e2 P) :
    Trunc (m >>= f) pre (e1 ++ e2) P := by
  intro k hk
  by_cases h : k < e1.length
  · left
    rw [List.take_append_of_le_length (by omega)]
    obtain ⟨e, he⟩ := h1 k h
    exact ⟨e, rd_bind_error he⟩
  · have e : (e1 ++ e2).take k = e1 ++ e2.take (k - e1.length) := by
      rw [List.take_append, List.take_of_length_le (by omega)]
    rw [e, ← List.append_assoc, rd_bind_ok (hp _)]
    have := h2 (k - e1.length) (by simp at hk; omega)
    rwa [show (pre ++ e1).length + (k - e1.length) = pre.length + k by
      rw [List.length_append]; omega] at this

theorem Trunc.bind_weak {m : Rd α} {f : α → Rd β} {pre e1 e2 : Bytes} {a : α} {P : Nat → β → Prop}
    (hp : Parses m pre e1 a) (h1 : WeakShort m pre e1) (hf : ∀ a, FailsEof (f a))
    (h2 : Trunc (f a) (pre ++ e1) e2 P) : Trunc (m >>= f) pre (e1 ++ e2) P := by
  intro k hk
  by_cases h : k < e1.length
  · left
    rw [List.take_append_of_le_length (by omega)]
    rcases h1 k h with ⟨er, her⟩ | ⟨a', s', hs, hd, hpos⟩
    · exact ⟨er, rd_bind_error her⟩
    · rw [rd_bind_ok hs]
      exact hf a' s' (by rw [hd]; exact hpos)
  · have e : (e1 ++ e2).take k = e1 ++ e2.take (k - e1.length) := by
      rw [List.take_append, List.take_of_length_le (by omega)]
    rw [e, ← List.append_assoc, rd_bind_ok (hp _)]
    have := h2 (k - e1.length) (by simp at hk; omega)
    rwa [show (pre ++ e1).length + (k - e1.length) = pre.length + k by
      rw [List.length_append]; omega] at this

theorem Trunc.bind_same {m : Rd α} {f : α → Rd β} {pre e1 e2 : Bytes} {a : α} {P : Nat → β → Prop}
    (hp : Parses m pre e1 a) (h1 : SameShort m pre e1 a) (hf : EofP (f a) P)
    (h2 : Trunc (f a) (pre ++ e1) e2 P) : Trunc (m >>= f) pre (e1 ++ e2) P := by
  intro k hk
  by_cases h : k < e1.length
  · rw [List.take_append_of_le_length (by omega)]
    rcases h1 k h with ⟨er, her⟩ | ⟨s', hs, hd, hpos⟩
    · exact Or.inl ⟨er, rd_bind_error her⟩
    · rw [rd_bind_ok hs]
      have := hf s' hpos
      rwa [hd, List.length_append, List.length_take, Nat.min_eq_left (by omega)] at this
  · have e : (e1 ++ e2).take k = e1 ++ e2.take (k - e1.length) := by
      rw [List.take_append, List.take_of_length_le (by omega)]
    rw [e, ← List.append_assoc, rd_bind_ok (hp _)]
    have := h2 (k - e1.length) (by simp at hk; omega)
    rwa [show (pre ++ e1).length + (k - e1.length) = pre.length + k by
      rw [List.length_append]; omega] at this

/-! ### Header -/

def headerEnc (ids : List Nat) : Bytes :=
  magic ++ (le 4 version ++ (le 4 ids.length ++ packRaw (ids.map fun i => (4, i))))

theorem writeHeader_inv {ids : List Nat} {s s' : Bytes} {u : Unit}
    (h : writeHeader ids s = (.ok u, s')) :
    s' = s ++ headerEnc ids ∧ ids.length < 256 ^ 4 ∧ (∀ i ∈ ids, i < 256 ^ 4) ∧
      s'.length < maxSize := by
  unfold writeHeader at h
  obtain ⟨_, s1, h1, h⟩ := wr_bind_inv h
  obtain ⟨rfl, _⟩ := wr_bytes_inv h1
  obtain ⟨rfl, hr, hl⟩ := writeBinary_inv h
  refine ⟨?_, ?_, ?_, hl⟩
  · simp [headerEnc, packRaw]
  · exact hr (4, ids.length) (by simp)
  · intro i hi
    exact hr (4, i) (by simp [hi])

theorem calcsize_replicate (n : Nat) : calcsize (List.replicate n 4) = 4 * n := by
  simp [calcsize]; omega

theorem readHeader_parses (ids : List Nat) (pre : Bytes) (h0 : ids ≠ [])
    (hl : ids.length < 256 ^ 4) (hi : ∀ i ∈ ids, i < 256 ^ 4) :
    Parses readHeader pre (headerEnc ids) ids := by
  unfold readHeader headerEnc
  refine Parses.bind (read_parses _ _ 4 rfl (by decide)) ?_
  rw [if_neg (by simp)]
  refine Parses.bind (readOne_parses 4 version _ (by decide) (by decide) (by decide)) ?_
  rw [if_neg (by simp)]
  refine Parses.bind (readOne_parses 4 ids.length _ (by decide) (by decide) hl) ?_
  have h := readRequired_parses (List.replicate ids.length 4) (ids.map fun i => (4, i))
    (pre ++ magic ++ le 4 version ++ le 4 ids.length)
    (by rw [List.map_map]
        show ids.map (fun _ => 4) = _
        rw [List.map_const'])
    (by rw [calcsize_replicate]
        have := List.length_pos_of_ne_nil h0
        omega)
    (by rw [calcsize_replicate]; unfold maxSize; omega)
    (by intro f hf
        obtain ⟨i, hm, rfl⟩ := List.mem_map.mp hf
        exact hi i hm)
  have e : (ids.map fun i => (4, i)).map Prod.snd = ids := by
    rw [List.map_map]; exact List.map_id ids
  rw [e] at h
  exact h

theorem readHeader_short (ids : List Nat) (pre : Bytes) (hl : ids.length < 256 ^ 4) :
    FailsShort readHeader pre (headerEnc ids) := by
  unfold readHeader headerEnc
  intro k hk
  rcases take_append_cases magic _ k hk with ⟨h, e⟩ | ⟨j, hj, e⟩
  · rw [e, rd_bind_ok (read_short pre magic 4 k rfl h (by decide))]
    rw [if_pos]
    · exact ⟨_, rfl⟩
    · intro hm
      have := congrArg List.length hm
      simp at this
      omega
  · rw [e, ← List.append_assoc, rd_bind_ok (read_parses pre magic 4 rfl (by decide) _)]
    rw [if_neg (by simp)]
    revert j
    intro j hj _
    have : FailsShort (do
        let v ← readOne 4
        if v ≠ version then Rd.fail .formatError
        let n ← readOne 4
        readRequired (List.replicate n 4)) (pre ++ magic)
        (le 4 version ++ (le 4 ids.length ++ packRaw (ids.map fun i => (4, i)))) := by
      refine FailsShort.bind (readOne_parses 4 version _ (by decide) (by decide) (by decide))
        (readOne_short 4 _ _ (by simp)) ?_
      rw [if_neg (by simp)]
      refine FailsShort.bind (readOne_parses 4 ids.length _ (by decide) (by decide) hl)
        (readOne_short 4 _ _ (by simp)) ?_
      refine readRequired_short _ _ _ ?_
      rw [length_packRaw, List.map_map, calcsize_replicate]
      simp [calcsize, Function.comp_def]; omega
    exact this j hj

/-! ### Metadata -/

def metaBody (b : Bytes) : Bytes := chunkHead .metadata b.length ++ b

theorem metaWrite_inv {T : Toml} {m : Meta} {s s' : Bytes} {u : Unit}
    (h : writeMetadata T m s = (.ok u, s')) :
    ∃ str, T.dumps m = .ok str ∧ encode str = .ok (utf8 str) ∧ s' = s ++ metaBody (utf8 str) ∧
      (utf8 str).length < 256 ^ 8 ∧ s'.length < maxSize := by
  unfold writeMetadata at h
  obtain ⟨str, s1, h1, h'⟩ := wr_bind_inv h
  obtain ⟨hd, rfl⟩ := wr_lift_inv h1
  clear h
  obtain ⟨b, s3, h3, h⟩ := wr_bind_inv h'
  obtain ⟨he, rfl⟩ := wr_lift_inv h3
  have hb := encode_ok he
  obtain ⟨rfl, _⟩ := hb
  obtain ⟨_, s2, h2, h⟩ := wr_bind_inv h
  obtain ⟨rfl, hr, _⟩ := writeBinary_inv h2
  obtain ⟨rfl, hl⟩ := wr_bytes_inv h
  refine ⟨str, hd, he, ?_, ?_, hl⟩
  · simp [metaBody, chunkHead]
  · exact hr (8, _) (by simp)

theorem seekBack_after (p head rest : Bytes) (n : Nat) (hn : head.length = n) :
    seekBack n ⟨p ++ head ++ rest, (p ++ head).length⟩ = .ok ((), ⟨p ++ head ++ rest, p.length⟩) := by
  unfold seekBack
  subst hn
  simp

/-- `Metadata.read_chunk` re-reads the chunk header in front of the content. -/
theorem readMetadata_parses {T : Toml} {m : Meta} {str : PyStr} (p : Bytes)
    (he : encode str = .ok (utf8 str)) (hl : T.loads str = .ok m)
    (hn : (utf8 str).length < 256 ^ 8) (hm : (utf8 str).length < maxSize) :
    Parses (readMetadata T) (p ++ chunkHead .metadata (utf8 str).length) (utf8 str) m := by
  intro post
  unfold readMetadata
  rw [List.append_assoc]
  rw [rd_bind_ok (seekBack_after p _ _ _ (by simp [calcsize]))]
  have h1 := readRequired_parses [4, 8] [(4, ChunkId.metadata.toNat), (8, (utf8 str).length)] p rfl
    (by decide) (by decide) (by simp; exact ⟨by decide, hn⟩) (utf8 str ++ post)
  unfold chunkHead
  rw [rd_bind_ok h1]
  simp only [List.map_cons, List.map_nil]
  rw [rd_bind_ok (m := Rd.lift (ChunkId.fromNat _)) (a := ChunkId.metadata) rfl]
  rw [rd_bind_ok (m := Rd.lift (pyAssert _)) (a := ()) rfl]
  have h2 := read_parses (p ++ packRaw [(4, ChunkId.metadata.toNat), (8, (utf8 str).length)])
    (utf8 str) _ rfl hm post
  rw [List.append_assoc _ (utf8 str) post] at h2
  rw [rd_bind_ok h2]
  rw [if_neg (by simp)]
  rw [rd_bind_ok (m := Rd.lift (decode _)) (a := str) (by rw [decode_encode he]; rfl)]
  rw [hl]; rfl

theorem readMetadata_short {T : Toml} {str : PyStr} (p : Bytes)
    (hn : (utf8 str).length < 256 ^ 8) (hm : (utf8 str).length < maxSize) :
    FailsShort (readMetadata T) (p ++ chunkHead .metadata (utf8 str).length) (utf8 str) := by
  intro k hk
  unfold readMetadata
  rw [rd_bind_ok (seekBack_after p _ _ _ (by simp [calcsize]))]
  have h1 := readRequired_parses [4, 8] [(4, ChunkId.metadata.toNat), (8, (utf8 str).length)] p rfl
    (by decide) (by decide) (by simp; exact ⟨by decide, hn⟩) ((utf8 str).take k)
  unfold chunkHead
  rw [rd_bind_ok h1]
  simp only [List.map_cons, List.map_nil]
  rw [rd_bind_ok (m := Rd.lift (ChunkId.fromNat _)) (a := ChunkId.metadata) rfl]
  rw [rd_bind_ok (m := Rd.lift (pyAssert _)) (a := ()) rfl]
  have h2 := read_short (p ++ packRaw [(4, ChunkId.metadata.toNat), (8, (utf8 str).length)])
    (utf8 str) _ k rfl hk hm
  rw [rd_bind_ok h2]
  rw [if_pos (by simp; omega)]
  exact ⟨_, rfl⟩

/-! ### Storage chunks -/

def storageBody (pad : Nat) : Storage F32 → Bytes
  | .nd m => ndBody pad m
  | .quant q => qBody pad q

def storageLen (pad : Nat) : Storage F32 → Nat
  | .nd m => ndLen pad m
  | .quant q => qLen pad q

def StorageFits : Storage F32 → Prop
  | .nd m => m.rows.length < 256 ^ 8 ∧ m.cols < 256 ^ 4
  | .quant q => QFits q

/-- A storage chunk written at file offset `pos`. -/
def storageEnc (pos : Nat) (st : Storage F32) : Bytes :=
  chunkHead st.chunkId (storageLen (padFloat32 (pos + 4)) st) ++
    storageBody (padFloat32 (pos + 4)) st

theorem storageWrite_inv {st : Storage F32} {s s' : Bytes} {u : Unit}
    (h : st.writeChunk s = (.ok u, s')) :
    s' = s ++ storageEnc s.length st ∧ StorageFits st ∧
      storageLen (padFloat32 (s.length + 4)) st < 256 ^ 8 ∧ s'.length < maxSize := by
  cases st with
  | nd m =>
    obtain ⟨h1, h2, h3, h4, h5⟩ := ndWrite_inv h
    exact ⟨h1, ⟨h2, h3⟩, h4, h5⟩
  | quant q => exact qWrite_inv h

theorem length_storageBody (pad : Nat) (st : Storage F32) (hw : StorageWF st) :
    (storageBody pad st).length = storageLen pad st := by
  cases st with
  | nd m => exact length_ndBody pad m hw.1
  | quant q => exact length_qBody pad q hw

/-- The reader of the chunk content, `Storage.load(file, mmap=False)`. -/
def readStorageChunk : Storage F32 → Rd (Storage F32)
  | .nd _ => loadNd false
  | .quant _ => loadQuant false

theorem readStorage_parses (st : Storage F32) (hw : StorageWF st) (hf : StorageFits st) (p : Bytes)
    (hl : (p ++ storageEnc p.length st).length < maxSize) :
    Parses (readStorageChunk st)
      (p ++ chunkHead st.chunkId (storageLen (padFloat32 (p.length + 4)) st))
      (storageBody (padFloat32 (p.length + 4)) st) st := by
  have hb := length_storageBody (padFloat32 (p.length + 4)) st hw
  simp only [storageEnc, List.length_append, length_chunkHead, hb] at hl
  have hlen : (p ++ chunkHead st.chunkId (storageLen (padFloat32 (p.length + 4)) st)).length
      = p.length + 12 := by simp
  cases st with
  | nd m =>
    simp only [storageLen, ndLen] at hl
    have hp : padFloat32 (p.length + 4) = padFloat32 (p.length + 12 + 16) := pad_shift _ _ (by omega)
    have := readNdArray_parses m hw.1 hw.2
      (p ++ chunkHead .ndArray (storageLen (padFloat32 (p.length + 4)) (.nd m))) hf.1 hf.2
      (by omega) (by rw [show (p ++ chunkHead .ndArray _).length = p.length + 12 from hlen]; omega)
    rw [show (p ++ chunkHead .ndArray _).length = p.length + 12 from hlen, ← hp] at this
    exact Parses.bind_last this (Parses.pure _ _)
  | quant q =>
    have hp : padFloat32 (p.length + 4) = padFloat32 (p.length + 12 + 36) := pad_shift _ _ (by omega)
    have h36 : 36 + padFloat32 (p.length + 4) ≤ qLen (padFloat32 (p.length + 4)) q := by
      unfold qLen; omega
    simp only [storageLen] at hl
    have := readQuantized_parses q hw hf (qSizes_of_len (pad := padFloat32 (p.length + 4)) hw (by omega))
      (p ++ chunkHead .quantizedArray (storageLen (padFloat32 (p.length + 4)) (.quant q)))
      (by rw [show (p ++ chunkHead .quantizedArray _).length = p.length + 12 from hlen]; omega)
    rw [show (p ++ chunkHead .quantizedArray _).length = p.length + 12 from hlen, ← hp] at this
    exact Parses.bind_last this (Parses.pure _ _)

theorem readStorage_same (st : Storage F32) (hw : StorageWF st) (hf : StorageFits st) (p : Bytes)
    (hl : (p ++ storageEnc p.length st).length < maxSize) :
    SameShort (readStorageChunk st)
      (p ++ chunkHead st.chunkId (storageLen (padFloat32 (p.length + 4)) st))
      (storageBody (padFloat32 (p.length + 4)) st) st := by
  have hb := length_storageBody (padFloat32 (p.length + 4)) st hw
  simp only [storageEnc, List.length_append, length_chunkHead, hb] at hl
  have hlen : (p ++ chunkHead st.chunkId (storageLen (padFloat32 (p.length + 4)) st)).length
      = p.length + 12 := by simp
  cases st with
  | nd m =>
    simp only [storageLen, ndLen] at hl
    have hp : padFloat32 (p.length + 4) = padFloat32 (p.length + 12 + 16) := pad_shift _ _ (by omega)
    have h1 := readNdArray_parses m hw.1 hw.2
      (p ++ chunkHead .ndArray (storageLen (padFloat32 (p.length + 4)) (.nd m))) hf.1 hf.2
      (by omega) (by rw [show (p ++ chunkHead .ndArray _).length = p.length + 12 from hlen]; omega)
    have h2 := readNdArray_same m hw.1 hw.2
      (p ++ chunkHead .ndArray (storageLen (padFloat32 (p.length + 4)) (.nd m))) hf.1 hf.2
      (by rw [show (p ++ chunkHead .ndArray _).length = p.length + 12 from hlen]; omega)
    rw [show (p ++ chunkHead .ndArray _).length = p.length + 12 from hlen, ← hp] at h1 h2
    exact SameShort.bind_last h1 h2 (EofIs.pure _)
  | quant q =>
    have hp : padFloat32 (p.length + 4) = padFloat32 (p.length + 12 + 36) := pad_shift _ _ (by omega)
    have h36 : 36 + padFloat32 (p.length + 4) ≤ qLen (padFloat32 (p.length + 4)) q := by
      unfold qLen; omega
    simp only [storageLen] at hl
    have h1 := readQuantized_parses q hw hf (qSizes_of_len (pad := padFloat32 (p.length + 4)) hw (by omega))
      (p ++ chunkHead .quantizedArray (storageLen (padFloat32 (p.length + 4)) (.quant q)))
      (by rw [show (p ++ chunkHead .quantizedArray _).length = p.length + 12 from hlen]; omega)
    have h2 := readQuantized_same q hw hf (qSizes_of_len (pad := padFloat32 (p.length + 4)) hw (by omega))
      (p ++ chunkHead .quantizedArray (storageLen (padFloat32 (p.length + 4)) (.quant q)))
      (by rw [show (p ++ chunkHead .quantizedArray _).length = p.length + 12 from hlen]; omega)
    rw [show (p ++ chunkHead .quantizedArray _).length = p.length + 12 from hlen, ← hp] at h1 h2
    exact SameShort.bind_last h1 h2 (EofIs.pure _)

theorem readStorage_short (st : Storage F32) (hw : StorageWF st) (hf : StorageFits st) (p : Bytes)
    (h0 : st.nonempty) (hl : (p ++ storageEnc p.length st).length < maxSize) :
    FailsShort (readStorageChunk st)
      (p ++ chunkHead st.chunkId (storageLen (padFloat32 (p.length + 4)) st))
      (storageBody (padFloat32 (p.length + 4)) st) := by
  have hb := length_storageBody (padFloat32 (p.length + 4)) st hw
  simp only [storageEnc, List.length_append, length_chunkHead, hb] at hl
  have hlen : (p ++ chunkHead st.chunkId (storageLen (padFloat32 (p.length + 4)) st)).length
      = p.length + 12 := by simp
  cases st with
  | nd m =>
    simp only [storageLen, ndLen] at hl
    have hp : padFloat32 (p.length + 4) = padFloat32 (p.length + 12 + 16) := pad_shift _ _ (by omega)
    have h2 := readNdArray_short m hw.1
      (p ++ chunkHead .ndArray (storageLen (padFloat32 (p.length + 4)) (.nd m))) hf.1 hf.2 h0
      (by rw [show (p ++ chunkHead .ndArray _).length = p.length + 12 from hlen]; omega)
    rw [show (p ++ chunkHead .ndArray _).length = p.length + 12 from hlen, ← hp] at h2
    intro k hk
    obtain ⟨e, he⟩ := h2 k hk
    exact ⟨e, rd_bind_error he⟩
  | quant q =>
    have hp : padFloat32 (p.length + 4) = padFloat32 (p.length + 12 + 36) := pad_shift _ _ (by omega)
    have h36 : 36 + padFloat32 (p.length + 4) ≤ qLen (padFloat32 (p.length + 4)) q := by
      unfold qLen; omega
    simp only [storageLen] at hl
    have h2 := readQuantized_short q hw hf (qSizes_of_len (pad := padFloat32 (p.length + 4)) hw (by omega)) h0
      (p ++ chunkHead .quantizedArray (storageLen (padFloat32 (p.length + 4)) (.quant q)))
      (by rw [show (p ++ chunkHead .quantizedArray _).length = p.length + 12 from hlen]; omega)
    rw [show (p ++ chunkHead .quantizedArray _).length = p.length + 12 from hlen, ← hp] at h2
    intro k hk
    obtain ⟨e, he⟩ := h2 k hk
    exact ⟨e, rd_bind_error he⟩

theorem loadStoragePart_head (st : Storage F32) (n : Nat) (p : Bytes) (hn : n < 256 ^ 8) :
    Steps (loadStoragePart false) (readStorageChunk st) p (chunkHead st.chunkId n) := by
  unfold loadStoragePart
  refine ⟨?_, ?_⟩
  · intro post
    have := readRequiredChunkHeader_parses st.chunkId n p hn post
    rw [show packRaw [(4, st.chunkId.toNat), (8, n)] = chunkHead st.chunkId n from rfl] at this
    rw [rd_bind_ok this]
    cases st <;> rfl
  · intro k hk
    obtain ⟨e, he⟩ := readRequiredChunkHeader_short p (chunkHead st.chunkId n) (by simp) k hk
    exact ⟨e, rd_bind_error he⟩

theorem loadStoragePart_eof (b : Bool) : FailsEof (loadStoragePart b) :=
  readRequiredChunkHeader_eof.bind

/-! ### Norms chunks -/

/-- An optional norms chunk written at file offset `pos`. -/
def normsEnc (pos : Nat) : Option (List F32) → Bytes
  | none => []
  | some n => chunkHead .ndNorms (normsLen (padFloat32 (pos + 4)) n) ++
      normsBody (padFloat32 (pos + 4)) n

theorem readNormsChunk_parses (n : List F32) (p : Bytes) (hr : n.length < 256 ^ 8)
    (hl : (p ++ normsEnc p.length (some n)).length < maxSize) (c : Nat) :
    Parses readNorms (p ++ chunkHead .ndNorms c) (normsBody (padFloat32 (p.length + 4)) n) n := by
  simp only [normsEnc, List.length_append, length_chunkHead, length_normsBody, normsLen] at hl
  have hlen : (p ++ chunkHead .ndNorms c).length = p.length + 12 := by simp
  have hp : padFloat32 (p.length + 4) = padFloat32 (p.length + 12 + 12) := pad_shift _ _ (by omega)
  have := readNorms_parses n (p ++ chunkHead .ndNorms c) hr (by omega) (by rw [hlen]; omega)
  rw [hlen, ← hp] at this
  exact this

theorem loadNormsPart_eof (s : RFile) (hs : s.data.length ≤ s.pos) :
    loadNormsPart s = .ok (none, s) := by
  unfold loadNormsPart
  rw [rd_bind_ok (readChunkHeader_eof s hs)]
  rfl

theorem loadNormsPart_ok (norms : Option (List F32)) (p : Bytes)
    (hr : ∀ n, norms = some n → n.length < 256 ^ 8 ∧ normsLen (padFloat32 (p.length + 4)) n < 256 ^ 8)
    (hl : (p ++ normsEnc p.length norms).length < maxSize) :
    ∃ s', loadNormsPart ⟨p ++ normsEnc p.length norms, p.length⟩ = .ok (norms, s') := by
  cases norms with
  | none => exact ⟨_, loadNormsPart_eof _ (by simp [normsEnc])⟩
  | some n =>
    obtain ⟨h1, h2⟩ := hr n rfl
    unfold loadNormsPart
    have hh := readChunkHeader_parses .ndNorms _ p h2 (normsBody (padFloat32 (p.length + 4)) n)
    unfold normsEnc
    unfold chunkHead
    rw [← List.append_assoc, rd_bind_ok hh]
    simp only
    have := readNormsChunk_parses n p h1 hl (normsLen (padFloat32 (p.length + 4)) n) []
    unfold chunkHead at this
    rw [List.append_nil] at this
    rw [rd_bind_ok this]
    exact ⟨_, rfl⟩

/-- Truncated norms chunk: an error, no norms (cut in front of the chunk), fewer norms, or
(only for empty norms) the same norms. -/
theorem loadNormsPart_trunc (n : List F32) (p : Bytes) (h1 : n.length < 256 ^ 8)
    (h2 : normsLen (padFloat32 (p.length + 4)) n < 256 ^ 8)
    (hl : (p ++ normsEnc p.length (some n)).length < maxSize) :
    Trunc loadNormsPart p (normsEnc p.length (some n)) fun l r =>
      (r = none ∧ l = p.length) ∨ (∃ n', r = some n' ∧ n'.length < n.length) ∨
      (r = some n ∧ n = []) := by
  intro k hk
  unfold loadNormsPart
  unfold normsEnc at hk ⊢
  by_cases hk2 : k < 12
  · rw [List.take_append_of_le_length (by simp; omega)]
    have := readChunkHeader_short p (chunkHead .ndNorms (normsLen (padFloat32 (p.length + 4)) n))
      (by simp) k (by simpa using hk2)
    by_cases h0 : k = 0
    · rw [if_pos h0] at this
      rw [rd_bind_ok this]
      exact Or.inr ⟨none, _, rfl, Or.inl ⟨rfl, by omega⟩⟩
    · rw [if_neg h0] at this
      exact Or.inl ⟨_, rd_bind_error this⟩
  · rw [List.take_append, List.take_of_length_le (by simp; omega), length_chunkHead]
    have hh := readChunkHeader_parses .ndNorms _ p h2
      ((normsBody (padFloat32 (p.length + 4)) n).take (k - 12))
    unfold chunkHead
    rw [← List.append_assoc, rd_bind_ok hh]
    simp only
    simp only [normsEnc, List.length_append, length_chunkHead, length_normsBody, normsLen] at hl
    have hlen : (p ++ chunkHead .ndNorms (normsLen (padFloat32 (p.length + 4)) n)).length
      = p.length + 12 := by simp
    have hp : padFloat32 (p.length + 4) = padFloat32 (p.length + 12 + 12) := pad_shift _ _ (by omega)
    have := readNorms_trunc n (p ++ chunkHead .ndNorms (normsLen (padFloat32 (p.length + 4)) n)) h1
      (by omega) (by rw [hlen]; omega) (k - 12) (by
        rw [length_normsBody]
        simp only [List.length_append, length_chunkHead, length_normsBody] at hk
        rw [hlen, ← hp]
        omega)
    rw [show padFloat32 ((p ++ chunkHead .ndNorms
      (normsLen (padFloat32 (p.length + 4)) n)).length + 12) = padFloat32 (p.length + 4) by
        rw [hlen, hp]] at this
    unfold chunkHead at this
    rcases this with ⟨e, he⟩ | ⟨n', s', hs, h, _⟩
    · exact Or.inl ⟨e, rd_bind_error he⟩
    · right
      rw [rd_bind_ok hs]
      refine ⟨some n', s', rfl, ?_⟩
      rcases h with h | ⟨rfl, h⟩
      · exact Or.inr (Or.inl ⟨n', rfl, h⟩)
      · exact Or.inr (Or.inr ⟨rfl, h⟩)

/-! ### Whole files -/

/-- Bytes of the optional metadata chunk. -/
def MetaEnc (T : Toml) : Option Meta → Bytes → Prop
  | none, b => b = []
  | some m, b => ∃ str, T.dumps m = .ok str ∧ encode str = .ok (utf8 str) ∧
      (utf8 str).length < 256 ^ 8 ∧ b = metaBody (utf8 str)

def vocabEnc (v : Vocab) : Bytes := chunkHead v.chunkId (vocabLen v) ++ vocabBody v

/-- Layout of an embeddings file with the given ids in its header. -/
structure EmbLayout (T : Toml) (e : Embeddings F32) (ids : List Nat) (mb bs : Bytes) : Prop where
  metaEnc : MetaEnc T e.metadata mb
  eq : bs = headerEnc ids ++ (mb ++ (vocabEnc e.vocab ++
    (storageEnc (headerEnc ids ++ mb ++ vocabEnc e.vocab).length e.storage ++
    normsEnc (headerEnc ids ++ mb ++ vocabEnc e.vocab ++
      storageEnc (headerEnc ids ++ mb ++ vocabEnc e.vocab).length
        e.storage).length e.norms)))
  vfits : VocabFits e.vocab
  vlen : vocabLen e.vocab < 256 ^ 8
  sfits : StorageFits e.storage
  slen : storageLen (padFloat32 ((headerEnc ids ++ mb ++
    vocabEnc e.vocab).length + 4)) e.storage < 256 ^ 8
  nlen : ∀ n, e.norms = some n → n.length < 256 ^ 8 ∧
    normsLen (padFloat32 ((headerEnc ids ++ mb ++ vocabEnc e.vocab ++
      storageEnc (headerEnc ids ++ mb ++ vocabEnc e.vocab).length
        e.storage).length + 4)) n < 256 ^ 8
  size : bs.length < maxSize

/-- Layout of the file written for embeddings. -/
abbrev EmbBytes (T : Toml) (e : Embeddings F32) (mb bs : Bytes) : Prop :=
  EmbLayout T e (e.chunkIds.map ChunkId.toNat) mb bs

theorem optMeta_inv {T : Toml} {md : Option Meta} {s s' : Bytes} {u : Unit}
    (h : (match md with
      | some m => writeMetadata T m
      | none => pure () : Wr Unit) s = (.ok u, s')) :
    ∃ mb, MetaEnc T md mb ∧ s' = s ++ mb := by
  cases md with
  | none =>
    obtain ⟨_, rfl⟩ := wr_pure_inv (a := ()) h
    exact ⟨[], rfl, by simp⟩
  | some m =>
    obtain ⟨str, h1, h2, h3, h4, _⟩ := metaWrite_inv h
    exact ⟨_, ⟨str, h1, h2, h4, rfl⟩, h3⟩

theorem optNorms_inv {n : Option (List F32)} {s s' : Bytes} {u : Unit}
    (h : (match n with
      | some n => writeNorms n
      | none => pure () : Wr Unit) s = (.ok u, s')) (hl : s.length < maxSize) :
    s' = s ++ normsEnc s.length n ∧ s'.length < maxSize ∧ ∀ m, n = some m →
      m.length < 256 ^ 8 ∧ normsLen (padFloat32 (s.length + 4)) m < 256 ^ 8 := by
  cases n with
  | none =>
    obtain ⟨_, rfl⟩ := wr_pure_inv (a := ()) h
    exact ⟨by simp [normsEnc], hl, by simp⟩
  | some m =>
    obtain ⟨h1, h2, h3, h4⟩ := normsWrite_inv h
    refine ⟨h1, h4, ?_⟩
    intro m' hm
    cases hm
    exact ⟨h2, h3⟩

theorem embWrite_eq (T : Toml) (e : Embeddings F32) : e.write T = (do
    writeHeader (e.chunkIds.map ChunkId.toNat)
    (match e.metadata with
      | some m => writeMetadata T m
      | none => pure () : Wr Unit)
    e.vocab.writeChunk
    e.storage.writeChunk
    (match e.norms with
      | some n => writeNorms n
      | none => pure () : Wr Unit)) := by
  unfold Embeddings.write
  cases e.metadata <;> rfl

theorem embWrite_inv {T : Toml} {e : Embeddings F32} {bs : Bytes}
    (h : (e.write T).file = (.ok (), bs)) : ∃ mb, EmbBytes T e mb bs := by
  have h : e.write T [] = (.ok (), bs) := h
  rw [embWrite_eq] at h
  obtain ⟨_, s1, h1, h⟩ := wr_bind_inv h
  obtain ⟨rfl, _, _, _⟩ := writeHeader_inv h1
  obtain ⟨_, s2, h2, h⟩ := wr_bind_inv h
  obtain ⟨mb, hm, rfl⟩ := optMeta_inv h2
  obtain ⟨_, s3, h3, h⟩ := wr_bind_inv h
  obtain ⟨rfl, hv, hvl, _⟩ := vocabWrite_inv h3
  obtain ⟨_, s4, h4, h⟩ := wr_bind_inv h
  obtain ⟨rfl, hs, hsl, hl⟩ := storageWrite_inv h4
  obtain ⟨rfl, hl, hn⟩ := optNorms_inv h hl
  simp only [List.nil_append] at *
  refine ⟨mb, hm, ?_, hv, hvl, hs, hsl, hn, hl⟩
  unfold vocabEnc
  simp only [List.append_assoc]

/-- What the loaded embeddings look like. -/
def canonEmb (e : Embeddings F32) : Embeddings F32 := { e with vocab := canonVocab e.vocab }

theorem chunkIds_ne {K : Type} (e : Embeddings K) : e.chunkIds.map ChunkId.toNat ≠ [] := by
  unfold Embeddings.chunkIds
  cases e.metadata <;> simp

theorem chunkIds_len {K : Type} (e : Embeddings K) :
    (e.chunkIds.map ChunkId.toNat).length < 256 ^ 4 := by
  unfold Embeddings.chunkIds
  cases e.metadata <;> cases e.norms <;> simp

theorem chunkIds_lt {K : Type} (e : Embeddings K) : ∀ i ∈ e.chunkIds.map ChunkId.toNat,
    i < 256 ^ 4 := by
  intro i hi
  obtain ⟨c, _, rfl⟩ := List.mem_map.mp hi
  exact chunkId_toNat_lt c

theorem vocabChunkId_ne (v : Vocab) : v.chunkId ≠ .metadata := by
  unfold Vocab.chunkId
  cases v.sub with
  | none => simp
  | some s => cases s <;> simp

/-- Metadata part including the header of the vocabulary chunk. -/
theorem loadMetaPart_parses {T : Toml} {md : Option Meta} {mb : Bytes} (hm : MetaEnc T md mb)
    (hT : ∀ m str, md = some m → T.dumps m = .ok str → T.loads str = .ok m) (p : Bytes)
    (c : ChunkId) (hc : c ≠ .metadata) (n : Nat) (hn : n < 256 ^ 8)
    (hl : mb.length < maxSize) :
    Parses (loadMetaPart T) p (mb ++ chunkHead c n) (c, md) := by
  unfold loadMetaPart
  cases md with
  | none =>
    have hm : mb = [] := hm
    subst hm
    simp only [List.nil_append]
    refine Parses.bind_last (readRequiredChunkHeader_parses c n p hn) ?_
    simp only
    rw [if_neg hc]
    exact Parses.pure _ _
  | some m =>
    obtain ⟨str, h1, h2, h3, rfl⟩ := hm
    unfold metaBody
    simp only [metaBody, List.length_append, length_chunkHead] at hl
    rw [List.append_assoc]
    refine Parses.bind (readRequiredChunkHeader_parses .metadata _ p h3) ?_
    simp only [if_true]
    refine Parses.bind (readMetadata_parses p h2 (hT m str rfl h1) h3 (by omega)) ?_
    exact Parses.bind_last (readRequiredChunkHeader_parses c n _ hn) (Parses.pure _ _)

theorem loadMetaPart_short {T : Toml} {md : Option Meta} {mb : Bytes} (hm : MetaEnc T md mb)
    (hT : ∀ m str, md = some m → T.dumps m = .ok str → T.loads str = .ok m) (p : Bytes)
    (c : ChunkId) (n : Nat) (hn : n < 256 ^ 8) (hl : mb.length < maxSize) :
    FailsShort (loadMetaPart T) p (mb ++ chunkHead c n) := by
  unfold loadMetaPart
  cases md with
  | none =>
    have hm : mb = [] := hm
    subst hm
    simp only [List.nil_append]
    exact FailsShort.bind_last (readRequiredChunkHeader_parses c n p hn)
      (readRequiredChunkHeader_short p _ (by simp))
  | some m =>
    obtain ⟨str, h1, h2, h3, rfl⟩ := hm
    unfold metaBody
    simp only [metaBody, List.length_append, length_chunkHead] at hl
    rw [List.append_assoc]
    refine FailsShort.bind (readRequiredChunkHeader_parses .metadata _ p h3)
      (readRequiredChunkHeader_short p _ (by simp)) ?_
    simp only [if_true]
    refine FailsShort.bind (readMetadata_parses p h2 (hT m str rfl h1) h3 (by omega))
      (readMetadata_short p h3 (by omega)) ?_
    exact FailsShort.bind_last (readRequiredChunkHeader_parses c n _ hn)
      (readRequiredChunkHeader_short _ _ (by simp))

/-- Embeddings that were accepted by the constructor. -/
structure EmbWF (e : Embeddings F32) : Prop where
  vocab : VocabWF e.vocab
  expl : ∀ ix, e.vocab.sub = some (.expl ix) → ix.ngrams ≠ []
  storage : StorageWF e.storage
  check : checkRequirements e.storage e.vocab e.norms = .ok ()

theorem canonVocab_len (v : Vocab) : (canonVocab v).len = v.len := by
  unfold canonVocab
  rcases hs : v.sub with _ | (ix | ix | ix) <;> rfl

theorem canonVocab_upperBound (v : Vocab) : (canonVocab v).upperBound = v.upperBound := by
  unfold canonVocab
  rcases hs : v.sub with _ | (ix | ix | ix) <;> simp [Vocab.upperBound, hs, canonExpl,
    Indexer.upperBound, Vocab.len]

theorem checkRequirements_canon {K : Type} (st : Storage K) (v : Vocab) (n : Option (List K)) :
    checkRequirements st (canonVocab v) n = checkRequirements st v n := by
  unfold checkRequirements normsCompat
  rw [canonVocab_upperBound]
  cases n <;> simp only [canonVocab_len]

theorem embNew_canon {e : Embeddings F32} (hw : EmbWF e) :
    Embeddings.new e.storage (canonVocab e.vocab) e.norms e.metadata = .ok (canonEmb e) := by
  unfold Embeddings.new
  rw [checkRequirements_canon, hw.check]
  rfl

theorem embLoad_layout {T : Toml} {e : Embeddings F32} {ids : List Nat} {mb bs : Bytes}
    (h : EmbLayout T e ids mb bs) (hi0 : ids ≠ []) (hi1 : ids.length < 256 ^ 4)
    (hi2 : ∀ i ∈ ids, i < 256 ^ 4) (hw : EmbWF e)
    (hT : ∀ m str, e.metadata = some m → T.dumps m = .ok str → T.loads str = .ok m) :
    Rd.run (loadFinalfusion T false) bs = .ok (canonEmb e) := by
  have hsz := h.size
  obtain ⟨hmeta, heq, hvf, hvl, hsf, hsl, hnl, _⟩ := h
  generalize hH : headerEnc ids = H at *
  generalize hV : vocabEnc e.vocab = V at *
  generalize hS : storageEnc (H ++ mb ++ V).length e.storage = S at *
  generalize hN : normsEnc (H ++ mb ++ V ++ S).length e.norms = N at *
  have hsz' : H.length + mb.length + V.length + S.length + N.length < maxSize := by
    rw [heq] at hsz; simp only [List.length_append] at hsz; omega
  unfold Rd.run loadFinalfusion
  have h1 := readHeader_parses _ [] hi0 hi1 hi2
  rw [hH] at h1
  have h2 := loadMetaPart_parses hmeta hT H e.vocab.chunkId (vocabChunkId_ne _) _ hvl (by omega)
  have h3 := vocabRead_parses hw.vocab hvf hw.expl (H ++ (mb ++ chunkHead e.vocab.chunkId
    (vocabLen e.vocab)))
  rw [← loadVocabPart_eq] at h3
  have h4 := Steps.parses (loadStoragePart_head e.storage _ (H ++ mb ++ V) hsl)
    (readStorage_parses e.storage hw.storage hsf (H ++ mb ++ V) (by
      rw [hS]; simp only [List.length_append]; omega))
  rw [show chunkHead e.storage.chunkId (storageLen (padFloat32 ((H ++ mb ++ V).length + 4)) e.storage)
    ++ storageBody (padFloat32 ((H ++ mb ++ V).length + 4)) e.storage = S from hS] at h4
  obtain ⟨s', h5⟩ := loadNormsPart_ok e.norms (H ++ mb ++ V ++ S) hnl (by
    rw [hN]; simp only [List.length_append]; omega)
  rw [hN] at h5
  have hb : bs = [] ++ H ++ ((mb ++ chunkHead e.vocab.chunkId (vocabLen e.vocab)) ++
      (vocabBody e.vocab ++ (S ++ N))) := by
    rw [heq, ← hV]; simp [vocabEnc]
  rw [show ((⟨bs, 0⟩ : RFile)) = ⟨[] ++ H ++ ((mb ++ chunkHead e.vocab.chunkId (vocabLen e.vocab)) ++
      (vocabBody e.vocab ++ (S ++ N))), ([] : Bytes).length⟩ by rw [hb]; rfl]
  rw [rd_bind_ok (h1 _)]
  rw [List.nil_append, ← List.append_assoc, rd_bind_ok (h2 _)]
  simp only
  rw [← List.append_assoc, rd_bind_ok (h3 _)]
  have e4 : H ++ (mb ++ chunkHead e.vocab.chunkId (vocabLen e.vocab)) ++ vocabBody e.vocab
      = H ++ mb ++ V := by
    rw [← hV]; simp [vocabEnc]
  rw [e4, ← List.append_assoc, rd_bind_ok (h4 N)]
  rw [rd_bind_ok h5]
  rw [embNew_canon hw]
  rfl

theorem embLoad {T : Toml} {e : Embeddings F32} {mb bs : Bytes} (h : EmbBytes T e mb bs)
    (hw : EmbWF e)
    (hT : ∀ m str, e.metadata = some m → T.dumps m = .ok str → T.loads str = .ok m) :
    Rd.run (loadFinalfusion T false) bs = .ok (canonEmb e) :=
  embLoad_layout h (chunkIds_ne e) (chunkIds_len e) (chunkIds_lt e) hw hT

theorem check_parts {K : Type} {st : Storage K} {v : Vocab} {n : Option (List K)} :
    checkRequirements st v n = .ok () ↔ ((st.nRows : Int) = v.upperBound ∧
      ∀ m, n = some m → m.length ≤ st.nRows ∧ v.len = m.length) := by
  unfold checkRequirements normsCompat
  constructor
  · intro h
    obtain ⟨_, h1, h⟩ := res_bind_inv h
    have h1 := pyAssert_ok_iff.mp h1
    simp only [decide_eq_true_eq] at h1
    refine ⟨h1, ?_⟩
    rintro m rfl
    simp only at h
    obtain ⟨_, h2, h⟩ := res_bind_inv h
    have h2 := pyAssert_ok_iff.mp h2
    have h3 := pyAssert_ok_iff.mp h
    simp only [decide_eq_true_eq, ge_iff_le] at h2 h3
    exact ⟨h2, h3⟩
  · rintro ⟨h1, h2⟩
    rw [pyAssert_true (by simpa using h1), res_bind_ok]
    cases n with
    | none => rfl
    | some m =>
      obtain ⟨h3, h4⟩ := h2 m rfl
      simp only
      rw [pyAssert_true (by simpa using h3), res_bind_ok, pyAssert_true (by simpa using h4)]

theorem embNew_ok {K : Type} {st : Storage K} {v : Vocab} {n : Option (List K)} {md : Option Meta}
    {e : Embeddings K} : Embeddings.new st v n md = .ok e ↔
      checkRequirements st v n = .ok () ∧ e = ⟨st, v, n, md⟩ := by
  unfold Embeddings.new
  constructor
  · intro h
    obtain ⟨_, h1, h⟩ := res_bind_inv h
    exact ⟨h1, by cases h; rfl⟩
  · rintro ⟨h1, rfl⟩
    rw [h1]; rfl

/-- Possible results for a truncated file of length `l`; `l0` is the offset of the norms chunk. -/
def TruncResult (e : Embeddings F32) (l0 l : Nat) (e' : Embeddings F32) : Prop :=
  (e' = { canonEmb e with norms := none } ∧ (e.storage.nonempty → e.norms ≠ none ∧ l = l0)) ∨
  (e' = canonEmb e ∧ (¬ e.storage.nonempty ∨ e.norms = some []))

/-- Outcomes of loading a truncated file. -/
theorem embLoad_trunc {T : Toml} {e : Embeddings F32} {mb bs : Bytes} (h : EmbBytes T e mb bs)
    (hw : EmbWF e)
    (hT : ∀ m str, e.metadata = some m → T.dumps m = .ok str → T.loads str = .ok m) :
    ∃ l0, bs.length = l0 + (normsEnc l0 e.norms).length ∧ bs.drop l0 = normsEnc l0 e.norms ∧
    EmbLayout T { e with norms := none } (e.chunkIds.map ChunkId.toNat) mb (bs.take l0) ∧
    ∀ k, k < bs.length → (∃ er, Rd.run (loadFinalfusion T false) (bs.take k) = .error er) ∨
      (∃ e', Rd.run (loadFinalfusion T false) (bs.take k) = .ok e' ∧ TruncResult e l0 k e') := by
  have hsz := h.size
  obtain ⟨hmeta, heq, hvf, hvl, hsf, hsl, hnl, _⟩ := h
  generalize hH : headerEnc (e.chunkIds.map ChunkId.toNat) = H at *
  generalize hV : vocabEnc e.vocab = V at *
  generalize hS : storageEnc (H ++ mb ++ V).length e.storage = S at *
  generalize hN : normsEnc (H ++ mb ++ V ++ S).length e.norms = N at *
  have hsz' : H.length + mb.length + V.length + S.length + N.length < maxSize := by
    rw [heq] at hsz; simp only [List.length_append] at hsz; omega
  refine ⟨(H ++ mb ++ V ++ S).length, ?_, ?_, ?_, ?_⟩
  · rw [hN, heq]; simp; omega
  · have hbs : bs = (H ++ mb ++ V ++ S) ++ N := by rw [heq]; simp
    rw [hbs, List.drop_left, hN]
  · have hbs : bs = (H ++ mb ++ V ++ S) ++ N := by rw [heq]; simp
    refine ⟨hmeta, ?_, hvf, hvl, hsf, ?_, (by intro n hn; cases hn), ?_⟩
    · rw [hbs, List.take_left', hH, hV, hS]
      · simp [normsEnc]
      · rfl
    · rw [hH, hV]; exact hsl
    · rw [hbs, List.take_left' rfl]
      simp only [List.length_append]; omega
  have h1 := readHeader_parses _ [] (chunkIds_ne e) (chunkIds_len e) (chunkIds_lt e)
  have h1s := readHeader_short _ [] (chunkIds_len e)
  rw [hH] at h1 h1s
  have h2 := loadMetaPart_parses hmeta hT ([] ++ H) e.vocab.chunkId (vocabChunkId_ne _) _ hvl
    (by omega)
  have h2s := loadMetaPart_short hmeta hT ([] ++ H) e.vocab.chunkId _ hvl (by omega)
  have h3 := vocabRead_parses hw.vocab hvf hw.expl ([] ++ H ++ (mb ++ chunkHead e.vocab.chunkId
    (vocabLen e.vocab)))
  have h3s := vocabRead_weak hvf ([] ++ H ++ (mb ++ chunkHead e.vocab.chunkId (vocabLen e.vocab)))
  rw [← loadVocabPart_eq] at h3 h3s
  have hsl' : (H ++ mb ++ V ++ storageEnc (H ++ mb ++ V).length e.storage).length < maxSize := by
    rw [hS]; simp only [List.length_append]; omega
  have hhead := loadStoragePart_head e.storage _ (H ++ mb ++ V) hsl
  have hS' : chunkHead e.storage.chunkId (storageLen (padFloat32 ((H ++ mb ++ V).length + 4)) e.storage)
    ++ storageBody (padFloat32 ((H ++ mb ++ V).length + 4)) e.storage = S := hS
  have h4 := Steps.parses hhead (readStorage_parses e.storage hw.storage hsf (H ++ mb ++ V) hsl')
  have h4s := Steps.sameShort hhead (readStorage_same e.storage hw.storage hsf (H ++ mb ++ V) hsl')
  have h4f : e.storage.nonempty → _ := fun h0 => Steps.failsShort hhead
    (readStorage_short e.storage hw.storage hsf (H ++ mb ++ V) h0 hsl')
  rw [hS'] at h4 h4s h4f
  have e4 : [] ++ H ++ (mb ++ chunkHead e.vocab.chunkId (vocabLen e.vocab)) ++ vocabBody e.vocab
      = H ++ mb ++ V := by
    rw [← hV]; simp [vocabEnc]
  have hcheck := check_parts.mp hw.check
  have hnone : Embeddings.new e.storage (canonVocab e.vocab) none e.metadata
      = .ok { canonEmb e with norms := none } := by
    rw [embNew_ok, checkRequirements_canon, check_parts]
    exact ⟨⟨hcheck.1, by simp⟩, rfl⟩
  have htail : Trunc (loadNormsPart >>= fun norms => Rd.lift (Embeddings.new e.storage
      (canonVocab e.vocab) norms e.metadata)) (H ++ mb ++ V ++ S) N
      (TruncResult e (H ++ mb ++ V ++ S).length) := by
    cases hn : e.norms with
    | none =>
      have : N = [] := by rw [← hN, hn]; rfl
      rw [this]; intro k hk; simp at hk
    | some n =>
      obtain ⟨hn1, hn2⟩ := hnl n hn
      rw [hn] at hN
      have := loadNormsPart_trunc n (H ++ mb ++ V ++ S) hn1 hn2 (by
        rw [hN]; simp only [List.length_append]; omega)
      rw [hN] at this
      intro k hk
      rcases this k hk with ⟨er, her⟩ | ⟨r, s', hr, hP⟩
      · exact Or.inl ⟨er, rd_bind_error her⟩
      · rw [rd_bind_ok hr]
        rcases hP with ⟨rfl, hl⟩ | ⟨n', rfl, hlt⟩ | ⟨rfl, hn0⟩
        · right
          rw [hnone]
          refine ⟨_, s', rfl, Or.inl ⟨rfl, fun _ => ⟨by simp [hn], hl⟩⟩⟩
        · left
          cases hc : Embeddings.new e.storage (canonVocab e.vocab) (some n') e.metadata with
          | error er => exact ⟨er, rfl⟩
          | ok e' =>
            rw [embNew_ok, checkRequirements_canon, check_parts] at hc
            have := (hc.1.2 n' rfl).2
            have := (hcheck.2 n hn).2
            omega
        · right
          have := embNew_canon hw
          rw [hn] at this
          rw [this]
          exact ⟨_, s', rfl, Or.inr ⟨rfl, Or.inr (by rw [hn, hn0])⟩⟩
  have heof : ¬ e.storage.nonempty → EofP (loadNormsPart >>= fun norms => Rd.lift (Embeddings.new
      e.storage (canonVocab e.vocab) norms e.metadata)) (TruncResult e (H ++ mb ++ V ++ S).length) := by
    intro h0 s hs
    right
    rw [rd_bind_ok (loadNormsPart_eof s hs), hnone]
    exact ⟨_, s, rfl, Or.inl ⟨rfl, fun h => absurd h h0⟩⟩
  have htr : Trunc (loadFinalfusion T false) []
      (H ++ ((mb ++ chunkHead e.vocab.chunkId (vocabLen e.vocab)) ++ (vocabBody e.vocab ++ (S ++ N))))
      (TruncResult e (H ++ mb ++ V ++ S).length) := by
    unfold loadFinalfusion
    refine Trunc.bind_fails h1 h1s ?_
    refine Trunc.bind_fails h2 h2s ?_
    simp only
    refine Trunc.bind_weak h3 h3s (fun v => (loadStoragePart_eof _).bind) ?_
    rw [e4]
    by_cases h0 : e.storage.nonempty
    · exact Trunc.bind_fails h4 (h4f h0) htail
    · exact Trunc.bind_same h4 h4s (heof h0) htail
  have hb : bs = H ++ ((mb ++ chunkHead e.vocab.chunkId (vocabLen e.vocab)) ++
      (vocabBody e.vocab ++ (S ++ N))) := by
    rw [heq, ← hV]; simp [vocabEnc]
  intro k hk
  rw [hb] at hk ⊢
  unfold Rd.run
  have := htr k hk
  simp only [List.nil_append, List.length_nil, Nat.zero_add] at this
  rcases this with ⟨er, her⟩ | ⟨a, s', ha, hP⟩
  · left; exact ⟨er, by rw [her]⟩
  · right; exact ⟨a, by rw [ha], hP⟩

end FF
