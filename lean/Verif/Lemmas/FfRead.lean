import Verif.Lemmas.FfPrim
/-! What a successful read says about the bytes of the file: header, metadata, words. -/

namespace FF
open Fifu (HasAt Pad Head HeaderAt MetaAt WordsAt)

theorem pad_iff {p n : Nat} : Pad p n ↔ n = padFloat32 p := by
  unfold Pad padFloat32
  omega

theorem chunkId_fromNat_iff {i : Nat} {c : ChunkId} : ChunkId.fromNat i = .ok c ↔ i = c.toNat := by
  constructor
  · intro h
    unfold ChunkId.fromNat at h
    split at h <;> cases h <;> rfl
  · rintro rfl
    exact chunkId_fromNat_toNat c

theorem typeId_fromNat_iff {i : Nat} {c : TypeId} : TypeId.fromNat i = .ok c ↔ i = c.toNat := by
  constructor
  · intro h
    unfold TypeId.fromNat at h
    split at h
    · cases h; assumption
    · split at h
      · cases h; assumption
      · cases h
  · rintro rfl
    cases c <;> rfl

theorem pow_32 : (256 : Nat) ^ 4 = 2 ^ 32 := by norm_num
theorem pow_64 : (256 : Nat) ^ 8 = 2 ^ 64 := by norm_num

theorem readChunkHeader_none {bs : Bytes} {p : Nat} {s' : RFile} :
    readChunkHeader ⟨bs, p⟩ = .ok (none, s') ↔ bs.length ≤ p ∧ s' = ⟨bs, p⟩ := by
  constructor
  · intro h
    unfold readChunkHeader at h
    rw [rd_bind_iff] at h
    obtain ⟨o, s1, h1, h⟩ := h
    rw [readBinary_eq _ _ (by decide)] at h1
    simp only at h1
    split at h1
    next hl =>
      rw [List.length_take, List.length_drop] at hl
      have : bs.length ≤ p := by
        simp only [calcsize, List.sum_cons, List.sum_nil] at hl
        omega
      cases h1
      cases h
      refine ⟨this, ?_⟩
      simp only [List.length_take, List.length_drop, RFile.mk.injEq, true_and]
      omega
    · split at h1
      · cases h1
      · cases h1
        simp only [unpack] at h
        rw [rd_bind_iff] at h
        obtain ⟨c, s2, _, h⟩ := h
        cases h
  · rintro ⟨h, rfl⟩
    exact readChunkHeader_eof _ h

theorem readChunkHeader_some {bs : Bytes} {p n : Nat} {c : ChunkId} {s' : RFile} :
    readChunkHeader ⟨bs, p⟩ = .ok (some (c, n), s') ↔
      n < 2 ^ 64 ∧ HasAt bs p (le 4 c.toNat ++ le 8 n) ∧ s' = ⟨bs, p + 12⟩ := by
  have hr := readRequired_iff (ws := [4, 8]) (bs := bs) (p := p) (vs := [c.toNat, n]) (s' := s')
    (by decide) (by decide)
  have hc : c.toNat < 256 ^ 4 := by cases c <;> decide
  have hR : (readRequired [4, 8] ⟨bs, p⟩ = .ok ([c.toNat, n], s')) ↔
      readChunkHeader ⟨bs, p⟩ = .ok (some (c, n), s') := by
    unfold readChunkHeader readRequired
    rw [rd_bind_iff, rd_bind_iff]
    constructor
    · rintro ⟨o, s1, h1, h2⟩
      refine ⟨o, s1, h1, ?_⟩
      cases o with
      | none => cases h2
      | some v =>
        cases h2
        simp only
        rw [chunkId_fromNat_toNat]
        rfl
    · rintro ⟨o, s1, h1, h2⟩
      refine ⟨o, s1, h1, ?_⟩
      match o, h2 with
      | none, h2 => cases h2
      | some [i, m], h2 =>
        simp only at h2
        obtain ⟨c', s2, h3, h4⟩ := rd_bind_inv h2
        obtain ⟨k3, k4⟩ := rd_lift_inv h3
        subst k4
        cases h4
        rw [chunkId_fromNat_iff] at k3
        rw [k3]
        rfl
      | some [], h2 => cases h2
      | some [_], h2 => cases h2
      | some (_ :: _ :: _ :: _), h2 => cases h2
  rw [← hR, hr]
  simp only [List.zip_cons_cons, List.zip_nil_right, packRaw, List.append_nil, List.length_cons,
    List.length_nil, calcsize, List.sum_cons, List.sum_nil, List.mem_cons, List.not_mem_nil, or_false]
  constructor
  · rintro ⟨_, h1, h2, h3⟩
    have := h1 _ (Or.inr rfl)
    exact ⟨lt_of_lt_of_eq this pow_64, h2, h3⟩
  · rintro ⟨h1, h2, h3⟩
    refine ⟨trivial, ?_, h2, h3⟩
    rintro f (rfl | rfl)
    · exact hc
    · exact lt_of_lt_of_eq h1 pow_64.symm

theorem readRequiredChunkHeader_iff {bs : Bytes} {p n : Nat} {c : ChunkId} {s' : RFile} :
    readRequiredChunkHeader ⟨bs, p⟩ = .ok ((c, n), s') ↔
      n < 2 ^ 64 ∧ HasAt bs p (le 4 c.toNat ++ le 8 n) ∧ s' = ⟨bs, p + 12⟩ := by
  rw [← readChunkHeader_some]
  unfold readRequiredChunkHeader
  rw [rd_bind_iff]
  constructor
  · rintro ⟨o, s1, h1, h2⟩
    cases o with
    | none => cases h2
    | some v => cases h2; exact h1
  · intro h
    exact ⟨_, _, h, rfl⟩

/-- The chunk header, forgetting the length. -/
theorem head_iff {bs : Bytes} {p : Nat} {c : ChunkId} :
    (∃ n s', readRequiredChunkHeader ⟨bs, p⟩ = .ok ((c, n), s')) ↔ Head bs p c.toNat := by
  unfold Head
  rw [uint_eq]
  constructor
  · rintro ⟨n, s', h⟩
    obtain ⟨h1, h2, _⟩ := readRequiredChunkHeader_iff.mp h
    exact ⟨n, h1, h2⟩
  · rintro ⟨n, h1, h2⟩
    exact ⟨n, _, readRequiredChunkHeader_iff.mpr ⟨h1, h2, rfl⟩⟩

/-- Two different chunks cannot start at the same place. -/
theorem hasAt_le_unique {bs : Bytes} {p w a b : Nat} (ha : a < 256 ^ w) (hb : b < 256 ^ w)
    (h1 : HasAt bs p (le w a)) (h2 : HasAt bs p (le w b)) : a = b := by
  have e1 := hasAt_take h1
  have e2 := hasAt_take h2
  rw [length_le] at e1 e2
  rw [← unle_le w a ha, ← unle_le w b hb, ← e1, ← e2]

theorem packRaw_replicate (ids : List Nat) :
    packRaw ((List.replicate ids.length 4).zip ids) = ids.flatMap (le 4) := by
  induction ids with
  | nil => rfl
  | cons i ids ih =>
    simp only [List.length_cons, List.replicate_succ, List.zip_cons_cons, packRaw, ih,
      List.flatMap_cons]

theorem readHeader_iff {bs : Bytes} {s' : RFile} :
    (∃ ids, readHeader ⟨bs, 0⟩ = .ok (ids, s')) ↔ ∃ stop, HeaderAt bs stop ∧ s' = ⟨bs, stop⟩ := by
  have hm : ∀ n, n < 2 ^ 32 → calcsize (List.replicate n 4) = 4 * n := by
    intro n _; simp [calcsize]; omega
  unfold HeaderAt
  rw [uint_eq]
  constructor
  · rintro ⟨ids, h⟩
    unfold readHeader at h
    rw [rd_bind_iff] at h
    obtain ⟨m, s1, h1, h⟩ := h
    unfold read at h1
    rw [if_pos (by decide)] at h1
    cases h1
    split at h
    · cases h
    next hmag =>
    rw [not_not] at hmag
    rw [hmag] at h
    rw [rd_bind_iff] at h
    obtain ⟨v, s1, h1, h⟩ := h
    obtain ⟨_, hv, rfl⟩ := (readOne_iff (by decide) (by decide)).mp h1
    split at h
    · cases h
    next hver =>
    rw [not_not] at hver
    subst hver
    rw [rd_bind_iff] at h
    obtain ⟨n, s1, h1, h⟩ := h
    obtain ⟨hn, hn2, rfl⟩ := (readOne_iff (by decide) (by decide)).mp h1
    have hn' : n < 2 ^ 32 := lt_of_lt_of_eq hn pow_32
    have hne : n ≠ 0 := by
      rintro rfl
      rw [readRequired_eq _ _ (by decide)] at h
      simp [calcsize] at h
    obtain ⟨k1, k2, k3, rfl⟩ := (readRequired_iff (by rw [hm n hn']; omega)
      (by rw [hm n hn']; unfold maxSize; omega)).mp h
    rw [List.length_replicate] at k1
    subst k1
    rw [packRaw_replicate] at k3
    refine ⟨_, ⟨ids, ?_, hn', ?_, ?_, rfl⟩, ?_⟩
    · rintro rfl; exact hne rfl
    · intro i hi
      have := k2 (4, i) (by
        rw [List.mem_iff_getElem] at hi ⊢
        obtain ⟨j, hj, rfl⟩ := hi
        exact ⟨j, by simpa using hj, by simp⟩)
      exact lt_of_lt_of_eq this pow_32
    · rw [hasAt_append, hasAt_append, hasAt_append]
      refine ⟨⟨⟨?_, ?_⟩, ?_⟩, ?_⟩
      · have : HasAt bs 0 ((bs.drop 0).take 4) := hasAt_of_take
        rw [hmag] at this
        exact this
      · exact hv
      · simpa [magic] using hn2
      · simpa [magic] using k3
    · rw [hm _ hn']
      simp [magic]
  · rintro ⟨stop, ⟨ids, h0, hl, hi, hb, rfl⟩, rfl⟩
    rw [hasAt_append, hasAt_append, hasAt_append] at hb
    obtain ⟨⟨⟨b1, b2⟩, b3⟩, b4⟩ := hb
    simp only [List.length_append, length_le, List.length_cons, List.length_nil] at b2 b3 b4
    refine ⟨ids, ?_⟩
    have hmag : (bs.drop 0).take 4 = magic := hasAt_take b1
    unfold readHeader
    have hr : read 4 ⟨bs, 0⟩ = .ok (magic, ⟨bs, 4⟩) := by
      unfold read
      rw [if_pos (by decide)]
      simp only
      rw [hmag]
      rfl
    rw [rd_bind_ok hr, if_neg (by simp)]
    beta_reduce
    have b2' : HasAt bs 4 (le 4 version) := b2
    rw [rd_bind_ok ((readOne_iff (by decide) (by decide)).mpr ⟨by decide, b2', rfl⟩)]
    rw [if_neg (by decide)]
    beta_reduce
    rw [rd_bind_ok ((readOne_iff (by decide) (by decide)).mpr
      ⟨lt_of_lt_of_eq hl pow_32.symm, b3, rfl⟩)]
    have hne : ids.length ≠ 0 := fun h => h0 (List.length_eq_zero_iff.mp h)
    rw [readRequired_iff (by rw [hm _ hl]; omega) (by rw [hm _ hl]; unfold maxSize; omega)]
    refine ⟨by simp, ?_, ?_, ?_⟩
    · intro f hf
      have := List.of_mem_zip (a := f.1) (b := f.2) hf
      rw [List.eq_of_mem_replicate this.1]
      exact lt_of_lt_of_eq (hi _ this.2) pow_32.symm
    · rw [packRaw_replicate]
      exact b4
    · rw [hm _ hl]

theorem storable_iff {w : PyStr} : Storable w ↔ ItemOk w := by
  unfold Storable ItemOk
  rw [pow_32, List.any_eq_false]
  refine and_congr_left fun _ => ?_
  refine forall₂_congr fun c _ => ?_
  rw [Bool.not_eq_true, isSurrogate_false]

theorem noSurr_iff {w : PyStr} :
    (∀ c ∈ w, c.val < 0xD800 ∨ 0xDFFF < c.val) ↔ w.any isSurrogate = false := by
  rw [List.any_eq_false]
  refine forall₂_congr fun c _ => ?_
  rw [Bool.not_eq_true, isSurrogate_false]

/-- Reading as many bytes as there are. -/
theorem read_hasAt {bs enc : Bytes} {p : Nat} (h : HasAt bs p enc) (hl : enc.length < maxSize) :
    read enc.length ⟨bs, p⟩ = .ok (enc, ⟨bs, p + enc.length⟩) := by
  unfold read
  rw [if_pos hl]
  simp only
  rw [hasAt_take h]

theorem read_at {bs buf : Bytes} {p n : Nat} {s' : RFile} (h : read n ⟨bs, p⟩ = .ok (buf, s')) :
    HasAt bs p buf ∧ s' = ⟨bs, p + buf.length⟩ ∧ (buf.length = n ∨ bs.length ≤ p + buf.length) := by
  unfold read at h
  split at h
  · simp only at h
    cases h
    refine ⟨hasAt_of_take, rfl, ?_⟩
    rw [List.length_take, List.length_drop]
    omega
  · cases h

theorem readMetadata_iff {T : Toml} {bs : Bytes} {p : Nat} {m : Meta} {s' : RFile}
    (hlen : bs.length < 2 ^ 63) :
    readMetadata T ⟨bs, p + 12⟩ = .ok (m, s') ↔ ∃ stop, MetaAt T bs p (some m) stop ∧ s' = ⟨bs, stop⟩ := by
  unfold readMetadata MetaAt
  rw [uint_eq]
  have hsb : seekBack (calcsize [4, 8]) ⟨bs, p + 12⟩ = .ok ((), ⟨bs, p⟩) := by
    unfold seekBack
    rw [if_pos (by simp [calcsize])]
    simp [calcsize]
  rw [rd_bind_ok hsb]
  constructor
  · intro h
    rw [rd_bind_iff] at h
    obtain ⟨vs, s1, h1, h⟩ := h
    obtain ⟨k1, k2, k3, rfl⟩ := (readRequired_iff (by decide) (by decide)).mp h1
    match vs, k1 with
    | [i, n], _ =>
      simp only at h
      rw [rd_bind_iff] at h
      obtain ⟨c, s1, h1, h⟩ := h
      obtain ⟨k5, k6⟩ := rd_lift_inv h1
      subst k6
      rw [rd_bind_iff] at h
      obtain ⟨u, s1, h2, h⟩ := h
      obtain ⟨k7, k8⟩ := rd_lift_inv h2
      subst k8
      have hc := pyAssert_ok k7
      simp only [decide_eq_true_eq] at hc
      subst hc
      rw [chunkId_fromNat_iff] at k5
      subst k5
      rw [rd_bind_iff] at h
      obtain ⟨buf, s1, h1, h⟩ := h
      obtain ⟨b1, rfl, _⟩ := read_at h1
      split at h
      · cases h
      next hn =>
      rw [not_not] at hn
      subst hn
      rw [rd_bind_iff] at h
      obtain ⟨str, s1, h1, h⟩ := h
      obtain ⟨k9, k10⟩ := rd_lift_inv h1
      subst k10
      obtain ⟨hl, rfl⟩ := rd_lift_inv h
      obtain ⟨rfl, hs⟩ := utf8_of_decode _ k9
      refine ⟨_, ⟨str, noSurr_iff.mpr hs, hl, ?_, rfl⟩, rfl⟩
      rw [hasAt_append]
      refine ⟨?_, ?_⟩
      · simpa [packRaw, ChunkId.toNat] using k3
      · simpa [calcsize] using b1
  · rintro ⟨stop, ⟨str, hs, hl, hb, rfl⟩, rfl⟩
    rw [hasAt_append] at hb
    obtain ⟨b1, b2⟩ := hb
    have hlt : (utf8 str).length < maxSize := by
      have := List.IsPrefix.length_le b2
      rw [List.length_drop] at this
      unfold maxSize; omega
    have hr : readRequired [4, 8] ⟨bs, p⟩ = .ok ([ChunkId.metadata.toNat, (utf8 str).length],
        ⟨bs, p + 12⟩) := by
      rw [readRequired_iff (by decide) (by decide)]
      refine ⟨rfl, ?_, ?_, rfl⟩
      · intro f hf
        simp only [List.zip_cons_cons, List.zip_nil_right, List.mem_cons, List.not_mem_nil,
          or_false] at hf
        obtain rfl | rfl := hf
        · decide
        · simp only
          rw [pow_64]
          unfold maxSize at hlt
          omega
      · simpa [packRaw, ChunkId.toNat] using b1
    rw [rd_bind_ok hr]
    simp only
    rw [rd_bind_ok (rd_lift_iff.mpr ⟨chunkId_fromNat_toNat _, rfl⟩)]
    rw [rd_bind_ok (rd_lift_iff.mpr ⟨pyAssert_true (by simp), rfl⟩)]
    simp only [List.length_append, length_le] at b2
    rw [rd_bind_ok (read_hasAt b2 hlt)]
    rw [if_neg (by simp)]
    rw [rd_bind_ok (rd_lift_iff.mpr ⟨decode_utf8 _ (noSurr_iff.mp hs), rfl⟩)]
    rw [rd_lift_iff]
    exact ⟨hl, rfl⟩

/-! ### Words -/

theorem words_eq (ws : List PyStr) : ws.flatMap Fifu.str = wordsEnc ws := by
  induction ws with
  | nil => rfl
  | cons w ws ih => rw [List.flatMap_cons, ih, str_eq]; rfl

theorem grams_eq (gs : List (PyStr × Nat)) :
    (gs.flatMap fun g => Fifu.str g.1 ++ Fifu.uint 8 g.2) = itemsIdxEnc gs := by
  induction gs with
  | nil => rfl
  | cons g gs ih =>
    obtain ⟨w, i⟩ := g
    rw [List.flatMap_cons, ih, str_eq, uint_eq]
    simp [itemsIdxEnc, itemEnc]

/-- One length-prefixed string. -/
theorem readItem_inv {bs : Bytes} {p n : Nat} {buf : Bytes} {w : PyStr} {s' : RFile}
    (hn : n < 256 ^ 4) (hb : HasAt bs p (le 4 n)) (h1 : read n ⟨bs, p + 4⟩ = .ok (buf, s'))
    (h2 : decode buf = .ok w) :
    (ItemOk w ∧ HasAt bs p (itemEnc w) ∧ s' = ⟨bs, p + (itemEnc w).length⟩) ∨
      s'.data = bs ∧ bs.length ≤ s'.pos := by
  obtain ⟨b1, rfl, b2⟩ := read_at h1
  obtain ⟨rfl, hs⟩ := utf8_of_decode _ h2
  obtain rfl | b2 := b2
  · refine Or.inl ⟨⟨hs, hn⟩, ?_, ?_⟩
    · unfold itemEnc
      rw [hasAt_append, length_le]
      exact ⟨hb, b1⟩
    · unfold itemEnc
      rw [List.length_append, length_le]
      simp only [RFile.mk.injEq, true_and]
      omega
  · exact Or.inr ⟨rfl, b2⟩

theorem readItems_at {n : Nat} : ∀ {bs : Bytes} {p : Nat} {ws : List PyStr} {s' : RFile},
    readItems n ⟨bs, p⟩ = .ok (ws, s') → ws.length = n ∧
      ((∀ w ∈ ws, ItemOk w) ∧ HasAt bs p (wordsEnc ws) ∧ s' = ⟨bs, p + (wordsEnc ws).length⟩ ∨
        s'.data = bs ∧ bs.length ≤ s'.pos) := by
  induction n with
  | zero =>
    intro bs p ws s' h
    cases h
    exact ⟨rfl, Or.inl ⟨by simp, hasAt_nil, by simp [wordsEnc]⟩⟩
  | succ n ih =>
    intro bs p ws s' h
    unfold readItems at h
    rw [rd_bind_iff] at h
    obtain ⟨l, s1, h1, h⟩ := h
    obtain ⟨k1, k2, rfl⟩ := (readOne_iff (by decide) (by decide)).mp h1
    rw [rd_bind_iff] at h
    obtain ⟨buf, s1, h1, h⟩ := h
    rw [rd_bind_iff] at h
    obtain ⟨w, s2, h2, h⟩ := h
    obtain ⟨d2, d3⟩ := rd_lift_inv h2
    subst d3
    rw [rd_bind_iff] at h
    obtain ⟨rest, s3, h3, h⟩ := h
    cases h
    obtain ⟨i1, i2, rfl⟩ | ⟨i1, i2⟩ := readItem_inv k1 k2 h1 d2
    · obtain ⟨e1, e2⟩ := ih h3
      refine ⟨by rw [List.length_cons, e1], ?_⟩
      obtain ⟨j1, j2, rfl⟩ | j := e2
      · refine Or.inl ⟨?_, ?_, ?_⟩
        · intro x hx
          rcases List.mem_cons.mp hx with rfl | hx
          · exact i1
          · exact j1 x hx
        · unfold wordsEnc; rw [hasAt_append]; exact ⟨i2, j2⟩
        · simp only [wordsEnc, List.length_append, RFile.mk.injEq, true_and]
          omega
      · exact Or.inr j
    · obtain ⟨d, q⟩ := s2
      simp only at i1 i2
      subst i1
      have e1 := (ih h3).1
      refine ⟨by rw [List.length_cons, e1], Or.inr ?_⟩
      have := readItems_stays n ⟨d, q⟩ i2
      unfold EofOrFail at this
      rw [h3] at this
      obtain ⟨_, h⟩ | ⟨_, _, h, h'⟩ := this
      · cases h
      · cases h; exact h'

theorem readItems_of {bs : Bytes} : ∀ {ws : List PyStr} {p : Nat}, (∀ w ∈ ws, ItemOk w) →
    HasAt bs p (wordsEnc ws) →
    readItems ws.length ⟨bs, p⟩ = .ok (ws, ⟨bs, p + (wordsEnc ws).length⟩) := by
  intro ws
  induction ws with
  | nil => intro p _ _; rfl
  | cons w ws ih =>
    intro p hw hb
    unfold wordsEnc itemEnc at hb
    rw [hasAt_append, hasAt_append] at hb
    obtain ⟨⟨b1, b2⟩, b3⟩ := hb
    rw [length_le] at b2
    have hi := hw w (by simp)
    rw [List.length_cons]
    unfold readItems
    rw [rd_bind_ok ((readOne_iff (by decide) (by decide)).mpr ⟨hi.2, b1, rfl⟩)]
    rw [rd_bind_ok (read_hasAt b2 (lt_trans hi.2 (by decide)))]
    rw [rd_bind_ok (rd_lift_iff.mpr ⟨decode_utf8 _ hi.1, rfl⟩)]
    rw [List.length_append, length_le, ← Nat.add_assoc] at b3
    rw [rd_bind_ok (ih (fun x hx => hw x (by simp [hx])) b3)]
    simp only [rd_pure, wordsEnc, itemEnc, List.length_append, length_le]
    congr 3
    omega

theorem readItemsIdx_at {n : Nat} : ∀ {bs : Bytes} {p : Nat} {ws : List (PyStr × Nat)} {s' : RFile},
    readItemsIdx n ⟨bs, p⟩ = .ok (ws, s') → ws.length = n ∧ (∀ w ∈ ws, ItemOk w.1 ∧ w.2 < 256 ^ 8) ∧
      HasAt bs p (itemsIdxEnc ws) ∧ s' = ⟨bs, p + (itemsIdxEnc ws).length⟩ := by
  induction n with
  | zero =>
    intro bs p ws s' h
    cases h
    exact ⟨rfl, by simp, hasAt_nil, by simp [itemsIdxEnc]⟩
  | succ n ih =>
    intro bs p ws s' h
    unfold readItemsIdx at h
    rw [rd_bind_iff] at h
    obtain ⟨l, s1, h1, h⟩ := h
    obtain ⟨k1, k2, rfl⟩ := (readOne_iff (by decide) (by decide)).mp h1
    rw [rd_bind_iff] at h
    obtain ⟨buf, s1, h1, h⟩ := h
    rw [rd_bind_iff] at h
    obtain ⟨w, s2, h2, h⟩ := h
    obtain ⟨d2, d3⟩ := rd_lift_inv h2
    subst d3
    rw [rd_bind_iff] at h
    obtain ⟨i, s3, h3, h⟩ := h
    obtain ⟨i1, i2, rfl⟩ | ⟨i1, i2⟩ := readItem_inv k1 k2 h1 d2
    · obtain ⟨m1, m2, rfl⟩ := (readOne_iff (by decide) (by decide)).mp h3
      rw [rd_bind_iff] at h
      obtain ⟨rest, s3, h3, h⟩ := h
      cases h
      obtain ⟨e1, j1, j2, rfl⟩ := ih h3
      refine ⟨by rw [List.length_cons, e1], ?_, ?_, ?_⟩
      · intro x hx
        rcases List.mem_cons.mp hx with rfl | hx
        · exact ⟨i1, m1⟩
        · exact j1 x hx
      · unfold itemsIdxEnc
        rw [hasAt_append, hasAt_append, length_le]
        exact ⟨i2, m2, j2⟩
      · simp only [itemsIdxEnc, List.length_append, RFile.mk.injEq, true_and, length_le]
        omega
    · obtain ⟨e, he⟩ := readOne_eof 8 s2 (by rw [i1]; exact i2)
      rw [he] at h3
      cases h3

theorem readItemsIdx_of {bs : Bytes} : ∀ {ws : List (PyStr × Nat)} {p : Nat},
    (∀ w ∈ ws, ItemOk w.1 ∧ w.2 < 256 ^ 8) → HasAt bs p (itemsIdxEnc ws) →
    readItemsIdx ws.length ⟨bs, p⟩ = .ok (ws, ⟨bs, p + (itemsIdxEnc ws).length⟩) := by
  intro ws
  induction ws with
  | nil => intro p _ _; rfl
  | cons wi ws ih =>
    intro p hw hb
    obtain ⟨w, i⟩ := wi
    unfold itemsIdxEnc itemEnc at hb
    rw [hasAt_append, hasAt_append, hasAt_append] at hb
    obtain ⟨⟨b1, b2⟩, b3, b4⟩ := hb
    rw [length_le] at b2
    obtain ⟨hi, hj⟩ := hw (w, i) (by simp)
    simp only [List.length_append, length_le, ← Nat.add_assoc] at b3 b4
    rw [List.length_cons]
    unfold readItemsIdx
    rw [rd_bind_ok ((readOne_iff (by decide) (by decide)).mpr ⟨hi.2, b1, rfl⟩)]
    rw [rd_bind_ok (read_hasAt b2 (lt_trans hi.2 (by decide)))]
    rw [rd_bind_ok (rd_lift_iff.mpr ⟨decode_utf8 _ hi.1, rfl⟩)]
    rw [rd_bind_ok ((readOne_iff (by decide) (by decide)).mpr ⟨hj, b3, rfl⟩)]
    rw [rd_bind_ok (ih (fun x hx => hw x (by simp [hx])) b4)]
    simp only [rd_pure, itemsIdxEnc, itemEnc, List.length_append, length_le]
    congr 3
    omega

theorem enumItems_zipIdx (ws : List PyStr) : enumItems ws = ws.zipIdx := by
  rw [List.zipIdx_eq_zip_range', ← List.range_eq_range']
  rfl

end FF
