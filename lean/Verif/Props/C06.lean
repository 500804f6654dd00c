import Verif.Lemmas.EmbIO
import Verif.Lemmas.Inv
import Verif.Spec.Samples
/-! C06: the file header. -/

namespace FF

/-- The bytes of a header as the format describes it: `FiFu`, version 0, number of ids, ids. -/
def headerBytes (ids : List Nat) : Bytes :=
  [0x46, 0x69, 0x46, 0x75, 0, 0, 0, 0] ++ le 4 ids.length ++ ids.flatMap (le 4)

/-- Ids that can be put into a header. -/
def IdsOk (ids : List Nat) : Prop := ids.length < 2 ^ 32 ∧ ∀ i ∈ ids, i < 2 ^ 32

theorem headerBytes_eq (ids : List Nat) : headerBytes ids = headerEnc ids := by
  have h : packRaw (ids.map fun i => (4, i)) = ids.flatMap (le 4) := by
    induction ids with
    | nil => rfl
    | cons i ids ih => simp [packRaw, ih]
  rw [headerEnc, h]
  rfl

/-- What `Header.write_chunk` writes. -/
theorem C06_write (ids : List Nat) (pre out : Bytes) (h : writeHeader ids pre = (.ok (), out)) :
    out = pre ++ headerBytes ids ∧ IdsOk ids := by
  obtain ⟨h1, h2, h3, _⟩ := writeHeader_inv h
  rw [headerBytes_eq]
  exact ⟨h1, h2, h3⟩

/-- Reading a header with at least one id returns the ids and consumes exactly the header,
whatever follows. -/
theorem C06_read_partial (ids : List Nat) (rest : Bytes) (h0 : ids ≠ []) (hi : IdsOk ids) :
    readHeader ⟨headerBytes ids ++ rest, 0⟩ =
      .ok (ids, ⟨headerBytes ids ++ rest, (headerBytes ids).length⟩) := by
  rw [headerBytes_eq]
  simpa using readHeader_parses ids [] h0 hi.1 hi.2 rest

/-- Everything that does not start with a header (with at least one id) is rejected with
`FinalfusionFormatError`. -/
theorem C06_reject (bs : Bytes)
    (h : ¬ ∃ ids rest, ids ≠ [] ∧ IdsOk ids ∧ bs = headerBytes ids ++ rest) :
    readHeader ⟨bs, 0⟩ = .error .formatError := by
  unfold readHeader
  rw [rd_bind_ok (read_ok_of_lt 4 _ (by decide))]
  simp only [List.drop_zero, Nat.zero_add]
  by_cases hm : bs.take 4 = magic
  swap
  · rw [if_pos hm]; rfl
  have hlm : (bs.take 4).length = 4 := by rw [hm]; rfl
  rw [if_neg (by simpa using hm), rd_bind, readOne_eq 4 _ (by decide) (by decide), hlm]
  simp only
  by_cases h1 : 4 + 4 ≤ bs.length
  swap
  · rw [if_neg h1]
  rw [if_pos h1]
  simp only
  by_cases hv : unle ((bs.drop 4).take 4) = version
  swap
  · rw [if_pos hv]; rfl
  rw [if_neg (by simpa using hv), rd_bind, readOne_eq 4 _ (by decide) (by decide)]
  simp only
  by_cases h2 : 4 + 4 + 4 ≤ bs.length
  swap
  · rw [if_neg h2]
  rw [if_pos h2]
  simp only
  generalize hn : unle ((bs.drop (4 + 4)).take 4) = n
  have hn' : n < 256 ^ 4 := by
    rw [← hn]
    refine lt_of_lt_of_le (unle_lt _) (Nat.pow_le_pow_right (by decide) (by simp))
  rw [readRequired_eq _ _ (by rw [calcsize_replicate]; unfold maxSize; omega), calcsize_replicate]
  simp only
  split
  · rename_i hc
    exfalso
    apply h
    set buf := (bs.drop (4 + 4 + 4)).take (4 * n) with hbuf
    have hbl : buf.length = 4 * n := by simp [hbuf]; omega
    refine ⟨unpack (List.replicate n 4) buf, bs.drop (4 + 4 + 4 + 4 * n), ?_, ⟨?_, ?_⟩, ?_⟩
    · intro he
      have := congrArg List.length he
      rw [unpack_length] at this
      simp at this
      omega
    · rw [unpack_length, List.length_replicate]; exact hn'
    · exact unpack_replicate_lt 4 n buf
    · have hp := packRaw_unpack (List.replicate n 4) buf (by rw [calcsize_replicate, hbl])
      have hul : (unpack (List.replicate n 4) buf).length = n := by
        rw [unpack_length, List.length_replicate]
      have hz := packRaw_zip_replicate 4 (unpack (List.replicate n 4) buf)
      rw [hul, hp] at hz
      have hle : le 4 n = (bs.drop (4 + 4)).take 4 := by
        have := le_unle ((bs.drop (4 + 4)).take 4)
        have hl4 : ((bs.drop (4 + 4)).take 4).length = 4 := by simp; omega
        rw [hn, hl4] at this
        exact this
      have hve : ([0, 0, 0, 0] : Bytes) = (bs.drop 4).take 4 := by
        have := le_unle ((bs.drop 4).take 4)
        rw [hv] at this
        rw [← this]
        have : ((bs.drop 4).take 4).length = 4 := by simp; omega
        rw [this]; rfl
      have : headerBytes (unpack (List.replicate n 4) buf) =
          bs.take 4 ++ ((bs.drop 4).take 4 ++ ((bs.drop (4 + 4)).take 4 ++ buf)) := by
        rw [headerBytes, hul, ← hz, hle, ← hve, hm]
        rfl
      rw [this, hbuf]
      simp only [List.append_assoc]
      conv_lhs => rw [← List.take_append_drop 4 bs]
      congr 1
      conv_lhs => rw [← List.take_append_drop 4 (bs.drop 4)]
      congr 1
      conv_lhs => rw [List.drop_drop, ← List.take_append_drop 4 (bs.drop (4 + 4))]
      congr 1
      conv_lhs => rw [List.drop_drop, ← List.take_append_drop (4 * n) (bs.drop (4 + 4 + 4))]
      rw [List.drop_drop]
  · rfl

/-- Both at once: a header is read if and only if the bytes begin with it, it has at least one id, and then
the file is positioned behind it; on all other bytes `FinalfusionFormatError` is raised. -/
theorem C06_exact (bs : Bytes) :
    (∀ ids s, readHeader ⟨bs, 0⟩ = .ok (ids, s) ↔
      ids ≠ [] ∧ IdsOk ids ∧ headerBytes ids <+: bs ∧ s = ⟨bs, (headerBytes ids).length⟩) ∧
    ∀ er, readHeader ⟨bs, 0⟩ = .error er ↔
      er = .formatError ∧ ∀ ids, ids ≠ [] → IdsOk ids → ¬ headerBytes ids <+: bs := by
  by_cases h : ∃ ids rest, ids ≠ [] ∧ IdsOk ids ∧ bs = headerBytes ids ++ rest
  · obtain ⟨ids, rest, h0, hi, rfl⟩ := h
    rw [C06_read_partial ids rest h0 hi]
    refine ⟨fun ids' s => ⟨?_, ?_⟩, fun er => ⟨fun h => (nomatch h), fun h => absurd (List.prefix_append _ _) (h.2 ids h0 hi)⟩⟩
    · intro h
      cases h
      exact ⟨h0, hi, List.prefix_append _ _, rfl⟩
    · rintro ⟨h0', hi', ⟨rest', he⟩, rfl⟩
      have := C06_read_partial ids' rest' h0' hi'
      rw [he, C06_read_partial ids rest h0 hi] at this
      exact this
  · rw [C06_reject bs h]
    refine ⟨fun ids' s => ⟨fun h => (nomatch h), ?_⟩, fun er => ⟨?_, fun h => by rw [h.1]⟩⟩
    · rintro ⟨h0', hi', ⟨rest', he⟩, _⟩
      exact absurd ⟨ids', rest', h0', hi', he.symm⟩ h
    · intro he
      cases he
      refine ⟨rfl, ?_⟩
      rintro ids h0 hi ⟨rest, he⟩
      exact h ⟨ids, rest, h0, hi, he.symm⟩

/-- A header without ids is written but rejected by the reader. -/
theorem C06_empty_refuted :
    (writeHeader []).file = (.ok (), headerBytes []) ∧
      ∀ rest, readHeader ⟨headerBytes [] ++ rest, 0⟩ = .error .formatError := by
  refine ⟨by decide +kernel, fun rest => ?_⟩
  apply C06_reject
  rintro ⟨ids, rest', h0, hi, he⟩
  have h1 : (headerBytes [] ++ rest).take 12 = (headerBytes ids ++ rest').take 12 := by rw [he]
  have e1 : ∀ l r, (headerBytes l ++ r).take 12 =
      [0x46, 0x69, 0x46, 0x75, 0, 0, 0, 0] ++ le 4 l.length := by
    intro l r
    unfold headerBytes
    rw [List.append_assoc, List.take_append_of_le_length (by simp), List.take_of_length_le (by simp)]
  rw [e1, e1] at h1
  have h2 := le_injective 4 _ _ (by simp) hi.1 (List.append_cancel_left h1)
  exact h0 (List.length_eq_zero_iff.mp h2.symm)

/-! ### The hypotheses can be met -/

example : ∃ out, writeHeader [5, 1, 2] [9] = (.ok (), out) :=
  ⟨_, Sample.wr_ok (by decide +kernel)⟩

example : [5, 1, 2] ≠ ([] : List Nat) ∧ IdsOk [5, 1, 2] := by
  refine ⟨by decide, by decide, by decide⟩

/-- Wrong version. -/
example : ¬ ∃ ids rest, ids ≠ [] ∧ IdsOk ids ∧
    [0x46, 0x69, 0x46, 0x75, 1, 0, 0, 0, 1, 0, 0, 0, 1, 0, 0, 0] = headerBytes ids ++ rest := by
  rintro ⟨ids, rest, _, _, h⟩
  unfold headerBytes at h
  simp at h

end FF
