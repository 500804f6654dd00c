import Verif.Lemmas.Errs
import Verif.Props.C06
import Verif.Spec.Samples
/-! C11: exceptions of `load_finalfusion` on malformed files. -/

namespace FF

/-- On every byte string `load_finalfusion` returns or raises one of the listed exceptions, or
whatever the TOML parser raises.  In particular it terminates and never runs into a `KeyError`,
`IndexError`, `struct.error`, `EOFError`, `TypeError` or `AttributeError`.  Missing for the full
claim: the other listed exceptions do occur, see the refutations below. -/
theorem C11_kinds_partial (T : Toml) (mmap : Bool) (bs : Bytes) :
    (∃ e, Rd.run (loadFinalfusion T mmap) bs = .ok e) ∨
    ∃ er, Rd.run (loadFinalfusion T mmap) bs = .error er ∧
      (er ∈ [.formatError, .valueError, .assertionError, .overflowError, .unicodeDecodeError,
        .osError, .zeroDivisionError] ∨ ∃ s, T.loads s = .error er) := by
  cases h : Rd.run (loadFinalfusion T mmap) bs with
  | ok e => exact Or.inl ⟨e, rfl⟩
  | error er =>
    refine Or.inr ⟨er, rfl, ?_⟩
    have hP : IoErrs (fun er => er ∈ [PyErr.formatError, .valueError, .assertionError,
        .overflowError, .unicodeDecodeError, .osError, .zeroDivisionError] ∨
        ∃ s, T.loads s = .error er) := by constructor <;> (left; decide)
    have := loadFinalfusion_errs hP T mmap (fun s e he => Or.inr ⟨s, he⟩) ⟨bs, 0⟩ er
    unfold Rd.run at h
    cases hm : loadFinalfusion T mmap ⟨bs, 0⟩ with
    | ok p => rw [hm] at h; cases h
    | error e' => rw [hm] at h; cases h; exact this hm

/-- A file that does not start with a header is reported as `FinalfusionFormatError`. -/
theorem C11_header (T : Toml) (mmap : Bool) (bs : Bytes)
    (h : ¬ ∃ ids rest, ids ≠ [] ∧ IdsOk ids ∧ bs = headerBytes ids ++ rest) :
    Rd.run (loadFinalfusion T mmap) bs = .error .formatError := by
  unfold Rd.run loadFinalfusion
  rw [rd_bind, C06_reject bs h]

/-- A file that ends behind its header, too. -/
theorem C11_no_chunks (T : Toml) (mmap : Bool) (ids : List Nat) (h0 : ids ≠ []) (hi : IdsOk ids) :
    Rd.run (loadFinalfusion T mmap) (headerBytes ids) = .error .formatError := by
  unfold Rd.run loadFinalfusion
  have := C06_read_partial ids [] h0 hi
  rw [List.append_nil] at this
  rw [rd_bind_ok this, rd_bind]
  unfold loadMetaPart
  rw [rd_bind]
  have : readRequiredChunkHeader ⟨headerBytes ids, (headerBytes ids).length⟩ = .error .formatError := by
    unfold readRequiredChunkHeader readChunkHeader
    rw [rd_bind, rd_bind, readBinary_eq [4, 8] _ (by decide)]
    simp [calcsize]
  rw [this]

/-- Two chunk ids, then the given bytes. -/
def withHeader (rest : Bytes) : Bytes := headerBytes [1, 2] ++ rest

/-- Chunk header: id and length (not used when reading). -/
def chunkStart (id : Nat) : Bytes := le 4 id ++ le 8 0

/-- An unknown chunk identifier raises `ValueError`. -/
theorem C11_unknown_id_refuted : Rd.run (loadFinalfusion Sample.toml false)
    (withHeader (chunkStart 9)) = .error .valueError := Sample.of_errOf (by decide +kernel)

/-- A word that occurs twice raises `AssertionError`. -/
theorem C11_duplicate_refuted : Rd.run (loadFinalfusion Sample.toml false)
    (withHeader (chunkStart 1 ++ le 8 2 ++ le 4 1 ++ [97] ++ le 4 1 ++ [97])) =
      .error .assertionError := Sample.of_errOf (by decide +kernel)

/-- A word that is not UTF-8 raises `UnicodeDecodeError`. -/
theorem C11_utf8_refuted : Rd.run (loadFinalfusion Sample.toml false)
    (withHeader (chunkStart 1 ++ le 8 1 ++ le 4 1 ++ [0xFF])) =
      .error .unicodeDecodeError := Sample.of_errOf (by decide +kernel)

/-- `quantized_len = 0` raises `ZeroDivisionError`. -/
theorem C11_zero_refuted : Rd.run (loadFinalfusion Sample.toml false)
    (withHeader (chunkStart 1 ++ le 8 0 ++ chunkStart 4 ++ List.replicate 28 0)) =
      .error .zeroDivisionError := Sample.of_errOf (by decide +kernel)

/-- A declared matrix of `2^63` rows raises `OverflowError`. -/
theorem C11_overflow_refuted : Rd.run (loadFinalfusion Sample.toml false)
    (withHeader (chunkStart 1 ++ le 8 0 ++ chunkStart 2 ++ le 8 (2 ^ 63) ++ le 4 1 ++ le 4 10)) =
      .error .overflowError := Sample.of_errOf (by decide +kernel)

/-- A matrix cut off in the middle raises `ValueError`. -/
theorem C11_short_matrix_refuted : Rd.run (loadFinalfusion Sample.toml false)
    (withHeader (chunkStart 1 ++ le 8 1 ++ le 4 1 ++ [97] ++ chunkStart 2 ++ le 8 1 ++ le 4 2 ++
      le 4 10 ++ [0, 0, 0] ++ [0, 0, 0, 0])) = .error .valueError :=
  Sample.of_errOf (by decide +kernel)

/-- Text files have no header. -/
example : ¬ ∃ ids rest, ids ≠ [] ∧ IdsOk ids ∧ ([97, 32, 49, 10] : Bytes) = headerBytes ids ++ rest := by
  rintro ⟨ids, rest, _, _, h⟩
  simp [headerBytes] at h

example : IdsOk [1, 2] := ⟨by decide, by decide⟩

end FF
