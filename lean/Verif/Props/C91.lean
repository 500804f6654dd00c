import Verif.Lemmas.ErrsCompat
import Verif.Props.C57
import Verif.Props.C77
/-!
# C91: loading malformed files of other formats raises ValueError, EOFError, NotImplementedError or FinalfusionFormatError

`UnicodeDecodeError` is a `ValueError`.  The code violates this with `AssertionError`, `StopIteration`, `IndexError` and
`OverflowError`; no other exceptions occur.
-/

namespace FF

section
variable {K : Type} [NumOps K]

/-- On every byte string `load_word2vec` returns or raises one of the listed exceptions. -/
theorem C91_word2vec_partial [Codec K] (lossy : Bool) (bs : Bytes) :
    (∃ e : Embeddings K, Rd.run (loadWord2vec lossy) bs = .ok e) ∨
    ∃ x ∈ [PyErr.valueError, .unicodeDecodeError, .eofError, .assertionError],
      Rd.run (loadWord2vec lossy : Rd (Embeddings K)) bs = .error x := by
  have h := loadWord2vec_errs (K := K) (P := (· ∈ [PyErr.valueError, .unicodeDecodeError, .eofError, .assertionError]))
    ⟨by simp, by simp, by simp⟩ (by simp) lossy ⟨bs, 0⟩
  unfold Rd.run
  cases hl : (loadWord2vec lossy : Rd (Embeddings K)) ⟨bs, 0⟩ with
  | ok p => exact .inl ⟨_, rfl⟩
  | error x => exact .inr ⟨x, h x hl, rfl⟩

/-- `load_text` and `load_text_dims`, if `float()` raises nothing but `ValueError`, as for C77 -/
theorem C91_text_partial [TextIO] [NumText K] (hn : ∀ (s : PyStr) x, (NumText.parse s : Res K) = .error x → x = .valueError)
    (lossy : Bool) (bs : Bytes) :
    ((∃ e : Embeddings K, loadText lossy bs = .ok e) ∨
      ∃ x ∈ [PyErr.valueError, .unicodeDecodeError, .assertionError], (loadText lossy bs : Res (Embeddings K)) = .error x) ∧
    ((∃ e : Embeddings K, loadTextDims lossy bs = .ok e) ∨
      ∃ x ∈ [PyErr.valueError, .unicodeDecodeError, .assertionError, .stopIteration],
        (loadTextDims lossy bs : Res (Embeddings K)) = .error x) := by
  constructor
  · have h := loadText_errs (K := K) (P := (· ∈ [PyErr.valueError, .unicodeDecodeError, .assertionError]))
      ⟨by simp, by simp, by simp⟩ (fun s x hx => by rw [hn s x hx]; simp) lossy bs
    cases hl : (loadText lossy bs : Res (Embeddings K)) with
    | ok e => exact .inl ⟨_, rfl⟩
    | error x => exact .inr ⟨x, h x hl, rfl⟩
  · have h := loadTextDims_errs (K := K) (P := (· ∈ [PyErr.valueError, .unicodeDecodeError, .assertionError, .stopIteration]))
      ⟨by simp, by simp, by simp⟩ (fun s x hx => by rw [hn s x hx]; simp) (by simp) lossy bs
    cases hl : (loadTextDims lossy bs : Res (Embeddings K)) with
    | ok e => exact .inl ⟨_, rfl⟩
    | error x => exact .inr ⟨x, h x hl, rfl⟩

/-- On every byte string `load_fasttext` returns or raises one of the listed exceptions; in particular the n-grams of words that
were decoded can always be encoded. -/
theorem C91_fasttext_partial [Codec K] (lossy : Bool) (bs : Bytes) :
    (∃ e : Embeddings K, Rd.run (loadFasttext lossy) bs = .ok e) ∨
    ∃ x ∈ [PyErr.formatError, .valueError, .unicodeDecodeError, .eofError, .notImplementedError, .assertionError,
        .indexError, .overflowError],
      Rd.run (loadFasttext lossy : Rd (Embeddings K)) bs = .error x := by
  have h := loadFasttext_errs (K := K) (P := (· ∈ [PyErr.formatError, .valueError, .unicodeDecodeError, .eofError,
    .notImplementedError, .assertionError, .indexError, .overflowError]))
    ⟨⟨by simp, by simp, by simp⟩, by simp, by simp, by simp, by simp, by simp⟩ lossy ⟨bs, 0⟩
  unfold Rd.run
  cases hl : (loadFasttext lossy : Rd (Embeddings K)) ⟨bs, 0⟩ with
  | ok p => exact .inl ⟨_, rfl⟩
  | error x => exact .inr ⟨x, h x hl, rfl⟩

end

/-! ### Exceptions that should not occur -/

/-- A word that occurs twice raises `AssertionError`, in all formats. -/
theorem C91_duplicate_refuted :
    (∃ bs, Rd.run (@loadWord2vec F32 b32Ops _ false) bs = .error .assertionError) ∧
    (∃ bs, @loadText F32 b32Ops b32Text Sample.textIO false bs = .error .assertionError) ∧
    (∃ bs, @loadTextDims F32 b32Ops b32Text Sample.textIO false bs = .error .assertionError) ∧
    ∃ bs, Rd.run (@loadFasttext F32 b32Ops _ false) bs = .error .assertionError :=
  ⟨⟨[50, 32, 49, 10, 97, 32, 0, 0, 0, 0, 10, 97, 32, 0, 0, 0, 0, 10], Sample.of_errOf (by decide +kernel)⟩,
    ⟨[97, 32, 49, 10, 97, 32, 50, 10], Sample.of_errOf (by decide +kernel)⟩,
    ⟨[50, 32, 49, 10, 97, 32, 49, 10, 97, 32, 50, 10], Sample.of_errOf (by decide +kernel)⟩,
    ⟨({ Sample.ftFile2 with words := [([97], 7), ([97], 8)] } : FtFile).bytes, Sample.of_errOf (by decide +kernel)⟩⟩

/-- An empty file is the end of an iteration for `load_text_dims`. -/
theorem C91_empty_refuted : @loadTextDims F32 b32Ops b32Text Sample.textIO false [] = .error .stopIteration :=
  Sample.of_errOf (by decide +kernel)

/-- An unknown loss or model is an index that is out of range. -/
theorem C91_index_refuted : Rd.run (@loadFasttext F32 b32Ops _ false) (Sample.ftNumbered 4 1) = .error .indexError ∧
    Rd.run (@loadFasttext F32 b32Ops _ false) (Sample.ftNumbered 1 4) = .error .indexError :=
  ⟨Sample.of_errOf (by decide +kernel), Sample.of_errOf (by decide +kernel)⟩

/-- So is a matrix with fewer rows than words. -/
theorem C91_rows_refuted : Rd.run (@loadFasttext F32 b32Ops _ false)
    (FtFile.headerBytes ++ Sample.ftFile2.cfgBytes ++ Sample.ftFile2.dictBytes ++ [0] ++ sle 8 0 ++ sle 8 2) =
      .error .indexError :=
  Sample.of_errOf (by decide +kernel)

/-- A matrix whose size is not a machine number. -/
theorem C91_overflow_refuted : Rd.run (@loadFasttext F32 b32Ops _ false)
    (FtFile.headerBytes ++ Sample.ftFile2.cfgBytes ++ Sample.ftFile2.dictBytes ++ [0] ++ sle 8 (2 ^ 62) ++ sle 8 2) =
      .error .overflowError :=
  Sample.of_errOf (by decide +kernel)

/-! ### The exceptions that may occur do occur -/

/-- The hypothesis on `float()` holds for float32. -/
example : ∀ (s : PyStr) x, (b32Text.parse s : Res F32) = .error x → x = .valueError := fun s x h => ((C77_error s x).mp h).1

/-- word2vec: no header, a header that is not ASCII, the end of the file instead of a word -/
example : Rd.run (@loadWord2vec F32 b32Ops _ false) [] = .error .valueError ∧
    Rd.run (@loadWord2vec F32 b32Ops _ true) [0xDF, 10] = .error .unicodeDecodeError ∧
    Rd.run (@loadWord2vec F32 b32Ops _ false) [49, 32, 49, 10, 97] = .error .eofError :=
  ⟨Sample.of_errOf (by decide +kernel), Sample.of_errOf (by decide +kernel), Sample.of_errOf (by decide +kernel)⟩

/-- Text: an empty file, a number that is none, an undecodable word -/
example : @loadText F32 b32Ops b32Text Sample.textIO false [] = .error .valueError ∧
    @loadText F32 b32Ops b32Text Sample.textIO false [97, 32, 98, 10] = .error .valueError ∧
    @loadText F32 b32Ops b32Text Sample.textIO false [0xFF, 32, 49, 10] = .error .unicodeDecodeError :=
  ⟨Sample.of_errOf (by decide +kernel), Sample.of_errOf (by decide +kernel), Sample.of_errOf (by decide +kernel)⟩

/-- fastText: an empty file, another format, a cut word, a quantized model -/
example : Rd.run (@loadFasttext F32 b32Ops _ false) [] = .error .formatError ∧
    Rd.run (@loadFasttext F32 b32Ops _ false) [1, 2, 3, 4, 5, 6, 7, 8] = .error .valueError ∧
    Rd.run (@loadFasttext F32 b32Ops _ false) ((FtFile.headerBytes ++ Sample.ftFile2.cfgBytes ++ Sample.ftFile2.dictBytes).take 93) =
      .error .eofError ∧
    Rd.run (@loadFasttext F32 b32Ops _ false)
      (FtFile.headerBytes ++ Sample.ftFile2.cfgBytes ++ Sample.ftFile2.dictBytes ++ [1]) = .error .notImplementedError :=
  ⟨Sample.of_errOf (by decide +kernel), Sample.of_errOf (by decide +kernel), Sample.of_errOf (by decide +kernel),
    Sample.of_errOf (by decide +kernel)⟩

end FF
