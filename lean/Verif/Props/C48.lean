import Verif.Model.Scripts
import Verif.Spec.Mapped
import Verif.Lemmas.TextFile
import Verif.Props.C38
import Verif.Props.C40
import Verif.Props.C01
/-! C48: a rejected export leaves an existing file alone. -/

namespace FF

section
variable {K : Type} [NumOps K] [Codec K]

theorem writeFasttext_refused {e : Embeddings K} (h : ∀ ix, e.vocab.sub ≠ some (.ft ix)) :
    (writeFasttext e).file = (.error .valueError, []) := by
  unfold writeFasttext
  rcases hs : e.vocab.sub with _ | (ix | ix | ix)
  · rfl
  · rfl
  · exact absurd hs (h ix)
  · rfl

/-- `write_fasttext` refuses exactly what it should (vocabularies other than `FastTextVocab`, with
a `ValueError`) and touches no other file.  (Missing: the file itself does not keep its content,
see `C48_refuted`.) -/
theorem C48_other_files_partial (e : Embeddings K) (h : ∀ ix, e.vocab.sub ≠ some (.ft ix))
    (path : PyStr) (fs : FS) :
    (writeFile path (writeFasttext e) fs).1 = .error .valueError ∧
    ∀ p, p ≠ path → (writeFile path (writeFasttext e) fs).2 p = fs p := by
  unfold writeFile
  rw [writeFasttext_refused h]
  exact ⟨rfl, fun p hp => if_neg hp⟩

/-- The claim fails for every refused export: the file is empty afterwards. -/
theorem C48_refuted (e : Embeddings K) (h : ∀ ix, e.vocab.sub ≠ some (.ft ix))
    (path : PyStr) (fs : FS) (old : Bytes) (hold : fs path = some old) (h0 : old ≠ []) :
    (writeFile path (writeFasttext e) fs).1 = .error .valueError ∧
    (writeFile path (writeFasttext e) fs).2 path = some [] ∧
    (writeFile path (writeFasttext e) fs).2 path ≠ fs path := by
  unfold writeFile
  rw [writeFasttext_refused h, hold]
  refine ⟨rfl, if_pos rfl, ?_⟩
  dsimp only
  rw [if_pos rfl]
  intro hc
  exact h0 (Option.some.inj hc).symm

end

/-- `Header(...).write(path)` is refused in the same way. -/
theorem C48_header (body : Wr Unit) (path : PyStr) (fs : FS) :
    (chunkWrite .header body path fs).1 = .error .typeError ∧
    (chunkWrite .header body path fs).2 path = some [] ∧
    ∀ p, p ≠ path → (chunkWrite .header body path fs).2 p = fs p := by
  have h : (writeStandalone .header body).file = (.error .typeError, []) := rfl
  unfold chunkWrite writeFile
  rw [h]
  exact ⟨rfl, if_pos rfl, fun p hp => if_neg hp⟩

section
variable [NumOps F32] [NumText F32]

/-- The command line tools only open their output after everything else has succeeded: if loading,
converting or looking up fails, no file changes. -/
theorem C48_tools [TextIO] [Remap] (T : Toml) (src : Format) (input output : PyStr) (lossy mmap : Bool) (fs : FS)
    (x : PyErr) :
    (readFile input (src.load T lossy mmap) fs = .error x →
      (∀ dst, convertMain T src dst input output lossy mmap fs = (.error x, fs)) ∧
      bucketToExplicitMain T src input output lossy mmap fs = (.error x, fs) ∧
      ∀ enum wordList ignoreUnk, selectMain T enum src input output wordList ignoreUnk lossy mmap fs =
        (.error x, fs)) ∧
    (∀ e, readFile input (src.load T lossy mmap) fs = .ok e →
      (e.bucketToExplicit = .error x →
        bucketToExplicitMain T src input output lossy mmap fs = (.error x, fs)) ∧
      ∀ enum wordList ignoreUnk,
        (fs wordList = none →
          selectMain T enum src input output wordList ignoreUnk lossy mmap fs = (.error .osError, fs)) ∧
        ∀ bs lines, fs wordList = some bs →
          (Yields lossy bs lines (some x) →
            selectMain T enum src input output wordList ignoreUnk lossy mmap fs = (.error x, fs)) ∧
          (Yields lossy bs lines none →
            selectEmbeddings e ignoreUnk input (enum (lines.map strip)) = .error x →
            selectMain T enum src input output wordList ignoreUnk lossy mmap fs = (.error x, fs))) := by
  unfold convertMain bucketToExplicitMain selectMain
  refine ⟨fun h => ?_, fun e h => ⟨fun h1 => ?_, fun enum wordList ignoreUnk => ⟨fun h1 => ?_,
    fun bs lines h1 => ⟨fun hy => ?_, fun hy h2 => ?_⟩⟩⟩⟩
  · rw [h]
    exact ⟨fun _ => rfl, rfl, fun _ _ _ => rfl⟩
  · simp only [h, h1]
  · simp only [h, res_bind_ok]
    unfold readFile
    simp only [h1]
    rfl
  · obtain ⟨ls', hl, _⟩ := textLines_yields hy
    simp only [h, res_bind_ok]
    unfold readFile
    simp only [h1, hl]
    rfl
  · obtain ⟨ls', hl, he⟩ := textLines_yields hy
    rw [← ended_strip he] at h2
    simp only [h, res_bind_ok]
    unfold readFile
    simp only [h1, hl, Lines.all, res_bind_ok, h2]

/-- Converting in place loses the input: `ffp-convert` of embeddings without a `FastTextVocab` to
the fastText format, with the same input and output path, leaves an empty file.  (For memory-mapped files see C75.) -/
theorem C48_in_place [TextIO] [Remap] (T : Toml) (src : Format) (path : PyStr) (lossy mmap : Bool) (fs : FS)
    (ha : NotOnto src mmap path path) (e : Embeddings F32) (hl : readFile path (src.load T lossy mmap) fs = .ok e)
    (h : ∀ ix, e.vocab.sub ≠ some (.ft ix)) :
    (convertMain T src .fasttext path path lossy mmap fs).1 = .error .valueError ∧
    (convertMain T src .fasttext path path lossy mmap fs).2 path = some [] := by
  unfold convertMain
  simp only [hl]
  rw [convertWrite, if_neg ha]
  have : Format.writer T .fasttext e = writeFasttext e := rfl
  rw [this]
  unfold writeFile
  rw [writeFasttext_refused h]
  exact ⟨rfl, if_pos rfl⟩

end

/-! ### The hypotheses can be met -/

/-- Embeddings with a simple vocabulary, an existing file of five bytes. -/
example : (∀ ix, Sample.embSimple.vocab.sub ≠ some (.ft ix)) ∧
    (fun _ => some [1, 2, 3, 4, 5] : FS) [97] = some [1, 2, 3, 4, 5] :=
  ⟨(fun ix h => by cases h), rfl⟩

/-- A finalfusion file with a simple vocabulary can be loaded; a missing file cannot. -/
example : ∃ fs e, readFile [97] (@Format.load Sample.f32Ops Sample.f32Text Sample.textIO Sample.toml .finalfusion false false) fs =
      .ok e ∧ ∀ ix, e.vocab.sub ≠ some (.ft ix) := by
  obtain ⟨bs, hbs⟩ : ∃ bs, (Sample.embSimple.write Sample.toml).file = (.ok (), bs) :=
    ⟨_, Sample.file_ok Sample.writeSimple⟩
  exact ⟨fun _ => some bs, Sample.embSimple,
    C01_roundtrip_eq Sample.toml Sample.embSimple bs Sample.builtEmbSimple Sample.tomlSimple hbs
      (fun ix h => by cases h), fun ix h => by cases h⟩

example : readFile [97] (@Format.load Sample.f32Ops Sample.f32Text Sample.textIO Sample.toml .word2vec false false)
    (fun _ => none) = .error .osError := rfl

end FF
