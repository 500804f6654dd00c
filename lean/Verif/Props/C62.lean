import Verif.Lemmas.FtExact
import Verif.Props.C57
/-!
# C62: exactly which fastText files load, and what is returned

A byte string is loaded if and only if it has the layout of a fastText file of a supported model, and then
the embeddings are those of that model.
-/

namespace FF

section
variable {K : Type} [NumOps K] [Codec K]

/-- For every byte string, strictly or with replacement: `load_fasttext` returns `e` iff the bytes are the
fields of some layout, the fields stand for a supported model `f`, and `e` is what belongs to `f`. -/
theorem C62_fasttext (lossy : Bool) (bs : Bytes) (hbs : bs.length < 2 ^ 63) (e : Embeddings K) :
    Rd.run (loadFasttext lossy) bs = .ok e ↔
      ∃ (L : FtLayout) (f : FtFile), L.Fits ∧ L.bytes = bs ∧ L.Reads lossy f ∧ f.OK ∧
        FtLoaded f (f.rows.map fun r => r.map Codec.ofBits) e := by
  constructor
  · intro h
    obtain ⟨L, f, hL, rfl, hr, hf⟩ := reads_of_load hbs h
    obtain ⟨e', h', hl⟩ := load_of_reads (K := K) hL hbs hr hf
    rw [h] at h'
    cases h'
    exact ⟨L, f, hL, rfl, hr, hf, hl⟩
  · rintro ⟨L, f, hL, rfl, hr, hf, hl⟩
    obtain ⟨e', h', hl'⟩ := load_of_reads (K := K) hL hbs hr hf
    rw [h', ftLoaded_unique hl hl']

/-- Every layout that stands for a supported model is loaded. -/
theorem C62_loads (lossy : Bool) (L : FtLayout) (f : FtFile) (hL : L.Fits) (hlen : L.bytes.length < 2 ^ 63)
    (hr : L.Reads lossy f) (hf : f.OK) : ∃ e : Embeddings K, Rd.run (loadFasttext lossy) L.bytes = .ok e :=
  let ⟨e, h, _⟩ := load_of_reads (K := K) hL hlen hr hf
  ⟨e, h⟩

/-- The embeddings of a model are determined by it. -/
theorem C62_unique (f : FtFile) (raw : List (List K)) (e e' : Embeddings K) (h : FtLoaded f raw e)
    (h' : FtLoaded f raw e') : e = e' := ftLoaded_unique h h'

end

/-! ### The hypotheses can be met -/

namespace Sample

/-- The first word is ill-formed (`0xFF`), loss and model are numbered 0 and -1, the number of columns is
-1, and two bytes follow. -/
def ftOdd : FtLayout where
  args := [2, 5, 5, 1, 5, 1, 0, -1, 2, 1, 2, 100]
  threshold := 0
  nEntries := 1
  nWords := 1
  nTokens := 1
  prune := -1
  entries := [([0x61, 0xFF], 7)]
  rows := 3
  cols := -1
  rest := f32sLE [0x3F800000, 0x40000000, 0, 0x3F800000, 0, 0x40000000] ++ [1, 2]

/-- The model it stands for. -/
def ftOddFile : FtFile where
  dims := 2
  windowSize := 5
  epoch := 5
  minCount := 1
  ns := 5
  wordNgrams := 1
  loss := 2
  model := 1
  buckets := 2
  minN := 1
  maxN := 2
  lrUpdateRate := 100
  samplingThreshold := 0
  nWords := 1
  nTokens := 1
  prune := -1
  words := [([0x61, 0xFFFD], 7)]
  cols := 2
  rows := [[0x3F800000, 0x40000000], [0, 0x3F800000], [0, 0x40000000]]
  output := [1, 2]

theorem ftOdd_fits : ftOdd.Fits := by
  refine ⟨rfl, ?_, ?_, ?_, ?_, ?_, rfl⟩ <;> simp [ftOdd, Int32Ok, Int64Ok]

theorem ftOdd_reads : ftOdd.Reads true ftOddFile := by
  refine ⟨⟨0, -1, rfl, ?_, ?_⟩, rfl, ⟨rfl, rfl, rfl⟩, ?_, ?_⟩
  · simp [FtNumber, ftOddFile]
  · simp [FtNumber, ftOddFile]
  · exact .cons ⟨decodeLossy_iff.mp (by decide +kernel), rfl⟩ .nil
  · refine ⟨rfl, Or.inr ⟨by decide, by decide, Or.inr ⟨by decide, by decide, rfl⟩⟩⟩

theorem ftOddFile_ok : ftOddFile.OK := by
  refine ⟨?_, ?_, ?_, ?_, ?_, ?_, ?_, ?_, rfl, ?_, ?_⟩ <;>
    simp [ftOddFile, Int32Ok, Int64Ok, ShapeOk] <;> decide

end Sample

example : ∃ e : Embeddings F32, Rd.run (@loadFasttext F32 Sample.f32Ops _ true) Sample.ftOdd.bytes = .ok e :=
  @C62_loads F32 Sample.f32Ops _ true _ _ Sample.ftOdd_fits (by decide +kernel) Sample.ftOdd_reads
    Sample.ftOddFile_ok

/-- The same file is rejected strictly. -/
example : Sample.errOf (Rd.run (@loadFasttext F32 Sample.f32Ops _ false) Sample.ftOdd.bytes) =
    some .unicodeDecodeError := by decide +kernel

/-- A file with a negative number of rows -/
example : ∃ (e : Embeddings F32) (L : FtLayout) (f : FtFile), L.Fits ∧ L.bytes = Sample.ftNegative ∧
    L.Reads false f ∧ f.OK ∧ @FtLoaded F32 Sample.f32Ops f (f.rows.map fun r => r.map Codec.ofBits) e := by
  obtain ⟨e, h⟩ := Sample.ok_of_errOf
    (r := Rd.run (@loadFasttext F32 Sample.f32Ops _ false) Sample.ftNegative) (by decide +kernel)
  exact ⟨e, (@C62_fasttext F32 Sample.f32Ops _ false _ (by decide +kernel) e).mp h⟩

/-- Rows that do not fill the last row of the matrix are rejected. -/
example : Sample.errOf (Rd.run (@loadFasttext F32 Sample.f32Ops _ false)
    (Sample.ftNegative ++ f32sLE [0])) = some .valueError := by decide +kernel

end FF
