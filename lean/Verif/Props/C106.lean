import Verif.Lemmas.DamageFt
import Verif.Props.C62
import Verif.Model.Float32
/-! C106: damage to a row of a fastText file changes only what is computed from this row. -/

namespace FF
open Fifu

section
variable {K : Type} [NumOps K] [Codec K]

/-- On any fastText file that loads, other bytes in the place of row `i` of the matrix are loaded as another row.  The
vocabulary and the metadata are as before, and so is the result of every lookup of a word, known or not, that is not
word `i` and has no n-gram with this row. -/
theorem C106_fasttext (lossy : Bool) (bs : Bytes) (hbs : bs.length < 2 ^ 63) (e : Embeddings K)
    (h : Rd.run (loadFasttext lossy) bs = .ok e) :
    ∃ (f : FtFile) (start : Nat), f.OK ∧ FtLoaded f (f.rows.map fun r => r.map Codec.ofBits) e ∧
      ∀ (i : Nat) row, f.rows[i]? = some row → HasAt bs (start + 4 * f.cols * i) (floats row) ∧
        ∀ bs', DiffersWithin bs bs' (start + 4 * f.cols * i) (start + 4 * f.cols * (i + 1)) →
          ∃ row' e', row'.length = f.cols ∧ HasAt bs' (start + 4 * f.cols * i) (floats row') ∧
            Rd.run (loadFasttext lossy) bs' = .ok e' ∧
            FtLoaded { f with rows := f.rows.set i row' } ((f.rows.set i row').map fun r => r.map Codec.ofBits) e' ∧
            e'.vocab = e.vocab ∧ e'.metadata = e.metadata ∧
            ∀ u, u.any isSurrogate = false → ¬ f.Uses u i →
              e'.embedding u = e.embedding u ∧ e'.embeddingWithNorm u = e.embeddingWithNorm u := by
  obtain ⟨L, f, hL, rfl, hr, hf, hl⟩ := (C62_fasttext lossy bs hbs e).mp h
  obtain ⟨start, hst⟩ := ftRow_damage hL hr hf
  refine ⟨f, start, hf, hl, fun i row hi => ⟨(hst i row hi).1, fun bs' hd => ?_⟩⟩
  obtain ⟨row', L', h1, h2, h3, rfl, h4⟩ := (hst i row hi).2 bs' hd
  have hf' := ftOK_row hf i h1
  obtain ⟨e', h5⟩ := C62_loads (K := K) lossy L' _ h3 (by rw [hd.1]; exact hbs) h4 hf'
  obtain ⟨e'', h6, hl'⟩ := load_of_reads (K := K) h3 (by rw [hd.1]; exact hbs) h4 hf'
  rw [h5] at h6
  cases h6
  refine ⟨row', e', h1, h2, h5, hl', ?_⟩
  refine ftLoaded_row (i := i) (r := row'.map Codec.ofBits) (rs := f.rows.set i row') hf
    (raw := f.rows.map fun r => r.map Codec.ofBits) (by simp) hl ?_
  rw [← List.map_set]
  exact hl'

end

/-- The row of word `i` is used for this word only; so damage to it changes no other lookup. -/
theorem C106_word_row (f : FtFile) (i : Nat) (hi : i < f.words.length) (u : PyStr) :
    f.Uses u i ↔ (f.words.map Prod.fst)[i]? = some u := by
  refine ⟨?_, Or.inl⟩
  rintro (h | ⟨is, ⟨gs, h1, h2⟩, h3⟩)
  · exact h
  · exfalso
    clear h1
    induction h2 with
    | nil => cases h3
    | cons hd _ ih =>
      obtain ⟨k, _, rfl⟩ := hd
      rcases List.mem_cons.mp h3 with h | h
      · omega
      · exact ih h

namespace Sample

/-- The words `a` and `b` with one bucket for their n-grams: rows (1, 0), (0, 1) and (1, 1) -/
def ftShared : FtFile where
  dims := 2
  windowSize := 5
  epoch := 5
  minCount := 1
  ns := 5
  wordNgrams := 1
  loss := 2
  model := 1
  buckets := 1
  minN := 3
  maxN := 3
  lrUpdateRate := 100
  samplingThreshold := 0
  nWords := 2
  nTokens := 2
  prune := -1
  words := [([97], 1), ([98], 1)]
  cols := 2
  rows := [[0x3F800000, 0], [0, 0x3F800000], [0x3F800000, 0x3F800000]]
  output := []

/-- The file with another byte `k` bytes before its end. -/
def ftSharedWith (k : Nat) (b : UInt8) : Bytes := ftShared.bytes.set (ftShared.bytes.length - k) b

/-- The vector of a word, if loaded and known. -/
def ftVec (bs : Bytes) (w : PyStr) : Option (List F32) :=
  match Rd.run (@loadFasttext F32 b32Ops _ false) bs with
  | .error _ => none
  | .ok e => match @Embeddings.embedding F32 b32Ops e w with
    | .ok (some v) => some v
    | _ => none

end Sample

/-- Damage to a row of a bucket is not limited to one word: one bit of the last row changes the vectors of both words,
and that of an unknown word, in float32. -/
theorem C106_one_word_refuted : ∀ w ∈ [[97], [98], [99]], ∃ v v',
    Sample.ftVec Sample.ftShared.bytes w = some v ∧ Sample.ftVec (Sample.ftSharedWith 1 0xBF) w = some v' ∧ v ≠ v' := by
  have key : ∀ x y : Option (List F32), x.isSome && y.isSome && x != y → ∃ v v', x = some v ∧ y = some v' ∧ v ≠ v' := by
    intro x y h
    cases x with
    | none => simp at h
    | some v =>
      cases y with
      | none => simp at h
      | some v' => exact ⟨v, v', rfl, rfl, by simpa using h⟩
  intro w hw
  rcases List.mem_cons.mp hw with rfl | hw
  · exact key _ _ (by decide +kernel)
  rcases List.mem_cons.mp hw with rfl | hw
  · exact key _ _ (by decide +kernel)
  rcases List.mem_cons.mp hw with rfl | hw
  · exact key _ _ (by decide +kernel)
  cases hw

/-! ### The hypotheses can be met -/

/-- One bit of the row of `a`: its vector changes, those of `b` and of an unknown word do not. -/
example : Sample.ftVec (Sample.ftSharedWith 21 0xBF) [97] ≠ Sample.ftVec Sample.ftShared.bytes [97] ∧
    Sample.ftVec (Sample.ftSharedWith 21 0xBF) [98] = Sample.ftVec Sample.ftShared.bytes [98] ∧
    Sample.ftVec (Sample.ftSharedWith 21 0xBF) [99] = Sample.ftVec Sample.ftShared.bytes [99] ∧
    (Sample.ftVec Sample.ftShared.bytes [98]).isSome ∧ (Sample.ftVec Sample.ftShared.bytes [99]).isSome := by
  decide +kernel

/-- The file loads, and its matrix has three rows. -/
example : ∃ e : Embeddings F32, Rd.run (@loadFasttext F32 b32Ops _ false) Sample.ftShared.bytes = .ok e ∧
    Sample.ftShared.bytes.length < 2 ^ 63 :=
  let ⟨e, h⟩ := Sample.ok_of_errOf (r := Rd.run (@loadFasttext F32 b32Ops _ false) Sample.ftShared.bytes)
    (by decide +kernel)
  ⟨e, h, by decide +kernel⟩

/-- `b` does not use the row of `a`. -/
example : ¬ Sample.ftShared.Uses [98] 0 := by
  rw [C106_word_row _ _ (by decide)]
  decide

end FF
