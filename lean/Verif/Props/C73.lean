import Verif.Lemmas.Chain
import Verif.Spec.Samples
/-!
# C73: conversions from format to format do not wear vectors out

Every conversion by `ffp-convert` to word2vec or text multiplies rows by norms and every load divides by the norms
again, in float32.  After `k` of them words are the same and components have moved by `k` small steps.
-/

namespace FF

open F32

section
variable [NumOps F32]

attribute [local instance] b32Text

/-- Embeddings are saved in any format but fastText and converted again and again, up to 65536 files in all, with any
options and paths (but no memory-mapped file onto itself): the last file loads, words and their order are the same, and every component of a vector is what it
was up to a relative error of `k` half units in the last place times eight, and `k` times a tiny part of the length of
the vector. -/
theorem C73_chain [TextIO] [Remap] (hB : Binary32) (T : Toml) (e : Embeddings F32) (hp : Portable T e) (vs : List (List F32))
    (hv : ExportedAll e vs) (hm : ∀ v ∈ vs, Comfortable v) (k : Nat) (hk : k ≤ 2 ^ 16) (f : Format) (p : PyStr)
    (fs : FS) (h : Saved T e k f p fs) (lossy mmap : Bool) :
    ∃ e' vs', readFile p (f.load T lossy mmap) fs = .ok e' ∧ e'.vocab.words = e.vocab.words ∧ ExportedAll e' vs' ∧
      ∀ (i : Nat) v v', vs[i]? = some v → vs'[i]? = some v' → v'.length = v.length ∧ (∀ y ∈ v', Finite y) ∧
        ∀ (t : Nat) x y, v[t]? = some x → v'[t]? = some y →
          |val y - val x| ≤ 8 * k * 2⁻¹ ^ 24 * |val x| + k * 2⁻¹ ^ 84 * exactLen (v.map val) := by
  obtain ⟨bs, h1, h2⟩ := saved_worn hB hp hv hm h hk
  obtain ⟨e', h3, h4, -, -, -, ws, h5, h6⟩ := h2 lossy mmap
  refine ⟨e', ws, readFile_of h1 h3, h4, h5, fun i v w hi hw => ?_⟩
  obtain ⟨j1, rfl⟩ := List.getElem?_eq_some_iff.mp hi
  obtain ⟨j2, rfl⟩ := List.getElem?_eq_some_iff.mp hw
  have g := (List.forall₂_iff_get.mp h6).2 i j1 j2
  refine ⟨g.2.length.symm, g.1, fun t x y hx hy => ?_⟩
  have := g.2.at hx hy
  simp only [List.get_eq_getElem] at this
  linarith

/-- Saving and converting never fails on the way: embeddings without n-grams and metadata can be saved in every format
but fastText, and the file can be converted to every such format, as long as there are at most 65536 files in all and
the files are not larger than a file can be. -/
theorem C73_runs [TextIO] [Remap] (hB : Binary32) (T : Toml) (e : Embeddings F32) (hp : Portable T e) (hpl : Plain e)
    (hfit : Fits e.vocab.words e.storage.nCols) (vs : List (List F32)) (hv : ExportedAll e vs)
    (hm : ∀ v ∈ vs, Comfortable v) (g : Format) (hg : g ≠ .fasttext) (q : PyStr) :
    (∀ fs, ∃ fs', writeFile q (g.writer T e) fs = (.ok (), fs') ∧ Saved T e 1 g q fs') ∧
    ∀ (k : Nat) f p fs, k < 2 ^ 16 → Saved T e k f p fs → ∀ lossy mmap, NotOnto f mmap p q → ∃ fs',
      convertMain T f g p q lossy mmap fs = (.ok (), fs') ∧ Saved T e (k + 1) g q fs' := by
  refine ⟨fun fs => ?_, fun k f p fs hk h lossy mmap ha => ?_⟩
  · obtain ⟨bs, h⟩ := plain_writes hp hpl hfit hv hg
    have h1 : writeFile q (g.writer T e) fs = (.ok (), fun r => if r = q then some bs else fs r) := by
      unfold writeFile
      rw [h]
    exact ⟨_, h1, .save hg h1⟩
  · obtain ⟨bs, h1, h2⟩ := saved_worn hB hp hv hm h hk.le
    obtain ⟨e', h3, h4⟩ := h2 lossy mmap
    have hp' := worn_portable hp h4 (formatLoad_built h3) (formatLoad_ngrams h3)
    obtain ⟨g1, g2, -, g3, ws, g4, -⟩ := h4
    obtain ⟨out, h5⟩ := plain_writes hp' (g3 hpl) (by rw [g1, g2]; exact hfit) g4 hg
    have h6 := convertMain_of (output := q) ha h1 h3 h5
    exact ⟨_, h6, .convert h hg ha h6⟩

end

/-! ### The hypotheses can be met -/

namespace Sample

attribute [local instance] b32Ops b32Text textIO

/-- Three rows `1.0 1.0`, no norms -/
def embOnes : Embeddings F32 :=
  ⟨.nd ⟨2, [[0x3F800000, 0x3F800000], [0x3F800000, 0x3F800000], [0x3F800000, 0x3F800000]]⟩, simple, none, none⟩

def ones : List (List F32) := [[0x3F800000, 0x3F800000], [0x3F800000, 0x3F800000], [0x3F800000, 0x3F800000]]

theorem builtOnes : BuiltEmb embOnes :=
  ⟨builtSimple, (by unfold embOnes StorageWF Mat.WF ShapeOk; decide), rfl⟩

theorem exportedOnes : ExportedAll embOnes ones := by
  refine ⟨rfl, fun i v hv => (exportRow_ok (e := embOnes) (s := embOnes.storage) (i := i) (v := v) builtOnes rfl).mp ?_⟩
  match i, hv with
  | 0, hv => cases hv; decide +kernel
  | 1, hv => cases hv; decide +kernel
  | 2, hv => cases hv; decide +kernel

theorem portableOnes : Portable toml embOnes :=
  ⟨builtOnes, (by intro ix h; cases h), (by intro m s h; cases h), by decide, fun w hw => ⟨w2vWords w hw, textWords w hw⟩,
    by unfold ShapeOk; decide⟩

theorem plainOnes : Plain embOnes := ⟨rfl, rfl, _, rfl⟩

theorem fitsOnes : Fits embOnes.vocab.words embOnes.storage.nCols := by unfold Fits; decide

theorem comfortableOnes : ∀ v ∈ ones, Comfortable v := by
  intro v hv
  have : v = [0x3F800000, 0x3F800000] := by
    simp only [ones, List.mem_cons, List.not_mem_nil, or_false, or_self] at hv
    exact hv
  subst this
  have h1 : val 0x3F800000 = 1 := by
    have e1 : ex 0x3F800000 = 127 := by decide
    have e2 : fr 0x3F800000 = 0 := by decide
    have e3 : sgn 0x3F800000 = 0 := by decide
    unfold val
    rw [e1, e2, e3]
    norm_num
  have h2 : exactLen (([0x3F800000, 0x3F800000] : List F32).map val) = Real.sqrt 2 := by
    rw [List.map_cons, List.map_cons, List.map_nil, h1]
    simp only [exactLen, exactDot]
    norm_num
  refine ⟨?_, by decide, ?_, ?_⟩
  · intro x hx
    simp only [List.mem_cons, List.not_mem_nil, or_false, or_self] at hx
    subst hx
    unfold F32.Finite
    decide
  · rw [h2]
    exact Real.le_sqrt_of_sq_le (by norm_num)
  · rw [h2, Real.sqrt_le_left (by norm_num)]
    norm_num

/-- Saved as word2vec, converted to text with dimensions, to finalfusion, and to text. -/
example [Remap] (fs : FS) : ∃ fs', Saved toml embOnes 4 .text [116] fs' := by
  have hr := fun g hg q => C73_runs binary32_b32 toml embOnes portableOnes plainOnes fitsOnes ones exportedOnes
    comfortableOnes g hg q
  obtain ⟨_, -, h1⟩ := (hr .word2vec (by decide) [119]).1 fs
  obtain ⟨_, -, h2⟩ := (hr .textdims (by decide) [100]).2 1 _ _ _ (by decide) h1 true false (by decide)
  obtain ⟨_, -, h3⟩ := (hr .finalfusion (by decide) [102]).2 2 _ _ _ (by decide) h2 false true (by decide)
  obtain ⟨fs', -, h4⟩ := (hr .text (by decide) [116]).2 3 _ _ _ (by decide) h3 false true (by decide)
  exact ⟨fs', h4⟩

example [Remap] (fs : FS) (k : Nat) (hk : k ≤ 2 ^ 16) (f : Format) (p : PyStr) (h : Saved toml embOnes k f p fs) :
    ∃ e', readFile p (f.load toml false false) fs = .ok e' ∧ e'.vocab.words = words := by
  obtain ⟨e', -, h1, h2, -⟩ := C73_chain binary32_b32 toml embOnes portableOnes ones exportedOnes comfortableOnes k hk f p
    fs h false false
  exact ⟨e', h1, h2⟩

end Sample

open Sample in
attribute [local instance] b32Ops b32Text Sample.textIO in
/-- Vectors do change, so the bound cannot be zero: converting a word2vec file to word2vec writes a different file. -/
theorem C73_changes [Remap] : ∃ e vs fs fs', Portable toml e ∧ Plain e ∧ Fits e.vocab.words e.storage.nCols ∧
    ExportedAll e vs ∧ (∀ v ∈ vs, Comfortable v) ∧ Saved toml e 1 .word2vec [119] fs ∧
    convertMain toml .word2vec .word2vec [119] [120] false false fs = (.ok (), fs') ∧
    fs' [119] = some (w2vFile 2 (words.map fun w => (w, [0x3F800000, 0x3F800000]))) ∧
    fs' [120] = some (w2vFile 2 (words.map fun w => (w, [0x3F7FFFFF, 0x3F7FFFFF]))) := by
  have hr := C73_runs binary32_b32 toml embOnes portableOnes plainOnes fitsOnes ones exportedOnes
    comfortableOnes .word2vec (by decide)
  obtain ⟨fs, h1, h2⟩ := (hr [119]).1 fun _ => none
  obtain ⟨fs', h3, h4⟩ := (hr [120]).2 1 _ _ _ (by decide) h2 false false (by decide)
  refine ⟨embOnes, ones, fs, fs', portableOnes, plainOnes, fitsOnes, exportedOnes, comfortableOnes, h2, h3, ?_⟩
  obtain ⟨bs, g1, g2⟩ := writeFile_ok h1
  obtain ⟨bs', e', out, g3, g4, g5, g6⟩ := convertMain_ok (by decide) h3
  have k1 : bs = w2vFile 2 (words.map fun w => (w, [0x3F800000, 0x3F800000])) := by
    have : (writeWord2vec embOnes).file.2 = w2vFile 2 (words.map fun w => (w, [0x3F800000, 0x3F800000])) := by
      decide +kernel
    rw [← this]
    exact (congrArg Prod.snd g1).symm
  have k2 : fs [119] = some bs := by rw [g2]; exact if_pos rfl
  have k3 : ((Rd.run (loadWord2vec false) (w2vFile 2 (words.map fun w => (w, [0x3F800000, 0x3F800000])))).map fun e : Embeddings F32 =>
      (writeWord2vec e).file.2) = Except.ok (w2vFile 2 (words.map fun w => (w, [0x3F7FFFFF, 0x3F7FFFFF]))) := by
    decide +kernel
  refine ⟨?_, ?_⟩
  · rw [g6, ← k1, ← k2]
    exact if_neg (by decide)
  · rw [k2] at g3
    cases g3
    rw [← k1, show Rd.run (loadWord2vec false) bs = .ok e' from g4] at k3
    rw [g6]
    show some out = _
    rw [← Except.ok.inj k3]
    exact congrArg some (congrArg Prod.snd g5).symm

end FF
