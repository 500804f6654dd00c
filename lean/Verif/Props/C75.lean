import Verif.Spec.Mapped
import Verif.Props.C52
/-!
# C75: memory mapping and the tools

With `--mmap` the storage of a finalfusion file stays in the file until it is needed.  This makes no difference, except that
`ffp-convert` loses a file that is converted onto itself.
-/

namespace FF

section
variable [NumOps F32] [NumText F32]

theorem load_unmapped [TextIO] {T : Toml} {src : Format} {lossy mmap : Bool} {bs : Bytes} {e : Embeddings F32}
    (h : src.load T lossy mmap bs = .ok e) : src.load T lossy false bs = .ok e := by
  cases mmap with
  | false => exact h
  | true =>
    cases src with
    | finalfusion => exact C12_mmap_agrees T bs e h
    | _ => exact h

theorem read_unmapped [TextIO] {T : Toml} {src : Format} {lossy mmap : Bool} {path : PyStr} {fs : FS}
    {e : Embeddings F32} (h : readFile path (src.load T lossy mmap) fs = .ok e) :
    readFile path (src.load T lossy false) fs = .ok e := by
  unfold readFile at h ⊢
  cases hb : fs path with
  | none => rw [hb] at h; cases h
  | some bs =>
    rw [hb] at h
    exact load_unmapped h

/-- If a file can be mapped at all, all tools do with `--mmap` what they do without; `ffp-select` and
`ffp-bucket-to-explicit` also if the output is the mapped file.  (Missing: `ffp-convert` of a file onto itself, see
`C75_refuted`.  Which files cannot be mapped is said by C12.) -/
theorem C75_tools_partial [TextIO] [Remap] (T : Toml) (src : Format) (input output : PyStr) (lossy mmap : Bool) (fs : FS)
    (e : Embeddings F32) (h : readFile input (src.load T lossy mmap) fs = .ok e) :
    (NotOnto src mmap input output → ∀ dst,
      convertMain T src dst input output lossy mmap fs = convertMain T src dst input output lossy false fs) ∧
    bucketToExplicitMain T src input output lossy mmap fs = bucketToExplicitMain T src input output lossy false fs ∧
    (∀ enum wordList ign, selectMain T enum src input output wordList ign lossy mmap fs =
      selectMain T enum src input output wordList ign lossy false fs) ∧
    (∀ S queries k, similarMain T S src input queries k lossy mmap fs =
      similarMain T S src input queries k lossy false fs) ∧
    ∀ S queries k includes, analogyMain T S src input queries k includes lossy mmap fs =
      analogyMain T S src input queries k includes lossy false fs := by
  have h' := read_unmapped h
  refine ⟨fun ha dst => ?_, ?_, fun enum wordList ign => ?_, fun S queries k => ?_, fun S queries k includes => ?_⟩
  · unfold convertMain
    rw [h, h']
    simp only
    rw [convertWrite, if_neg ha, convertWrite, if_neg (by simp)]
  · unfold bucketToExplicitMain
    rw [h, h']
  · unfold selectMain
    rw [h, h']
  · unfold similarMain
    rw [h, h']
  · unfold analogyMain
    rw [h, h']

/-- Without `--mmap` a finalfusion file can be converted onto itself, as long as it fits into the format. -/
theorem C75_unmapped [TextIO] [Remap] (T : Toml) (path : PyStr) (lossy : Bool) (fs : FS) (e : Embeddings F32)
    (metaText : PyStr) (h : readFile path (Format.load T .finalfusion lossy false) fs = .ok e) (hT : TomlOk T e.metadata)
    (hw : Writable T e metaText) : Survives T path lossy false fs e := by
  have ha : NotOnto .finalfusion false path path := fun h => by cases h.2.1
  obtain ⟨fs', h1⟩ := C52_to_finalfusion_succeeds T .finalfusion path path lossy false fs ha e metaText h hT hw
  obtain ⟨e1, e2, h2, h3, h4, -⟩ := C52_to_finalfusion T .finalfusion path path lossy false fs fs' ha
    (fun bs e' hb hl => by
      have := readFile_of hb hl
      rw [h] at this
      cases this
      exact hT) h1
  rw [h] at h2
  cases h2
  exact ⟨fs', e2, h1, h3, h4⟩

omit [NumOps F32] [NumText F32] in
theorem twins_blank {a b : Storage F32} (h : Twins a b) : a.blank = b.blank := by
  have key : ∀ {α : Type} (z : α) {x y : List (List α)}, x.map List.length = y.map List.length →
      (x.map fun r => r.map fun _ => z) = y.map fun r => r.map fun _ => z := by
    intro α z x y h
    have := congrArg (List.map fun n => List.replicate n z) h
    rw [List.map_map, List.map_map] at this
    have e : ((fun n => List.replicate n z) ∘ List.length) = fun r : List α => r.map fun _ => z := by
      funext r
      simp
    rwa [e] at this
  cases h with
  | @nd a b h1 h2 =>
    simp only [Storage.blank, key _ h2, h1]
  | @quant a b h1 h2 h3 h4 =>
    obtain ⟨pa, qa, ca, na⟩ := a
    obtain ⟨pb, qb, cb, nb⟩ := b
    simp only at h1 h2 h3 h4
    subst h1 h2 h3
    simp only [Storage.blank, key _ h4]

/-- A memory-mapped file that is converted onto itself, to whatever format, is overwritten without regard to the vectors: two
files that differ only in these are the same afterwards, whatever the operating system does. -/
theorem C75_overwritten [TextIO] [Remap] (T : Toml) (dst : Format) (path : PyStr) (lossy : Bool) (fs₁ fs₂ : FS)
    (e₁ e₂ : Embeddings F32) (h₁ : readFile path (Format.load T .finalfusion lossy true) fs₁ = .ok e₁)
    (h₂ : readFile path (Format.load T .finalfusion lossy true) fs₂ = .ok e₂) (hv : e₁.vocab = e₂.vocab)
    (hn : e₁.norms = e₂.norms) (hm : e₁.metadata = e₂.metadata) (ht : Twins e₁.storage e₂.storage) :
    (convertMain T .finalfusion dst path path lossy true fs₁).1 = (convertMain T .finalfusion dst path path lossy true fs₂).1 ∧
    (convertMain T .finalfusion dst path path lossy true fs₁).2 path =
      (convertMain T .finalfusion dst path path lossy true fs₂).2 path := by
  obtain ⟨s₁, v₁, n₁, m₁⟩ := e₁
  obtain ⟨s₂, v₂, n₂, m₂⟩ := e₂
  simp only at hv hn hm ht
  subst hv hn hm
  unfold convertMain
  rw [h₁, h₂]
  simp only
  rw [convertWrite, if_pos ⟨rfl, rfl, rfl⟩, convertWrite, if_pos ⟨rfl, rfl, rfl⟩, twins_blank ht]
  simp only [if_pos, and_self]

/-- Of two files that differ only in their vectors at most one survives being converted onto itself with `--mmap`. -/
theorem C75_lost [TextIO] [Remap] (T : Toml) (path : PyStr) (lossy : Bool) (fs₁ fs₂ : FS)
    (e₁ e₂ : Embeddings F32) (h₁ : readFile path (Format.load T .finalfusion lossy true) fs₁ = .ok e₁)
    (h₂ : readFile path (Format.load T .finalfusion lossy true) fs₂ = .ok e₂) (hv : e₁.vocab = e₂.vocab)
    (hn : e₁.norms = e₂.norms) (hm : e₁.metadata = e₂.metadata) (ht : Twins e₁.storage e₂.storage)
    (hd : e₁.storage ≠ e₂.storage) :
    ¬ (Survives T path lossy true fs₁ e₁ ∧ Survives T path lossy true fs₂ e₂) := by
  rintro ⟨⟨f₁, g₁, c₁, r₁, s₁⟩, f₂, g₂, c₂, r₂, s₂⟩
  obtain ⟨-, h⟩ := C75_overwritten T .finalfusion path lossy fs₁ fs₂ e₁ e₂ h₁ h₂ hv hn hm ht
  rw [c₁, c₂] at h
  simp only at h
  unfold readFile at r₁ r₂
  rw [h, r₂] at r₁
  cases r₁
  exact hd (s₁.storage.trans s₂.storage.symm)

end

/-! ### The hypotheses can be met -/

namespace Sample

/-- Like `embSimple`, with other numbers in the matrix -/
def embTwin : Embeddings F32 := ⟨.nd ⟨2, [[1, 2], [3, 4], [6, 5]]⟩, simple, some [7, 8, 9], some []⟩

theorem builtTwin : BuiltEmb embTwin :=
  ⟨builtSimple, (by unfold embTwin StorageWF Mat.WF ShapeOk; decide), rfl⟩

theorem twins : Twins embSimple.storage embTwin.storage := .nd rfl rfl

/-- The file of embeddings, for all paths -/
def fileOf (e : Embeddings F32) : FS := fun _ => some ((e.write toml).file).2

theorem writableSimple : Writable toml embSimple [] where
  words := by
    intro w hw
    simp only [embSimple, simple, words, List.mem_cons, List.not_mem_nil, or_false] at hw
    rcases hw with rfl | rfl | rfl <;> exact ⟨any_surrogate.mp (by decide), by decide⟩
  ngrams := by intro ix h; cases h
  metadata := by intro m hm; cases hm; exact ⟨rfl, fun c hc => by cases hc⟩
  shape := by
    show _ < _
    decide +kernel
  size := by decide +kernel

theorem writableTwin : Writable toml embTwin [] where
  words := by
    intro w hw
    simp only [embTwin, simple, words, List.mem_cons, List.not_mem_nil, or_false] at hw
    rcases hw with rfl | rfl | rfl <;> exact ⟨any_surrogate.mp (by decide), by decide⟩
  ngrams := by intro ix h; cases h
  metadata := by intro m hm; cases hm; exact ⟨rfl, fun c hc => by cases hc⟩
  shape := by
    show _ < _
    decide +kernel
  size := by decide +kernel

theorem readOf [NumOps F32] [NumText F32] [TextIO] {e : Embeddings F32} (hw : ((e.write toml).file).1 = .ok ())
    (hb : BuiltEmb e) (ht : TomlOk toml e.metadata) (h0 : e.storage.nonempty)
    (hx : ∀ ix, e.vocab.sub ≠ some (.expl ix)) (path : PyStr) (lossy mmap : Bool) :
    readFile path (Format.load toml .finalfusion lossy mmap) (fileOf e) = .ok e := by
  have hw' := file_ok hw
  have h1 := C01_roundtrip_eq toml e _ hb ht hw' hx
  obtain ⟨mb, h⟩ := embWrite_inv hw'
  refine readFile_of rfl ?_
  cases mmap with
  | false => exact h1
  | true => exact C12_mmap_succeeds_partial toml _ _ h.size h1 h0

theorem readSimple [NumOps F32] [NumText F32] [TextIO] (path : PyStr) (lossy mmap : Bool) :
    readFile path (Format.load toml .finalfusion lossy mmap) (fileOf embSimple) = .ok embSimple :=
  readOf writeSimple builtEmbSimple tomlSimple (by show _ ≠ _; decide) (by intro ix h; cases h) path lossy mmap

theorem readTwin [NumOps F32] [NumText F32] [TextIO] (path : PyStr) (lossy mmap : Bool) :
    readFile path (Format.load toml .finalfusion lossy mmap) (fileOf embTwin) = .ok embTwin :=
  readOf (by decide +kernel) builtTwin tomlSimple (by show _ ≠ _; decide) (by intro ix h; cases h) path lossy mmap

end Sample

open Sample in
/-- The claim fails: whatever the operating system does, there is a file of embeddings that can be mapped, survives being
converted onto itself, and does not survive it with `--mmap`. -/
theorem C75_refuted [NumOps F32] [NumText F32] [TextIO] [Remap] (path : PyStr) (lossy : Bool) :
    ∃ (fs : FS) (e : Embeddings F32), BuiltEmb e ∧
      readFile path (Format.load toml .finalfusion lossy true) fs = .ok e ∧
      Survives toml path lossy false fs e ∧ ¬ Survives toml path lossy true fs e := by
  by_cases h : Survives toml path lossy true (fileOf embSimple) embSimple
  · refine ⟨fileOf embTwin, embTwin, builtTwin, readTwin path lossy true, ?_, fun h' => ?_⟩
    · exact C75_unmapped toml path lossy _ _ [] (readTwin path lossy false) tomlSimple writableTwin
    · exact C75_lost toml path lossy _ _ _ _ (readSimple path lossy true) (readTwin path lossy true) rfl rfl rfl twins
        (by decide) ⟨h, h'⟩
  · exact ⟨fileOf embSimple, embSimple, builtEmbSimple, readSimple path lossy true,
      C75_unmapped toml path lossy _ _ [] (readSimple path lossy false) tomlSimple writableSimple, h⟩

example [NumOps F32] [NumText F32] [TextIO] : ∃ fs e,
    readFile [97] (Format.load Sample.toml .finalfusion false true) fs = .ok e ∧ NotOnto .finalfusion true [97] [98] :=
  ⟨_, _, Sample.readSimple [97] false true, by decide⟩

example [NumOps F32] [NumText F32] [TextIO] [Remap] :
    ¬ (Survives Sample.toml [97] false true (Sample.fileOf Sample.embSimple) Sample.embSimple ∧
      Survives Sample.toml [97] false true (Sample.fileOf Sample.embTwin) Sample.embTwin) :=
  C75_lost Sample.toml [97] false _ _ _ _ (Sample.readSimple _ _ _) (Sample.readTwin _ _ _) rfl rfl rfl Sample.twins (by decide)

end FF
