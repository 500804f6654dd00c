import Verif.Lemmas.NoEnc
import Verif.Props.C90
/-!
# C92: text that was read from files can be written, looked up and printed

`UnicodeEncodeError` is raised for surrogates.  Nothing that comes out of a file contains one: the words and n-grams of loaded
embeddings can be looked up, exported in every format and printed in UTF-8, and the tools never end with this exception.
What the `toml` package has to guarantee is `TomlSafe`.
-/

namespace FF

section
variable [NumOps F32] [NumText F32]

/-- The words and n-grams of loaded embeddings, of any format, can be encoded. -/
theorem C92_loaded [TextIO] (T : Toml) (f : Format) (lossy mmap : Bool) (bs : Bytes) (e : Embeddings F32)
    (h : f.load T lossy mmap bs = .ok e) :
    (∀ w ∈ e.vocab.words, Encodable w) ∧ ∀ ix, e.vocab.sub = some (.expl ix) → ∀ g ∈ ix.ngrams, Encodable g :=
  have h := formatLoad_scalars h
  ⟨fun w hw => encodable_scalars.mpr (h.words w hw), fun ix hx g hg => encodable_scalars.mpr (h.ngrams ix hx g hg)⟩

/-- So can the n-grams and words after the conversion to an explicit vocabulary, which does not raise it either. -/
theorem C92_explicit [TextIO] (T : Toml) (f : Format) (lossy mmap : Bool) (bs : Bytes) (e : Embeddings F32)
    (h : f.load T lossy mmap bs = .ok e) :
    e.bucketToExplicit ≠ .error .unicodeEncodeError ∧ ∀ e', e.bucketToExplicit = .ok e' →
      (∀ w ∈ e'.vocab.words, Encodable w) ∧ ∀ ix, e'.vocab.sub = some (.expl ix) → ∀ g ∈ ix.ngrams, Encodable g := by
  obtain ⟨h1, h2⟩ := embToExplicit_noEnc (formatLoad_built h) (formatLoad_scalars h)
  exact ⟨h1.ne, fun e' he' => ⟨fun w hw => encodable_scalars.mpr ((h2 e' he').words w hw),
    fun ix hx g hg => encodable_scalars.mpr ((h2 e' he').ngrams ix hx g hg)⟩⟩

/-- Loaded embeddings can be looked up for every word of every loaded embeddings. -/
theorem C92_lookup [TextIO] (T : Toml) (f g : Format) (lossy mmap lossy' mmap' : Bool) (bs bs' : Bytes) (e e' : Embeddings F32)
    (h : f.load T lossy mmap bs = .ok e) (h' : g.load T lossy' mmap' bs' = .ok e') (w : PyStr) (hw : w ∈ e'.vocab.words) :
    e.embedding w ≠ .error .unicodeEncodeError ∧ e.getItem w ≠ .error .unicodeEncodeError :=
  have hs := (formatLoad_scalars h').words w hw
  ⟨(embedding_noEnc (formatLoad_built h) hs).ne, (getItem_noEnc (formatLoad_built h) hs).ne⟩

/-- They can be written in every format; if they cannot be for another reason, it is another exception. -/
theorem C92_write [TextIO] (T : Toml) (hT : TomlSafe T) (hnum : ∀ x : F32, NumberText (NumText.str x)) (f g : Format)
    (lossy mmap : Bool) (bs : Bytes) (e : Embeddings F32) (h : f.load T lossy mmap bs = .ok e) :
    (g.writer T e).file.1 ≠ .error .unicodeEncodeError ∧
    ∀ e', e.bucketToExplicit = .ok e' → (e'.write T).file.1 ≠ .error .unicodeEncodeError := by
  refine ⟨writer_noEnc hT hnum g (formatLoad_built h) (formatLoad_scalars h), fun e' he' hx => ?_⟩
  obtain ⟨out, ho⟩ : ∃ out, (e'.write T).file = (.error .unicodeEncodeError, out) := ⟨_, Prod.ext hx rfl⟩
  exact write_noEnc hT ((embToExplicit_noEnc (formatLoad_built h) (formatLoad_scalars h)).2 e' he') _ _ _ ho rfl

theorem readFile_noEnc {α : Type} {path : PyStr} {load : Bytes → Res α} (h : ∀ bs, ErrsR NoEnc (load bs)) (fs : FS) :
    ErrsR NoEnc (readFile path load fs) := by
  unfold readFile
  split
  · exact ErrsR.error (by simp [NoEnc])
  · exact h _

theorem readFile_ok {α : Type} {path : PyStr} {load : Bytes → Res α} {fs : FS} {a : α} (h : readFile path load fs = .ok a) :
    ∃ bs, load bs = .ok a := by
  unfold readFile at h
  split at h
  · cases h
  · exact ⟨_, h⟩

theorem joinNl_scalars {ss : List PyStr} (h : ∀ s ∈ ss, Scalars s) : Scalars (joinNl ss) := by
  induction ss using joinNl.induct with
  | case1 => intro c hc; cases hc
  | case2 s => exact h s (by simp)
  | case3 s t ss ih =>
    unfold joinNl
    refine (h s (by simp)).append fun c hc => ?_
    rcases List.mem_cons.mp hc with rfl | hc
    · rfl
    · exact ih (fun x hx => h x (List.mem_cons_of_mem _ hx)) c hc

theorem printAnswer_scalars (hnum : ∀ x : F32, NumberText (NumText.str x)) {e : Embeddings F32} (h : ScalarVocab e.vocab)
    {x : PyStr × Option (List (PyStr × F32))} (hx : ∀ res, x.2 = some res → ∀ r ∈ res, r.1 ∈ e.vocab.words) :
    Scalars (printAnswer x) := by
  obtain ⟨q, r⟩ := x
  cases r with
  | none => intro c hc; cases hc
  | some res =>
    unfold printAnswer
    refine Scalars.append (joinNl_scalars fun s hs => ?_) (by intro c hc; simp at hc; subst hc; rfl)
    obtain ⟨r, hr, rfl⟩ := List.mem_map.mp hs
    refine (h.words _ (hx res rfl r hr)).append fun c hc => ?_
    rcases List.mem_cons.mp hc with rfl | hc
    · rfl
    · have := (hnum r.2).2 c hc
      exact (encodable_scalars.mp fun c' hc' => Or.inl (by have := (hnum r.2).2 c' hc'; omega)) c hc

/-- What is printed in UTF-8 comes out, whatever the answers are. -/
theorem printAll_utf8 (hnum : ∀ x : F32, NumberText (NumText.str x)) {e : Embeddings F32} (h : ScalarVocab e.vocab)
    {as : List (PyStr × Option (List (PyStr × F32)))} {r : Res Unit} (hr : r ≠ .error .unicodeEncodeError)
    (ha : ∀ x ∈ as, ∀ res, x.2 = some res → ∀ y ∈ res, y.1 ∈ e.vocab.words) :
    (printAll .utf8 as r).2 ≠ .error .unicodeEncodeError := by
  induction as with
  | nil => exact hr
  | cons a as ih =>
    have hs := printAnswer_scalars hnum h (ha a (by simp))
    unfold printAll localeEncode
    simp only
    split
    · rename_i x hx
      have := (encode_err_iff.mp hx).1
      rw [scalars_any.mp hs] at this
      cases this
    · exact ih fun x hx => ha x (List.mem_cons_of_mem _ hx)

theorem textLines_stop_ne [TextIO] {lossy : Bool} {bs : Bytes} : (textLines lossy bs).stop ≠ some .unicodeEncodeError :=
  fun h => nomatch textLines_stop_kind h

/-- No tool ends with `UnicodeEncodeError`, if queries, word lists and output are in UTF-8: `ffp-convert` and
`ffp-bucket-to-explicit`, between all formats, -/
theorem C92_convert [TextIO] [Remap] (T : Toml) (hT : TomlSafe T) (hnum : ∀ x : F32, NumberText (NumText.str x))
    (hp : ∀ s : PyStr, (NumText.parse s : Res F32) ≠ .error .unicodeEncodeError) (src dst : Format) (input output : PyStr)
    (lossy mmap : Bool) (fs : FS) (hm : ¬ (src = .finalfusion ∧ mmap = true ∧ input = output)) :
    (convertMain T src dst input output lossy mmap fs).1 ≠ .error .unicodeEncodeError ∧
    (bucketToExplicitMain T src input output lossy mmap fs).1 ≠ .error .unicodeEncodeError := by
  have hl : ErrsR NoEnc (readFile input (src.load T lossy mmap) fs) :=
    readFile_noEnc (formatLoad_noEnc hT hp src lossy mmap) fs
  constructor
  · unfold convertMain
    split
    · rename_i x hx
      exact fun h => hl x hx (Except.error.inj h)
    · rename_i e he
      obtain ⟨bs, he⟩ := readFile_ok he
      unfold convertWrite
      rw [if_neg hm]
      exact (C92_write T hT hnum src dst lossy mmap bs e he).1
  · unfold bucketToExplicitMain
    split
    · rename_i x hx
      exact fun h => hl x hx (Except.error.inj h)
    · rename_i e he
      obtain ⟨bs, he⟩ := readFile_ok he
      split
      · rename_i x hx
        exact fun h => (C92_explicit T src lossy mmap bs e he).1 (hx.trans (congrArg Except.error (Except.error.inj h)))
      · rename_i e' he'
        exact (C92_write T hT hnum src .finalfusion lossy mmap bs e he).2 e' he'

/-- `ffp-select`, in whatever order it has the words, -/
theorem C92_select [TextIO] (T : Toml) (hT : TomlSafe T)
    (hp : ∀ s : PyStr, (NumText.parse s : Res F32) ≠ .error .unicodeEncodeError) (enum : List PyStr → List PyStr)
    (hen : ∀ ws, ∀ w ∈ enum ws, w ∈ ws) (f : Format) (input output wordList : PyStr) (ign lossy mmap : Bool) (fs : FS) :
    (selectMain T enum f input output wordList ign lossy mmap fs).1 ≠ .error .unicodeEncodeError := by
  have hl : ErrsR NoEnc (readFile input (f.load T lossy mmap) fs) := readFile_noEnc (formatLoad_noEnc hT hp f lossy mmap) fs
  have hw : ErrsR NoEnc (readFile wordList (fun bs => (textLines lossy bs).all) fs) := by
    refine readFile_noEnc (fun bs => ?_) fs
    unfold Lines.all
    split
    · exact ErrsR.ok _
    · rename_i x hx
      exact ErrsR.error fun h => textLines_stop_ne (h ▸ hx)
  have hlines : ∀ ls, readFile wordList (fun bs => (textLines lossy bs).all) fs = .ok ls → ∀ l ∈ ls, Scalars l := by
    intro ls h l hl
    obtain ⟨bs, h⟩ := readFile_ok h
    unfold Lines.all at h
    split at h
    · cases h; exact textLines_scalars l hl
    · cases h
  have hwords : ∀ ls : List PyStr, (∀ l ∈ ls, Scalars l) → ∀ w ∈ enum (ls.map strip), Scalars w := by
    intro ls h w hw
    obtain ⟨l, hl, rfl⟩ := List.mem_map.mp (hen _ w hw)
    exact (h l hl).sub strip_mem
  unfold selectMain
  simp only
  split
  · rename_i x hx
    intro h
    refine ErrsR.bind' (P := NoEnc) hl (fun e he => hw.bind' fun ls hls => ?_) x hx (Except.error.inj h)
    obtain ⟨bs, he⟩ := readFile_ok he
    exact (select_noEnc (formatLoad_built he) ign input (hwords ls (hlines ls hls))).1
  · rename_i e' hx
    obtain ⟨e, he, hx⟩ := res_bind_inv hx
    obtain ⟨ls, hls, hx⟩ := res_bind_inv hx
    obtain ⟨bs, he⟩ := readFile_ok he
    intro h
    have h : (e'.write T).file.1 = .error .unicodeEncodeError := h
    obtain ⟨out, ho⟩ : ∃ out, (e'.write T).file = (.error .unicodeEncodeError, out) := ⟨_, Prod.ext h rfl⟩
    exact write_noEnc hT ((select_noEnc (formatLoad_built he) ign input (hwords ls (hlines ls hls))).2 e' hx) _ _ _ ho rfl

/-- `ffp-similar` and `ffp-analogy`. -/
theorem C92_queries [TextIO] [Score F32] (T : Toml) (hT : TomlSafe T) (hnum : ∀ x : F32, NumberText (NumText.str x))
    (hp : ∀ s : PyStr, (NumText.parse s : Res F32) ≠ .error .unicodeEncodeError) (S : Sel F32) (hS : S.Admissible) (f : Format)
    (embeddings input : PyStr) (k : Int) (includes : List PyStr) (lossy mmap : Bool) (fs : FS) :
    (similarPrints .utf8 T S f embeddings input k lossy mmap fs).2 ≠ .error .unicodeEncodeError ∧
    (analogyPrints .utf8 T S f embeddings input k includes lossy mmap fs).2 ≠ .error .unicodeEncodeError := by
  have hl : ErrsR NoEnc (readFile embeddings (f.load T lossy mmap) fs) :=
    readFile_noEnc (formatLoad_noEnc hT hp f lossy mmap) fs
  have hload : ∀ x, readFile embeddings (f.load T lossy mmap) fs = .error x →
      (printAll .utf8 ([] : List (PyStr × Option (List (PyStr × F32)))) (.error x)).2 ≠ .error .unicodeEncodeError :=
    fun x hx h => hl x hx (Except.error.inj h)
  constructor
  · unfold similarPrints similarFound
    simp only
    split
    · rename_i x hx
      exact hload x hx
    · rename_i e he
      obtain ⟨bs, he⟩ := readFile_ok he
      split
      · simp [printAll]
      · rename_i q _
        obtain ⟨h1, h2⟩ := similarLoop_safe hS (formatLoad_built he) k (stop := (textLines false q).stop) textLines_stop_ne
          (lines := (textLines false q).lines) textLines_scalars
        exact printAll_utf8 hnum (formatLoad_scalars he) h2 h1
  · unfold analogyPrints analogyFound
    simp only
    split
    · simp [printAll]
    · split
      · rename_i x hx
        exact hload x hx
      · rename_i e he
        obtain ⟨bs, he⟩ := readFile_ok he
        split
        · simp [printAll]
        · rename_i q _
          obtain ⟨h1, h2⟩ := analogyLoop_safe hS (formatLoad_built he) k includes (stop := (textLines false q).stop)
            textLines_stop_ne (lines := (textLines false q).lines) textLines_scalars
          exact printAll_utf8 hnum (formatLoad_scalars he) h2 h1

end

/-! ### Cases that meet the hypotheses -/

/-- A library that writes how many keys there are -/
def Sample.countToml : Toml where
  dumps m := .ok (decimal m.length)
  loads _ := .ok []

theorem Sample.countToml_safe : TomlSafe Sample.countToml where
  loads s h := nomatch h
  dumps m h := nomatch h
  text m t h := by
    cases h
    intro c hc
    have := decimal_digits _ c hc
    omega

/-- The other assumptions about numbers, for the numbers of C40. -/
example : (∀ x : F32, NumberText (Sample.f32Text.str x)) ∧ (∀ s, Sample.f32Text.parse s ≠ .error .unicodeEncodeError) ∧
    @Sel.Admissible F32 b32Score (@Sel.sorting F32 b32Score ⟨0⟩) := by
  refine ⟨fun x => (Sample.f32Text_printable x).1, fun s h => ?_, @sorting_admissible F32 b32Score ⟨0⟩⟩
  have h : (pyInt s).bind (fun n => Except.ok (UInt32.ofNat n.toNat)) = .error .unicodeEncodeError := h
  cases hp : pyInt s with
  | ok n => rw [hp] at h; cases h
  | error x => rw [hp] at h; cases h; exact pyInt_errs noEnc_text s _ hp rfl

/-- Without files it is otherwise: a surrogate cannot be looked up in a fastText vocabulary (C27), and vocabularies that contain
one cannot be written. -/
example : (∃ e : Embeddings Rat, BuiltEmb e ∧ e.embedding [0xD800] = .error .unicodeEncodeError) ∧
    ((⟨[[0xD800]], [([0xD800], 0)], none⟩ : Vocab).writeChunk).file.1 = .error .unicodeEncodeError := by
  obtain ⟨e, h1, _, h2⟩ := C27_surrogate_refuted
  exact ⟨⟨e, h1, h2⟩, by decide +kernel⟩

/-- Loaded words beyond ASCII that are found and printed. -/
example : ∃ e, @Format.load b32Ops Sample.f32Text Sample.textIO Sample.selToml .finalfusion false false
    ((Sample.embSimple.write Sample.selToml).file).2 = .ok e ∧ [0xDF] ∈ e.vocab.words := by
  obtain ⟨e, h⟩ := Sample.ok_of_errOf (r := Rd.run (loadFinalfusion Sample.selToml false)
    ((Sample.embSimple.write Sample.selToml).file).2) (by decide +kernel)
  refine ⟨e, (if_pos rfl).trans h, ?_⟩
  have h2 : (Rd.run (loadFinalfusion Sample.selToml false) ((Sample.embSimple.write Sample.selToml).file).2).map
      (fun e => e.vocab.words) = .ok Sample.embSimple.vocab.words := by decide +kernel
  rw [h] at h2
  have h2 : e.vocab.words = _ := Except.ok.inj h2
  rw [h2]
  decide

end FF
