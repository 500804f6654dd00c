import Verif.Lemmas.LoadBuilt
import Verif.Spec.Mapped
import Verif.Props.C38
import Verif.Props.C40
import Verif.Props.C42
import Verif.Props.C01
import Verif.Props.C12
/-! C52: `ffp-convert` composes the formats. -/

namespace FF

section
variable [NumOps F32] [NumText F32]

theorem convertMain_ok [TextIO] [Remap] {T : Toml} {src dst : Format} {input output : PyStr} {lossy mmap : Bool}
    {fs fs' : FS} (ha : NotOnto src mmap input output) (h : convertMain T src dst input output lossy mmap fs = (.ok (), fs')) :
    ∃ bs e out, fs input = some bs ∧ src.load T lossy mmap bs = .ok e ∧
      (dst.writer T e).file = (.ok (), out) ∧
      fs' = fun p => if p = output then some out else fs p := by
  unfold convertMain readFile at h
  cases hb : fs input with
  | none => rw [hb] at h; cases h
  | some bs =>
    simp only [hb] at h
    cases hl : src.load T lossy mmap bs with
    | error x => rw [hl] at h; cases h
    | ok e =>
      simp only [hl] at h
      rw [convertWrite, if_neg ha] at h
      obtain ⟨out, h1, h2⟩ := writeFile_ok h
      exact ⟨bs, e, out, rfl, hl, h1, h2⟩

theorem convertMain_of [TextIO] [Remap] {T : Toml} {src dst : Format} {input output : PyStr} {lossy mmap : Bool}
    {fs : FS} {bs out : Bytes} {e : Embeddings F32} (ha : NotOnto src mmap input output) (hb : fs input = some bs)
    (hl : src.load T lossy mmap bs = .ok e) (hw : (dst.writer T e).file = (.ok (), out)) :
    convertMain T src dst input output lossy mmap fs =
      (.ok (), fun p => if p = output then some out else fs p) := by
  unfold convertMain readFile
  simp only [hb, hl]
  rw [convertWrite, if_neg ha]
  unfold writeFile
  rw [hw]

omit [NumOps F32] [NumText F32] in
theorem readFile_of {α : Type} {path : PyStr} {load : Bytes → Res α} {fs : FS} {bs : Bytes} {a : α}
    (hb : fs path = some bs) (h : load bs = .ok a) : readFile path load fs = .ok a := by
  unfold readFile
  rw [hb]
  exact h

theorem load_fasttext [TextIO] (T : Toml) (lossy mmap : Bool) (bs : Bytes) :
    Format.load T .fasttext lossy mmap bs = Rd.run (loadFasttext lossy) bs := rfl

/-- A successful conversion loaded the input with the source format and wrote what the writer of
the target format writes; no other file changes. -/
theorem C52_composes [TextIO] [Remap] (T : Toml) (src dst : Format) (input output : PyStr) (lossy mmap : Bool)
    (fs fs' : FS) (ha : NotOnto src mmap input output)
    (h : convertMain T src dst input output lossy mmap fs = (.ok (), fs')) :
    (∃ bs e out, fs input = some bs ∧ src.load T lossy mmap bs = .ok e ∧
      (dst.writer T e).file = (.ok (), out) ∧ fs' output = some out) ∧
    ∀ p, p ≠ output → fs' p = fs p := by
  obtain ⟨bs, e, out, h1, h2, h3, rfl⟩ := convertMain_ok ha h
  exact ⟨⟨bs, e, out, h1, h2, h3, if_pos rfl⟩, fun p hp => if_neg hp⟩

/-- Converting any format to finalfusion and loading the output gives the same embeddings as
loading the input; from a format other than finalfusion the identical value.  Also with `mmap`, if
the matrix is not empty. -/
theorem C52_to_finalfusion [TextIO] [Remap] (T : Toml) (src : Format) (input output : PyStr) (lossy mmap : Bool)
    (fs fs' : FS) (ha : NotOnto src mmap input output)
    (hT : ∀ bs e, fs input = some bs → src.load T lossy mmap bs = .ok e → TomlOk T e.metadata)
    (h : convertMain T src .finalfusion input output lossy mmap fs = (.ok (), fs')) :
    ∃ e e', readFile input (src.load T lossy mmap) fs = .ok e ∧
      readFile output (Format.load T .finalfusion lossy false) fs' = .ok e' ∧ SameEmb e e' ∧
      (src ≠ .finalfusion → e' = e) ∧
      (e.storage.nonempty → ∃ e'', readFile output (Format.load T .finalfusion lossy true) fs' = .ok e'' ∧
        SameEmb e e'') := by
  obtain ⟨bs, e, out, h1, h2, h3, rfl⟩ := convertMain_ok ha h
  have hb := formatLoad_built h2
  have hg := formatLoad_ngrams h2
  have ht := hT bs e h1 h2
  have h3' : (e.write T).file = (.ok (), out) := h3
  obtain ⟨e', h4, h5⟩ := C01_roundtrip T e out hb hg ht h3'
  refine ⟨e, e', ?_, ?_, h5, ?_, ?_⟩
  · unfold readFile
    rw [h1]
    exact h2
  · unfold readFile
    simp only [if_pos]
    exact h4
  · intro hs
    have hx : ∀ ix, e.vocab.sub ≠ some (.expl ix) := by
      have hn : e.vocab.sub = none → ∀ ix, e.vocab.sub ≠ some (.expl ix) := by
        intro h0 ix hc
        rw [h0] at hc
        cases hc
      cases src with
      | finalfusion => exact absurd rfl hs
      | fasttext =>
        obtain ⟨_, ⟨ix', h0⟩, _⟩ := loadFasttext_built h2
        intro ix hc
        rw [h0] at hc
        cases hc
      | word2vec => exact hn (loadWord2vec_built h2).2.1
      | textdims => exact hn (loadTextDims_built h2).2.1
      | text => exact hn (loadText_built h2).2.1
    have := C01_roundtrip_eq T e out hb ht h3' hx
    rw [h4] at this
    exact Except.ok.inj this
  · intro h0
    obtain ⟨e'', h6, h7⟩ := C12_roundtrip_mmap T e out hb hg ht h0 h3'
    refine ⟨e'', ?_, h7⟩
    unfold readFile
    simp only [if_pos]
    exact h6

/-- Conversion to finalfusion succeeds for everything that fits into the format. -/
theorem C52_to_finalfusion_succeeds [TextIO] [Remap] (T : Toml) (src : Format) (input output : PyStr)
    (lossy mmap : Bool) (fs : FS) (ha : NotOnto src mmap input output) (e : Embeddings F32) (metaText : PyStr)
    (hl : readFile input (src.load T lossy mmap) fs = .ok e) (hT : TomlOk T e.metadata)
    (hw : Writable T e metaText) :
    ∃ fs', convertMain T src .finalfusion input output lossy mmap fs = (.ok (), fs') := by
  unfold readFile at hl
  cases hb : fs input with
  | none => rw [hb] at hl; cases hl
  | some bs =>
    simp only [hb] at hl
    obtain ⟨out, _, h1, _⟩ := C01_write_succeeds T e metaText (formatLoad_built hl)
      (formatLoad_ngrams hl) hT hw
    exact ⟨_, convertMain_of ha hb hl h1⟩

omit [NumText F32] in
/-- Normalised embeddings with a simple vocabulary fit into the finalfusion format. -/
theorem normalized_writable {T : Toml} {cols : Nat} {words : List PyStr} {vs : List (List F32)}
    {e : Embeddings F32} (h : Normalized cols words vs e) (hl : vs.length = words.length)
    (hw : ∀ w ∈ words, Storable w) (hc : cols < 2 ^ 32)
    (hs : (words.map fun w => 4 + (utf8 w).length).sum + 4 * (words.length * cols) +
      4 * words.length + 256 < 2 ^ 63) : Writable T e [] := by
  obtain ⟨h1, h2, h3, h4, h5, rows, h6, h7, h8⟩ := h
  refine ⟨by rw [h1]; exact hw, ?_, ?_, by rw [h6]; exact hc, ?_⟩
  · intro ix hx
    rw [h2] at hx
    cases hx
  · intro m hm
    rw [h4] at hm
    cases hm
  · have hv : vocabBytes e.vocab = (words.map fun w => 4 + (utf8 w).length).sum := by
      unfold vocabBytes
      rw [h1, h2]
      rfl
    have hst : storageBytes e.storage = 4 * (words.length * cols) := by
      rw [h6]
      show 4 * (rows.length * cols) = _
      rw [h7, hl]
    have hn : (e.norms.map List.length).getD 0 = words.length := by
      rw [h5]
      simp [hl]
    have h0 : (utf8 []).length = 0 := rfl
    rw [hv, hst, hn, h0]
    omega

theorem convert_normalized [TextIO] [Remap] {T : Toml} {src : Format} {input output : PyStr} {lossy mmap : Bool}
    {fs : FS} {bs : Bytes} {cols : Nat} {words : List PyStr} {vs : List (List F32)}
    {e : Embeddings F32} (hf : src ≠ .finalfusion) (hb : fs input = some bs)
    (he : src.load T lossy mmap bs = .ok e)
    (h : Normalized cols words vs e) (hl : vs.length = words.length)
    (hw : ∀ w ∈ words, Storable w) (hc : cols < 2 ^ 32)
    (hs : (words.map fun w => 4 + (utf8 w).length).sum + 4 * (words.length * cols) +
      4 * words.length + 256 < 2 ^ 63) :
    ∃ fs' e', convertMain T src .finalfusion input output lossy mmap fs = (.ok (), fs') ∧
      readFile output (Format.load T .finalfusion lossy false) fs' = .ok e' ∧
      Normalized cols words vs e' := by
  have hmd := h.2.2.2.1
  have hT : TomlOk T e.metadata := by
    intro m s hm
    rw [hmd] at hm
    cases hm
  have hr : readFile input (src.load T lossy mmap) fs = .ok e := by
    unfold readFile
    rw [hb]
    exact he
  obtain ⟨fs', h1⟩ := C52_to_finalfusion_succeeds T src input output lossy mmap fs (fun h => hf h.1) e [] hr hT
    (normalized_writable h hl hw hc hs)
  obtain ⟨e1, e2, h2, h3, _, h5, _⟩ := C52_to_finalfusion T src input output lossy mmap fs fs' (fun h => hf h.1)
    (by intro bs' e' hb' he'
        rw [hb] at hb'
        cases hb'
        rw [he] at he'
        cases he'
        exact hT) h1
  rw [hr] at h2
  cases h2
  exact ⟨fs', e2, h1, h3, (h5 hf).symm ▸ h⟩

/-- From word2vec files to finalfusion: the output has the words of the file, each vector
normalised, and the norms. -/
theorem C52_word2vec [TextIO] [Remap] (T : Toml) (input output : PyStr) (lossy mmap : Bool) (fs : FS) (cols : Nat)
    (rows : List (PyStr × List F32)) (hin : fs input = some (w2vFile cols rows))
    (hw : ∀ p ∈ rows, W2vWord p.1 ∧ (utf8 p.1).length < 2 ^ 32)
    (hl : ∀ p ∈ rows, p.2.length = cols) (hn : (rows.map Prod.fst).Nodup) (hc : cols < 2 ^ 32)
    (hs : ((rows.map Prod.fst).map fun w => 4 + (utf8 w).length).sum + 4 * (rows.length * cols) +
      4 * rows.length + 256 < 2 ^ 63) :
    ∃ fs' e', convertMain T .word2vec .finalfusion input output lossy mmap fs = (.ok (), fs') ∧
      readFile output (Format.load T .finalfusion lossy false) fs' = .ok e' ∧
      Normalized cols (rows.map Prod.fst) (rows.map Prod.snd) e' := by
  obtain ⟨e, h1, h2⟩ := C38_load (K := F32) lossy cols rows (fun p hp => (hw p hp).1) hl hn
    (shapeOk_of (by omega) (by omega) (by omega))
  have hid : (rows.map fun p => p.2.map (Codec.ofBits : F32 → F32)) = rows.map Prod.snd := by
    apply List.map_congr_left
    intro p _
    show p.2.map id = _
    simp
  rw [hid] at h2
  refine convert_normalized (by decide) hin h1 h2 (by simp) ?_ hc (by simpa using hs)
  intro w hw'
  obtain ⟨p, hp, rfl⟩ := List.mem_map.mp hw'
  exact ⟨(hw p hp).1.2.2.2, (hw p hp).2⟩

/-- From text files to finalfusion, with or without dimensions on the first line. -/
theorem C52_text [TextIO] [Remap] (T : Toml) (dims : Bool) (input output : PyStr) (lossy mmap : Bool) (fs : FS)
    (cols : Nat) (rows : List (PyStr × List F32)) (sep : PyStr) (hsep : TextSep sep)
    (hin : fs input = some (utf8 (textFile dims sep cols (strRows rows))))
    (hr : TextRows cols rows) (hne : dims = false → rows ≠ [])
    (hw : ∀ p ∈ rows, Storable p.1) (hc : cols < 2 ^ 32)
    (hs : ((rows.map Prod.fst).map fun w => 4 + (utf8 w).length).sum + 4 * (rows.length * cols) +
      4 * rows.length + 256 < 2 ^ 63) :
    ∃ fs' e', convertMain T (if dims then .textdims else .text) .finalfusion input output lossy mmap fs =
        (.ok (), fs') ∧
      readFile output (Format.load T .finalfusion lossy false) fs' = .ok e' ∧
      Normalized cols (rows.map Prod.fst) (rows.map Prod.snd) e' := by
  have hst : ∀ w ∈ rows.map Prod.fst, Storable w := by
    intro w hw'
    obtain ⟨p, hp, rfl⟩ := List.mem_map.mp hw'
    exact hw p hp
  cases dims with
  | true =>
    obtain ⟨e, h1, h2⟩ := C40_load_dims lossy sep hsep cols rows hr
    exact convert_normalized (src := .textdims) (by decide) hin h1 h2 (by simp) hst hc (by simpa using hs)
  | false =>
    obtain ⟨e, h1, h2⟩ := C40_load lossy sep hsep cols rows hr (hne rfl)
    exact convert_normalized (src := .text) (by decide) hin h1 h2 (by simp) hst hc (by simpa using hs)

/-- From fastText models to finalfusion: the output has the words, n-gram parameters and metadata
of the model, the mean of each word's rows normalised, the norms, and the bucket rows. -/
theorem C52_fasttext [TextIO] [Remap] (T : Toml) (input output : PyStr) (lossy mmap : Bool) (fs : FS) (f : FtFile)
    (hf : f.OK) (hin : fs input = some f.bytes) (metaText : PyStr)
    (hd : T.dumps f.meta = .ok metaText) (hT : T.loads metaText = .ok f.meta)
    (hm : ∀ c ∈ metaText, c.val < 0xD800 ∨ 0xDFFF < c.val)
    (hw : ∀ p ∈ f.words, (utf8 p.1).length < 2 ^ 32) (hc : f.cols < 2 ^ 32)
    (hs : (utf8 metaText).length + ((f.words.map Prod.fst).map fun w => 4 + (utf8 w).length).sum +
      4 * (f.rows.length * f.cols) + 4 * f.words.length + 256 < 2 ^ 63) :
    ∃ fs' e', convertMain T .fasttext .finalfusion input output lossy mmap fs = (.ok (), fs') ∧
      readFile output (Format.load T .finalfusion lossy false) fs' = .ok e' ∧
      FtLoaded f f.rows e' := by
  obtain ⟨e, h1, h2⟩ := C42_load (K := F32) f hf lossy
  have hid : (f.rows.map fun r => r.map (Codec.ofBits : F32 → F32)) = f.rows := by
    have : (fun r : List F32 => r.map (Codec.ofBits : F32 → F32)) = id := by
      funext r
      show r.map id = r
      simp
    rw [this, List.map_id]
  rw [hid] at h2
  obtain ⟨g1, g2, g3, g4, rows, norms, g5, g6, g7, g8, _⟩ := h2
  have hok : TomlOk T e.metadata := by
    intro m s h3 h4
    rw [g4] at h3
    cases h3
    rw [hd] at h4
    cases h4
    exact hT
  have hwr : Writable T e metaText := by
    refine ⟨?_, ?_, ?_, by rw [g5]; exact hc, ?_⟩
    · rw [g1]
      intro w hw'
      obtain ⟨p, hp, rfl⟩ := List.mem_map.mp hw'
      exact ⟨hf.text p hp, hw p hp⟩
    · intro ix hx
      rw [g2] at hx
      cases hx
    · intro m h3
      rw [g4] at h3
      cases h3
      exact ⟨hd, hm⟩
    · have hv : vocabBytes e.vocab = ((f.words.map Prod.fst).map fun w => 4 + (utf8 w).length).sum := by
        unfold vocabBytes
        rw [g1, g2]
        rfl
      have hst : storageBytes e.storage = 4 * (f.rows.length * f.cols) := by
        rw [g5]
        show 4 * (rows.length * f.cols) = _
        rw [g7]
      have hn : (e.norms.map List.length).getD 0 = f.words.length := by
        rw [g6]
        exact g8
      rw [hv, hst, hn]
      omega
  have h1 := (load_fasttext T lossy mmap f.bytes).trans h1
  have hr := readFile_of hin h1
  obtain ⟨fs', h3⟩ := C52_to_finalfusion_succeeds T .fasttext input output lossy mmap fs (fun h => by cases h.1) e metaText hr
    hok hwr
  obtain ⟨e1, e2, h4, h5, _, h6, _⟩ := C52_to_finalfusion T .fasttext input output lossy mmap fs fs' (fun h => by cases h.1)
    (by intro bs' e' hb' he'
        have hbs := Option.some.inj (hin.symm.trans hb')
        subst hbs
        have hee := Except.ok.inj (h1.symm.trans he')
        subst hee
        exact hok) h3
  rw [hr] at h4
  cases h4
  refine ⟨fs', e2, h3, h5, ?_⟩
  rw [h6 (by decide)]
  exact ⟨g1, g2, g3, g4, rows, norms, g5, g6, g7, g8, by assumption⟩

/-- Any format to word2vec or text: the output is a file of the target format with the words of
the input and their vectors with original lengths. -/
theorem C52_exports [TextIO] [Remap] (T : Toml) (src : Format) (input output : PyStr) (lossy mmap : Bool)
    (fs fs' : FS) (ha : NotOnto src mmap input output) (e : Embeddings F32)
    (hl : readFile input (src.load T lossy mmap) fs = .ok e) :
    (convertMain T src .word2vec input output lossy mmap fs = (.ok (), fs') →
      ∃ rows : List (PyStr × List F32), fs' output = some (w2vFile e.storage.nCols rows) ∧
        rows.map Prod.fst = e.vocab.words ∧
        ∀ (i : Nat) w v, rows[i]? = some (w, v) → Exported e i v) ∧
    (∀ dims, convertMain T src (if dims then .textdims else .text) input output lossy mmap fs =
        (.ok (), fs') →
      ∃ rows : List (PyStr × List PyStr),
        fs' output = some (utf8 (textFile dims [32] e.storage.nCols rows)) ∧
        rows.map Prod.fst = e.vocab.words ∧
        ∀ (i : Nat) w ps, rows[i]? = some (w, ps) → ∃ v, Exported e i v ∧ ps = v.map NumText.str) := by
  have key : ∀ dst, convertMain T src dst input output lossy mmap fs = (.ok (), fs') →
      BuiltEmb e ∧ ∃ out, (dst.writer T e).file = (.ok (), out) ∧ fs' output = some out := by
    intro dst h
    obtain ⟨bs, e', out, h1, h2, h3, rfl⟩ := convertMain_ok ha h
    unfold readFile at hl
    rw [h1] at hl
    rw [show src.load T lossy mmap bs = .ok e from hl] at h2
    cases h2
    exact ⟨formatLoad_built hl, out, h3, if_pos rfl⟩
  constructor
  · intro h
    obtain ⟨hb, out, h1, h2⟩ := key _ h
    obtain ⟨rows, rfl, h3, h4⟩ := C38_written e hb out h1
    refine ⟨rows, h2, h3, ?_⟩
    intro i w v hv
    obtain ⟨v', h5, h6⟩ := h4 i w v hv
    have : v = v' := by
      rw [h6]
      show v'.map id = v'
      simp
    rw [this]
    exact h5
  · intro dims h
    obtain ⟨hb, out, h1, h2⟩ := key _ h
    have h1' : (writeText dims e [32]).file = (.ok (), out) := by
      cases dims
      · exact h1
      · exact h1
    obtain ⟨rows, rfl, h3, h4⟩ := C40_written dims e hb [32] out h1'
    exact ⟨rows, h2, h3, h4⟩

/-- A finalfusion file with words of the word2vec format, converted to word2vec and loaded as
such: same words, and the original vectors normalised. -/
theorem C52_through_word2vec [TextIO] [Remap] (T : Toml) (src : Format) (input output : PyStr) (lossy mmap : Bool)
    (fs : FS) (ha : NotOnto src mmap input output) (e : Embeddings F32)
    (hl : readFile input (src.load T lossy mmap) fs = .ok e)
    (hc : CodesOk e.storage) (hw : ∀ w ∈ e.vocab.words, W2vWord w)
    (hs : ShapeOk e.vocab.words.length e.storage.nCols)
    (hsz : (w2vFile e.storage.nCols
      (e.vocab.words.map fun w => (w, List.replicate e.storage.nCols 0))).length < 2 ^ 63) :
    ∃ fs' e' vs, convertMain T src .word2vec input output lossy mmap fs = (.ok (), fs') ∧
      readFile output (Format.load T .word2vec lossy mmap) fs' = .ok e' ∧
      ExportedAll e vs ∧ Normalized e.storage.nCols e.vocab.words vs e' := by
  unfold readFile at hl
  cases hb : fs input with
  | none => rw [hb] at hl; cases hl
  | some bs =>
    simp only [hb] at hl
    obtain ⟨vs, out, e', h1, h2, h3, h4⟩ := C38_bit_exact lossy e (formatLoad_built hl) hc hw hs hsz
    refine ⟨_, e', vs, convertMain_of (dst := .word2vec) ha hb hl h2, ?_, h1, h4⟩
    unfold readFile
    simp only [if_pos]
    exact h3

end

/-! ### The hypotheses can be met -/

/-- A word2vec file with two words becomes a finalfusion file. -/
example [r : Remap] : ∃ fs' e', @convertMain Sample.f32Ops Sample.f32Text Sample.textIO r Sample.toml .word2vec .finalfusion [97] [98]
      false false (fun _ => some (w2vFile 2 [([97], [7, 14]), ([0xDF], [24, 32])])) = (.ok (), fs') ∧
    readFile [98] (@Format.load Sample.f32Ops Sample.f32Text Sample.textIO Sample.toml .finalfusion false false) fs' = .ok e' ∧
    @Normalized F32 Sample.f32Ops 2 [[97], [0xDF]] [[7, 14], [24, 32]] e' :=
  @C52_word2vec Sample.f32Ops Sample.f32Text Sample.textIO r Sample.toml [97] [98] false false _ 2
    [([97], [7, 14]), ([0xDF], [24, 32])] rfl
    (by
      intro p hp
      simp only [List.mem_cons, List.not_mem_nil, or_false] at hp
      rcases hp with rfl | rfl
      · exact ⟨Sample.w2vWords _ (by decide), by decide⟩
      · exact ⟨Sample.w2vWords _ (by decide), by decide⟩)
    (by decide) (by decide) (by decide) (by decide +kernel)

/-- A finalfusion file with a subword vocabulary and norms, through word2vec. -/
example : ∃ fs e, readFile [97] (@Format.load Sample.f32Ops Sample.f32Text Sample.textIO Sample.toml .finalfusion false false) fs =
      .ok e ∧ CodesOk e.storage ∧ (∀ w ∈ e.vocab.words, W2vWord w) ∧
      ShapeOk e.vocab.words.length e.storage.nCols ∧
      (w2vFile e.storage.nCols
        (e.vocab.words.map fun w => (w, List.replicate e.storage.nCols 0))).length < 2 ^ 63 := by
  obtain ⟨bs, hbs⟩ : ∃ bs, (Sample.embBucket.write Sample.toml).file = (.ok (), bs) :=
    ⟨_, Sample.file_ok Sample.writeBucket⟩
  exact ⟨fun _ => some bs, Sample.embBucket,
    C01_roundtrip_eq Sample.toml Sample.embBucket bs Sample.builtEmbBucket Sample.tomlBucket hbs
      (fun ix h => by cases h), trivial, Sample.w2vWords, by unfold ShapeOk; decide, by decide +kernel⟩

end FF
