import Verif.Lemmas.Grow
import Verif.Model.FloatText
import Verif.Props.C59
import Verif.Props.C60
import Verif.Props.C61
import Verif.Props.C62
/-!
# C80: what is loaded is no larger than its file

Sizes of strings are counted in characters, sizes of arrays in bytes (`dataSize`).
-/

namespace FF

/-- finalfusion: all words, n-grams, vectors and norms together are no larger than the file, mapped or not. -/
theorem C80_finalfusion (T : Toml) (mmap : Bool) (bs : Bytes) (e : Embeddings F32) (hbs : bs.length + 4 < 2 ^ 63)
    (h : Rd.run (loadFinalfusion T mmap) bs = .ok e) : dataSize e ≤ bs.length :=
  Fifu.file_size ((C61_load T mmap bs e hbs).mp h)

section
variable {K : Type} [NumOps K]

/-- fastText -/
theorem C80_fasttext [Codec K] (lossy : Bool) (bs : Bytes) (hbs : bs.length < 2 ^ 63) (e : Embeddings K)
    (h : Rd.run (loadFasttext lossy) bs = .ok e) : dataSize e ≤ bs.length := by
  obtain ⟨L, f, _, rfl, hr, hf, hl⟩ := (C62_fasttext lossy bs hbs e).mp h
  have h1 := ftLoaded_size hl
  have h2 := ftLayout_size hr hf
  rw [List.length_map] at h1
  omega

/-- word2vec: of several vectors, all but the last one are in the file.
(Missing: files with a single vector, see `C80_word2vec_refuted`.) -/
theorem C80_word2vec_partial [Codec K] (lossy : Bool) (bs : Bytes) (e : Embeddings K)
    (h : Rd.run (loadWord2vec lossy) bs = .ok e) (h1 : e.storage.nRows ≠ 1) : dataSize e ≤ 4 * bs.length := by
  obtain ⟨cols, body, rs, ⟨line, _, _, hbody⟩, hb, _, _, hn⟩ := (C60_word2vec lossy bs e).mp h
  obtain ⟨h2, h3⟩ := w2vBody_size hb
  obtain ⟨_, _, h4, h5⟩ := normalized_size hn (by
    intro v hv
    obtain ⟨p, hp, rfl⟩ := List.mem_map.mp hv
    rw [List.length_map]
    exact h3 p hp)
  rw [List.length_map] at h4 h5
  have hle : body.length ≤ bs.length := by
    rcases hbody with rfl | ⟨rfl, rfl⟩
    · simp only [List.length_append, List.length_cons]
      omega
    · simp
  have h6 : rs.length * cols ≤ 2 * ((rs.length - 1) * cols) := by
    rw [h4] at h1
    rcases Nat.eq_zero_or_pos rs.length with h0 | h0
    · rw [h0]; simp
    · obtain ⟨m, hm⟩ := Nat.exists_eq_add_of_le (show 2 ≤ rs.length by omega)
      rw [hm, show 2 + m - 1 = m + 1 from by omega, ← Nat.mul_assoc]
      exact Nat.mul_le_mul_right _ (by omega)
  omega

/-- word2vec: 32 bytes are enough for a matrix of any size, since the only vector may consist of one number that is
repeated. -/
theorem C80_word2vec_refuted [Codec K] (lossy : Bool) (n : Nat) (h2 : 2 ≤ n) (hn : 4 * n < 2 ^ 63) :
    ∃ (bs : Bytes) (e : Embeddings K), bs.length ≤ 32 ∧ Rd.run (loadWord2vec lossy) bs = .ok e ∧
      arrayBytes e.storage = 4 * n := by
  have hw : W2vKey lossy [97] [97] := by
    refine ⟨by decide, [97], decodeLossy_iff.mp ?_, stripped_iff.mp (by decide)⟩
    cases lossy <;> rfl
  have hb : W2vBody lossy n ([97] ++ 32 :: (f32sLE [0] ++ [])) [([97], List.replicate n (0 : F32))] :=
    .one hw h2 (by simp)
  have hlen : (utf8 (decimal 1 ++ [32] ++ decimal n)).length ≤ 21 := by
    rw [ascii_length fun c hc => (dims_ascii 1 n c hc).1]
    have := decimal_short hn
    have : decimal 1 = [49] := by decide +kernel
    rw [this]
    simp only [List.length_append, List.length_cons, List.length_nil]
    omega
  have hnorm : Normalized n [([97] : PyStr)] [(List.replicate n (0 : F32)).map Codec.ofBits]
      (w2vResult n [([97], (List.replicate n (0 : F32)).map (Codec.ofBits (K := K)))]) :=
    w2vResult_normalized (by simp)
  refine ⟨utf8 (decimal 1 ++ [32] ++ decimal n) ++ 10 :: ([97] ++ 32 :: (f32sLE [0] ++ [])), _, ?_,
    (C60_word2vec lossy _ _).mpr ⟨n, _, _, ⟨_, fun c hc => ⟨(dims_ascii 1 n c hc).1, (dims_ascii 1 n c hc).2.1⟩,
      by exact dimsAre_decimal 1 n, .inl rfl⟩, hb, by simp, ?_, hnorm⟩, ?_⟩
  · simp only [List.length_append, List.length_cons, List.length_nil, length_f32sLE]
    omega
  · unfold ShapeOk
    simp only [List.length_cons, List.length_nil]
    rw [show max 1 (0 + 1) = 1 from rfl, Nat.one_mul]
    omega
  · have := (normalized_size hnorm (by simp)).2.1
    rw [this]
    simp

section
variable [NumText K]

/-- Text: every line and every component of the first one take some bytes, so that the size of the matrix is at most
quadratic. -/
theorem C80_text [TextIO] (lossy : Bool) (bs : Bytes) (e : Embeddings K) (h : loadText lossy bs = .ok e) :
    arrayBytes e.storage ≤ 2 * bs.length ^ 2 := by
  obtain ⟨text, first, w0, ps0, lines, rs, h1, h2, h3, h4, _, _, hn⟩ := (C59_text lossy bs e).mp h
  obtain ⟨i1, i2, i3⟩ := readsAs_chars h4
  obtain ⟨_, h5, _⟩ := normalized_size hn (by
    intro v hv
    obtain ⟨p, hp, rfl⟩ := List.mem_map.mp hv
    exact i3 p hp)
  have j1 := splitLines_size h2
  have j2 := decodesTo_length h1
  have j3 := hasFields_length h3
  rw [charsOf_cons] at j1
  simp only [List.length_cons] at j1
  rw [h5, List.length_map, i1]
  have k1 : (first :: lines).length ≤ bs.length := by simp only [List.length_cons]; omega
  have k2 : 2 * ps0.length ≤ bs.length := by omega
  calc 4 * ((first :: lines).length * ps0.length) = 2 * ((first :: lines).length * (2 * ps0.length)) := by ring
    _ ≤ 2 * (bs.length * bs.length) := Nat.mul_le_mul_left _ (Nat.mul_le_mul k1 k2)
    _ = 2 * bs.length ^ 2 := by ring

/-- Text files in which every line has all of its components.
(Missing: lines with a single component that is repeated, see `C80_text_refuted`.) -/
theorem C80_text_partial [TextIO] (lossy : Bool) (bs : Bytes) (e : Embeddings K) (h : loadText lossy bs = .ok e)
    (text first w0 : PyStr) (ps0 lines : List PyStr) (ht : DecodesTo lossy bs text)
    (hl : SplitLines text (first :: lines)) (h0 : HasFields first w0 ps0)
    (hf : ∀ l ∈ lines, ∃ w ps, HasFields l w ps ∧ ps.length = ps0.length) : dataSize e ≤ 4 * (bs.length + 1) := by
  obtain ⟨text', first', w0', ps0', lines', rs, h1, h2, h3, h4, _, _, hn⟩ := (C59_text lossy bs e).mp h
  have ht' : text' = text := by
    have a1 := decodeLossy_iff.mpr h1
    have a2 := decodeLossy_iff.mpr ht
    rw [a1] at a2
    exact Except.ok.inj a2
  subst ht'
  cases splitLines_unique h2 hl
  obtain ⟨rfl, rfl⟩ := fields_same h3 h0
  obtain ⟨i1, i2, i3⟩ := readsAs_chars h4
  have i4 := readsAs_full h4 (by
    intro l hl
    rcases List.mem_cons.mp hl with rfl | hl
    · exact ⟨_, _, h3, rfl⟩
    · exact hf l hl) fun _ _ _ _ _ => fields_same
  obtain ⟨_, _, _, h5⟩ := normalized_size hn (by
    intro v hv
    obtain ⟨p, hp, rfl⟩ := List.mem_map.mp hv
    exact i3 p hp)
  have j1 := splitLines_size h2
  have j2 := decodesTo_length h1
  rw [List.length_map, i1] at h5
  omega

/-- Text files with dimensions in which every line that is read has as many components as the first line says.
(Missing: lines with a single component that is repeated, see `C80_dims_refuted`.) -/
theorem C80_dims_partial [TextIO] (lossy : Bool) (bs : Bytes) (e : Embeddings K) (h : loadTextDims lossy bs = .ok e)
    (first : PyStr) (lines : List PyStr) (hy : YieldsFirst lossy bs (first :: lines))
    (hr : lines.length = e.storage.nRows)
    (hf : ∀ l ∈ lines, ∃ w ps, HasFields l w ps ∧ ps.length = e.storage.nCols) :
    dataSize e ≤ 4 * (bs.length + 1) := by
  obtain ⟨first', cols, lines', rs, h1, h2, h3, _, _, hn⟩ := (C59_dims lossy bs e).mp h
  obtain ⟨i1, i2, i3⟩ := readsAs_chars h3
  have hc : e.storage.nCols = cols := by
    obtain ⟨_, _, _, _, _, rows, h4, _⟩ := hn
    rw [h4]
    rfl
  have hrows : e.storage.nRows = rs.length := by
    obtain ⟨_, _, _, _, _, rows, h4, h5, _⟩ := hn
    rw [h4]
    exact h5.trans (List.length_map _)
  have hsame : lines = lines' := by
    obtain ⟨rest, stop, g1⟩ := yieldsFirst_iff.mp hy
    obtain ⟨rest', stop', g2⟩ := yieldsFirst_iff.mp h1
    have := (yields_unique g1 g2).1
    exact (List.cons.inj (List.append_inj this (by
      simp only [List.length_cons]
      rw [hr, hrows, ← i1])).1).2
  subst hsame
  have i4 := readsAs_full h3 (fun l hl => by
    have := hf l hl
    rwa [hc] at this) fun _ _ _ _ _ => fields_same
  obtain ⟨_, _, _, h5⟩ := normalized_size hn (by
    intro v hv
    obtain ⟨p, hp, rfl⟩ := List.mem_map.mp hv
    exact i3 p hp)
  have j1 := yieldsFirst_size h1
  rw [charsOf_cons] at j1
  simp only [List.length_cons] at j1
  rw [List.length_map, i1] at h5
  omega

/-- Text with dimensions: 32 bytes are enough for a matrix of any size. -/
theorem C80_dims_refuted [TextIO] (lossy : Bool) (x : K) (hx : NumText.parse [49] = .ok x) (n : Nat) (hn0 : 0 < n)
    (hn : 4 * n < 2 ^ 63) :
    ∃ (bs : Bytes) (e : Embeddings K), bs.length ≤ 32 ∧ loadTextDims lossy bs = .ok e ∧
      arrayBytes e.storage = 4 * n := by
  let ls : List PyStr := [decimal 1 ++ [32] ++ decimal n, onesLine 1 1]
  have hnb : ∀ l ∈ ls, NoBreak l := by
    intro l hl c hc
    rcases List.mem_cons.mp hl with rfl | hl
    · exact (dims_ascii 1 n c hc).2
    · rw [List.mem_singleton.mp hl] at hc
      have := onesLine_chars _ _ c hc
      omega
  have has : ∀ c ∈ linesText ls, c.val < 128 := linesText_ascii fun l hl c hc => by
    rcases List.mem_cons.mp hl with rfl | hl
    · exact (dims_ascii 1 n c hc).1
    · rw [List.mem_singleton.mp hl] at hc
      have := onesLine_chars _ _ c hc
      omega
  have hnorm : Normalized n [(List.replicate 1 97 : PyStr)] [List.replicate n x]
      (w2vResult n [((List.replicate 1 97 : PyStr), List.replicate n x)]) :=
    w2vResult_normalized (by simp)
  refine ⟨utf8 (linesText ls), _, ?_, (C59_dims lossy _ _).mpr ⟨decimal 1 ++ [32] ++ decimal n, n, [onesLine 1 1],
    [(List.replicate 1 97, List.replicate n x)], .inl ⟨_, [], ascii_decodes lossy has, linesText_split hnb⟩,
    by exact dimsAre_decimal 1 n, .cons (onesLine_reads hx 1 (by omega) (.inr rfl)) .nil, by simp, ?_, hnorm⟩, ?_⟩
  · rw [ascii_length has]
    have h1 := decimal_short hn
    have h2 : decimal 1 = [49] := by decide +kernel
    have h3 := onesLine_length 1 1
    simp only [linesText, ls, List.flatMap_cons, List.flatMap_nil, List.length_append, List.length_cons,
      List.length_nil, h2]
    omega
  · unfold ShapeOk
    simp only [List.length_cons, List.length_nil]
    rw [show max 1 (0 + 1) = 1 from rfl, Nat.one_mul]
    omega
  · have := (normalized_size hnorm (by simp)).2.1
    rw [this]
    simp

/-- Text: what is loaded may be 100000 times as large as the file, and any lesser factor occurs, too. -/
theorem C80_text_refuted [TextIO] (lossy : Bool) (x : K) (hx : NumText.parse [49] = .ok x) (f : Nat)
    (hf : f ≤ 100000) :
    ∃ (bs : Bytes) (e : Embeddings K), loadText lossy bs = .ok e ∧ f * bs.length < arrayBytes e.storage := by
  obtain ⟨r, hr⟩ : ∃ r, r = 2 * f + 1 := ⟨_, rfl⟩
  obtain ⟨cols, hcols⟩ : ∃ c, c = (r + 5) * (r + 1) := ⟨_, rfl⟩
  have hc1 : 1 ≤ cols := by rw [hcols]; exact Nat.mul_pos (by omega) (by omega)
  let first := onesLine 1 cols
  let lines := (List.range r).map fun i => onesLine (i + 2) 1
  let rs : List (PyStr × List K) := (List.replicate 1 97, List.replicate cols x) ::
    (List.range r).map fun i => (List.replicate (i + 2) 97, List.replicate cols x)
  have hline : ∀ l ∈ first :: lines, ∃ n k, l = onesLine n k := by
    intro l hl
    rcases List.mem_cons.mp hl with rfl | hl
    · exact ⟨_, _, rfl⟩
    · obtain ⟨i, _, rfl⟩ := List.mem_map.mp hl
      exact ⟨_, _, rfl⟩
  have hnb : ∀ l ∈ first :: lines, NoBreak l := by
    intro l hl c hc
    obtain ⟨n, k, rfl⟩ := hline l hl
    have := onesLine_chars _ _ c hc
    omega
  have has : ∀ c ∈ linesText (first :: lines), c.val < 128 := linesText_ascii fun l hl c hc => by
    obtain ⟨n, k, rfl⟩ := hline l hl
    have := onesLine_chars _ _ c hc
    omega
  have hreads : List.Forall₂ (ReadsAs cols) (first :: lines) rs := by
    refine .cons (onesLine_reads hx 1 (by omega) (.inl rfl)) ?_
    rw [List.forall₂_map_left_iff, List.forall₂_map_right_iff]
    exact List.forall₂_same.mpr fun i _ => onesLine_reads hx (i + 2) (by omega) (.inr rfl)
  have hfst : rs.map Prod.fst = List.replicate 1 97 :: (List.range r).map fun i => List.replicate (i + 2) 97 := by
    simp [rs]
  have hnd : (rs.map Prod.fst).Nodup := by
    rw [hfst]
    refine List.nodup_cons.mpr ⟨?_, ?_⟩
    · intro h
      obtain ⟨i, _, hi⟩ := List.mem_map.mp h
      have := congrArg List.length hi
      simp at this
    · refine List.Nodup.map ?_ List.nodup_range
      intro i j hij
      have := congrArg List.length hij
      simpa using this
  have hlen : rs.length = r + 1 := by simp [rs]
  have hnorm : Normalized cols (rs.map Prod.fst) (rs.map Prod.snd) (w2vResult cols rs) := w2vResult_normalized hnd
  have hsize : (utf8 (linesText (first :: lines))).length ≤ 2 * cols + 2 + r * (r + 5) := by
    rw [ascii_length has]
    simp only [linesText, List.flatMap_cons, List.length_append, List.length_flatMap]
    have h1 : first.length = 1 + 2 * cols := onesLine_length _ _
    have h2 : (lines.map fun l => l.length + ([10] : PyStr).length).sum ≤ r * (r + 5) := by
      have := List.sum_le_card_nsmul (lines.map fun l => l.length + ([10] : PyStr).length) (r + 5) (by
        intro m hm
        obtain ⟨l, hl, rfl⟩ := List.mem_map.mp hm
        obtain ⟨i, hi, rfl⟩ := List.mem_map.mp hl
        have := List.mem_range.mp hi
        rw [onesLine_length]
        simp only [List.length_cons, List.length_nil]
        omega)
      simpa [lines] using this
    simp only [List.length_cons, List.length_nil] at h2 ⊢
    omega
  have hp0 : (List.replicate cols ([49] : PyStr)).length = cols := by simp
  refine ⟨utf8 (linesText (first :: lines)), w2vResult cols rs, (C59_text lossy _ _).mpr ⟨_, first, List.replicate 1 97,
    List.replicate cols [49], lines, rs, ascii_decodes lossy has, linesText_split hnb,
    hasFields_ones _ (by intro c hc; rw [(List.mem_replicate.mp hc).2]; rfl) cols hc1, ?_, hnd, ?_, ?_⟩, ?_⟩
  · rw [hp0]; exact hreads
  · rw [hp0, hlen]
    unfold ShapeOk
    have h1 : max 1 (r + 1) * max 1 cols = (r + 1) * ((r + 5) * (r + 1)) := by
      rw [Nat.max_eq_right (by omega), Nat.max_eq_right hc1, hcols]
    have h2 : (r + 1) * ((r + 5) * (r + 1)) ≤ 200002 * (200006 * 200002) :=
      Nat.mul_le_mul (by omega) (Nat.mul_le_mul (by omega) (by omega))
    rw [h1]
    omega
  · rw [hp0]; exact hnorm
  · have h1 := (normalized_size hnorm (by
      intro v hv
      obtain ⟨p, hp, rfl⟩ := List.mem_map.mp hv
      rcases List.mem_cons.mp hp with rfl | hp
      · simp
      · obtain ⟨i, _, rfl⟩ := List.mem_map.mp hp
        simp)).2.1
    rw [h1, List.length_map, hlen]
    have h2 : r * (r + 5) ≤ cols := by
      rw [hcols, Nat.mul_comm]
      exact Nat.mul_le_mul_left _ (by omega)
    have h3 : (utf8 (linesText (first :: lines))).length ≤ 5 * cols := by omega
    calc f * (utf8 (linesText (first :: lines))).length ≤ f * (5 * cols) := Nat.mul_le_mul_left _ h3
      _ < 4 * ((r + 1) * cols) := by
        rw [hr]
        nlinarith

end

end

/-- The numeral is one for float32. -/
example : @NumText.parse F32 b32Text [49] = .ok 0x3F800000 := by decide +kernel

namespace Sample

/-- `a 1 2` and `c 4 5` -/
def fullText : PyStr := [97, 32, 49, 32, 50, 10, 99, 32, 52, 32, 53, 10]

/-- A word and a number: 5 of 76 bytes -/
example : ∃ e, Rd.run (loadFinalfusion toml true) oddFile = .ok e ∧ 0 < dataSize e ∧ dataSize e ≤ oddFile.length :=
  have h := (C61_load toml true oddFile oddEmb (by decide)).mpr oddFile_file
  ⟨_, h, by decide +kernel, C80_finalfusion toml true oddFile oddEmb (by decide) h⟩

example : ∃ e : Embeddings F32, Rd.run (@loadFasttext F32 f32Ops _ true) ftOdd.bytes = .ok e ∧
    dataSize e ≤ ftOdd.bytes.length := by
  obtain ⟨e, h⟩ := @C62_loads F32 f32Ops _ true _ _ ftOdd_fits (by decide +kernel) ftOdd_reads ftOddFile_ok
  exact ⟨e, h, @C80_fasttext F32 f32Ops _ true _ (by decide +kernel) e h⟩

/-- Two vectors -/
example : (match Rd.run (@loadWord2vec F32 f32Ops _ false) oddW2v with
    | .ok e => some e.storage.nRows
    | .error _ => none) = some 2 := by decide +kernel

/-- A line with one component of two, and lines with all of them -/
example : (match @loadText F32 f32Ops f32Text textIO false (utf8 mixedText) with
    | .ok e => some (arrayBytes e.storage)
    | .error _ => none) = some 24 := by decide +kernel

/-- The lines `1 2`, `a 1 2` and one that is not read -/
example : ∃ e : Embeddings F32, @loadTextDims F32 f32Ops f32Text textIO false (utf8 extraText) = .ok e ∧
    dataSize e ≤ 4 * ((utf8 extraText).length + 1) := by
  have hy : @YieldsFirst textIO false (utf8 extraText) [[32, 49, 32, 32, 50], [97, 32, 49, 32, 50]] :=
    .inl ⟨extraText, [[120]], utf8Text_iff.mpr ⟨rfl, by decide⟩,
      .lf (l := [32, 49, 32, 32, 50]) (noBreak (by decide))
        (.lf (l := [97, 32, 49, 32, 50]) (noBreak (by decide))
          (.last (noBreak (by decide)) (by decide)))⟩
  have hl : ∀ l ∈ ([[97, 32, 49, 32, 50]] : List PyStr), ∃ w ps, HasFields l w ps ∧ ps.length = 2 := by
    intro l hl
    rw [List.mem_singleton.mp hl]
    exact ⟨_, _, hasFields_check [97] [([32], [49]), ([32], [50])] [] (by decide), rfl⟩
  cases h : @loadTextDims F32 f32Ops f32Text textIO false (utf8 extraText) with
  | error x =>
    exfalso
    have : (match @loadTextDims F32 f32Ops f32Text textIO false (utf8 extraText) with
      | .ok _ => true | .error _ => false) = true := by decide +kernel
    rw [h] at this
    cases this
  | ok e =>
    have : (match @loadTextDims F32 f32Ops f32Text textIO false (utf8 extraText) with
      | .ok e => decide (e.storage.nRows = 1 ∧ e.storage.nCols = 2) | .error _ => false) = true := by decide +kernel
    rw [h] at this
    obtain ⟨h1, h2⟩ := of_decide_eq_true this
    exact ⟨e, rfl, @C80_dims_partial F32 f32Ops f32Text textIO false _ e h _ _ hy h1.symm (by rw [h2]; exact hl)⟩

/-- Lines with all components -/
example : ∃ e : Embeddings F32, @loadText F32 f32Ops f32Text textIO false (utf8 fullText) = .ok e ∧
    dataSize e ≤ 4 * ((utf8 fullText).length + 1) := by
  cases h : @loadText F32 f32Ops f32Text textIO false (utf8 fullText) with
  | error x =>
    exfalso
    have : (match @loadText F32 f32Ops f32Text textIO false (utf8 fullText) with
      | .ok _ => true | .error _ => false) = true := by decide +kernel
    rw [h] at this
    cases this
  | ok e =>
    refine ⟨e, rfl, @C80_text_partial F32 f32Ops f32Text textIO false _ e h fullText [97, 32, 49, 32, 50] [97]
      [[49], [50]] [[99, 32, 52, 32, 53]] (utf8Text_iff.mpr ⟨rfl, by decide⟩)
      (.lf (l := [97, 32, 49, 32, 50]) (noBreak (by decide)) (.lf (l := [99, 32, 52, 32, 53]) (noBreak (by decide)) .nil))
      (hasFields_check [97] [([32], [49]), ([32], [50])] [] (by decide)) ?_⟩
    intro l hl
    rw [List.mem_singleton.mp hl]
    exact ⟨_, _, hasFields_check [99] [([32], [52]), ([32], [53])] [] (by decide), rfl⟩

end Sample

end FF
