import Verif.Lemmas.TextFile
import Verif.Lemmas.Utf8Lossy
import Verif.Props.C41
/-! C59: which text files load, and as what. -/

namespace FF

/-- Every text has exactly one division into lines. -/
theorem C59_lines (text : PyStr) : ∃! ls, SplitLines text ls := by
  obtain ⟨ls, h⟩ := splitLines_total text
  exact ⟨ls, h, fun ms hm => splitLines_unique hm h⟩

section
variable {K : Type} [NumText K]

theorem readsAs_iff {cols : Nat} {line : PyStr} {r : PyStr × List K} :
    textRow cols line = .ok r ↔ ReadsAs cols line r := by
  obtain ⟨⟨w, ps⟩, hf, huniq⟩ := C41_fields line
  simp only at hf
  have hm : ∀ {qs : List PyStr} {xs : List K}, mapRes NumText.parse qs = .ok xs ↔
      List.Forall₂ (fun p x => NumText.parse p = .ok x) qs xs := by
    intro qs
    induction qs with
    | nil =>
      intro xs
      constructor
      · intro h; cases h; exact .nil
      · intro h; cases h; rfl
    | cons q qs ih =>
      intro xs
      constructor
      · intro h
        rw [mapRes] at h
        cases h1 : NumText.parse (K := K) q with
        | error e => rw [h1] at h; cases h
        | ok x =>
          rw [h1, res_bind_ok] at h
          cases h2 : mapRes (NumText.parse (K := K)) qs with
          | error e => rw [h2] at h; cases h
          | ok ys =>
            rw [h2, res_bind_ok] at h
            cases h
            exact .cons h1 (ih.mp h2)
      · intro h
        cases h with
        | cons h1 h2 => rw [mapRes, h1, res_bind_ok, ih.mpr h2]; rfl
  have hr : textRow (K := K) cols line = (mapRes NumText.parse ps).bind fun xs =>
      (assignRow cols xs).bind fun row => .ok (w, row) := by
    unfold textRow
    rw [reSplit_fields hf]
    rfl
  rw [hr]
  constructor
  · intro h
    cases hx : mapRes (NumText.parse (K := K)) ps with
    | error e => rw [hx] at h; cases h
    | ok xs =>
      rw [hx] at h
      cases ha : assignRow cols xs with
      | error e => simp only [Except.bind, ha] at h; cases h
      | ok row =>
        simp only [Except.bind, ha] at h
        cases h
        refine ⟨ps, xs, hf, hm.mp hx, ?_⟩
        unfold assignRow at ha
        by_cases hl : xs.length = cols
        · rw [if_pos hl] at ha
          cases ha
          exact ⟨hl, Or.inl rfl⟩
        · rw [if_neg hl] at ha
          split at ha
          · cases ha
            exact ⟨by simp, Or.inr ⟨_, rfl, rfl⟩⟩
          · cases ha
  · rintro ⟨qs, xs, hq, hx, hl, hv⟩
    have he := huniq (r.1, qs) hq
    cases he
    rw [hm.mpr hx]
    show (assignRow cols xs).bind _ = _
    have : assignRow cols xs = .ok r.2 := by
      unfold assignRow
      rcases hv with hv | ⟨x, rfl, hv⟩
      · rw [hv] at hl
        rw [if_pos hl, hv]
      · by_cases h1 : ([x] : List K).length = cols
        · rw [if_pos h1, hv, ← h1]
          rfl
        · rw [if_neg h1, hv]
    rw [this]
    rfl

variable [NumOps K]

omit [NumText K] in
theorem normalized_unique {cols : Nat} {words : List PyStr} {vs : List (List K)} {e e' : Embeddings K}
    (h : Normalized cols words vs e) (h' : Normalized cols words vs e') : e = e' := by
  have hr : ∀ {rows rows' : List (List K)}, rows.length = vs.length → rows'.length = vs.length →
      (∀ (i : Nat) v, vs[i]? = some v → rows[i]? = some (v.map fun x => NumOps.div x (NumOps.normAxis v))) →
      (∀ (i : Nat) v, vs[i]? = some v → rows'[i]? = some (v.map fun x => NumOps.div x (NumOps.normAxis v))) →
      rows = rows' := by
    intro rows rows' l1 l2 h1 h2
    refine List.ext_getElem? fun i => ?_
    by_cases hi : i < vs.length
    · rw [h1 i _ (List.getElem?_eq_getElem hi), h2 i _ (List.getElem?_eq_getElem hi)]
    · rw [List.getElem?_eq_none (by omega), List.getElem?_eq_none (by omega)]
  obtain ⟨s, ⟨ws, ix, sub⟩, n, m⟩ := e
  obtain ⟨s', ⟨ws', ix', sub'⟩, n', m'⟩ := e'
  obtain ⟨a1, a2, a3, a4, a5, rows, a6, a7, a8⟩ := h
  obtain ⟨b1, b2, b3, b4, b5, rows', b6, b7, b8⟩ := h'
  simp only at a1 a2 a4 a5 a6 b1 b2 b4 b5 b6
  subst a1 a2 a4 a5 a6 b1 b2 b4 b5 b6
  have hi := Vocab.new_ok.mp a3.2
  have hi' := Vocab.new_ok.mp b3.2
  have e1 := hi.2.trans hi'.2.symm
  simp only at e1
  rw [hr a7 b7 a8 b8, e1]

/-- `load_text` returns embeddings exactly if the file is UTF-8 (or
`lossy` is set, see `DecodesTo`), there is a first line, every line
reads as a word and a vector with as many components as the first line has (a single component
counting as repeated), the words are distinct and the matrix can be allocated.  What it returns
are these words and vectors, normalised.  Line ends may be `\n`, `\r\n` or `\r`, fields may be
separated and followed by any whitespace. -/
theorem C59_text [TextIO] (lossy : Bool) (bs : Bytes) (e : Embeddings K) :
    loadText lossy bs = .ok e ↔
      ∃ (text first w0 : PyStr) (ps0 lines : List PyStr) (rs : List (PyStr × List K)),
        DecodesTo lossy bs text ∧
        SplitLines text (first :: lines) ∧ HasFields first w0 ps0 ∧
        List.Forall₂ (ReadsAs ps0.length) (first :: lines) rs ∧
        (rs.map Prod.fst).Nodup ∧ ShapeOk rs.length ps0.length ∧
        Normalized ps0.length (rs.map Prod.fst) (rs.map Prod.snd) e := by
  constructor
  · intro h
    cases hd : decodeLossy lossy bs with
    | error er =>
      obtain ⟨ls, stop, hy⟩ := yields_total lossy bs
      rw [loadText_yields hy] at h
      rcases hy with ⟨text, hd', _⟩ | ⟨_, _, rfl, _⟩
      · rw [decodeLossy_iff.mpr hd'] at hd
        cases hd
      · cases h
    | ok text =>
      obtain ⟨ls, hs⟩ := splitLines_total text
      rw [loadText_split hd hs] at h
      cases ls with
      | nil => cases h
      | cons first lines =>
        simp only at h
        obtain ⟨⟨w0, ps0⟩, hf, _⟩ := C41_fields first
        simp only at hf
        rw [reSplit_fields hf] at h
        obtain ⟨rs, c, h1, h2, h3, h4, h5, h6, rfl⟩ := loadTextLines_iff.mp h
        simp only [List.length_cons, Nat.add_sub_cancel] at h2
        have hc : c = ps0.length := by omega
        have hl : rs.length = (first :: lines).length := by
          rw [List.length_cons]; omega
        subst hc
        rw [hl, List.take_length] at h5
        refine ⟨text, first, w0, ps0, lines, rs, decodeLossy_iff.mp hd, hs, hf, ?_, h6, h4,
          w2vResult_normalized h6⟩
        exact h5.imp fun _ _ => readsAs_iff.mp
  · rintro ⟨text, first, w0, ps0, lines, rs, hdec, hs, hf, hr, hn, hsh, he⟩
    rw [loadText_split (decodeLossy_iff.mpr hdec) hs]
    simp only
    rw [reSplit_fields hf]
    have hl := hr.length_eq
    rw [normalized_unique he (w2vResult_normalized hn)]
    refine loadTextLines_iff.mpr ⟨rs, ps0.length, ?_, rfl, by simp only; omega, hsh, ?_, hn, rfl⟩
    · rw [← hl]; rfl
    · rw [← hl, List.take_length]
      exact hr.imp fun _ _ => readsAs_iff.mpr

/-- `load_text_dims` returns embeddings exactly if the first line consists of
two integers `rows` and `cols`, at least `rows` further lines follow, the first `rows` of them read
as words and vectors of length `cols`, these words are distinct and the matrix can be allocated.
Lines after that are ignored.  The file must be UTF-8 (unless `lossy` is set), but only as far as it is read:
it is enough that the lines are complete in pieces before the first one that has malformed bytes
(see `YieldsFirst`). -/
theorem C59_dims [TextIO] (lossy : Bool) (bs : Bytes) (e : Embeddings K) :
    loadTextDims lossy bs = .ok e ↔
      ∃ (first : PyStr) (cols : Nat) (lines : List PyStr) (rs : List (PyStr × List K)),
        YieldsFirst lossy bs (first :: lines) ∧ DimsAre first (lines.length : Int) (cols : Int) ∧
        List.Forall₂ (ReadsAs cols) lines rs ∧
        (rs.map Prod.fst).Nodup ∧ ShapeOk rs.length cols ∧
        Normalized cols (rs.map Prod.fst) (rs.map Prod.snd) e := by
  constructor
  · intro h
    obtain ⟨ls, stop, hy⟩ := yields_total lossy bs
    rw [loadTextDims_yields hy] at h
    cases ls with
    | nil => cases stop <;> cases h
    | cons first lines =>
      simp only at h
      cases ht : twoInts first with
      | error er => rw [ht] at h; cases h
      | ok dims =>
        rw [ht] at h
        obtain ⟨rs, c, h1, h2, h3, h4, h5, h6, rfl⟩ := loadTextLines_iff.mp h
        obtain ⟨r, c'⟩ := dims
        simp only at h1 h2 h3 h5
        subst h1 h2
        refine ⟨first, c, lines.take rs.length, rs,
          yieldsFirst_iff.mpr ⟨lines.drop rs.length, stop, ?_⟩, ?_, ?_, h6, h4, w2vResult_normalized h6⟩
        · rw [List.cons_append, List.take_append_drop]; exact hy
        · rw [List.length_take, min_eq_left h3]; exact twoInts_iff.mp ht
        · exact h5.imp fun _ _ => readsAs_iff.mp
  · rintro ⟨first, cols, lines, rs, hy, hd, hr, hn, hsh, he⟩
    obtain ⟨rest, stop, hy⟩ := yieldsFirst_iff.mp hy
    rw [loadTextDims_yields hy, List.cons_append]
    simp only
    rw [twoInts_iff.mpr hd, normalized_unique he (w2vResult_normalized hn)]
    have hl := hr.length_eq
    refine loadTextLines_iff.mpr ⟨rs, cols, by rw [hl], rfl, by
      simp only [List.length_append]; omega, hsh, ?_, hn, rfl⟩
    rw [← hl]
    simp only
    rw [List.take_left']
    · exact hr.imp fun _ _ => readsAs_iff.mpr
    · rfl

/-- Only the division into lines matters, not how the lines end: same result or same exception. -/
theorem C59_line_ends [TextIO] (lossy : Bool) (text text' : PyStr) (ls : List PyStr)
    (h : SplitLines text ls) (h' : SplitLines text' ls)
    (hs : ∀ c ∈ text, c.val < 0xD800 ∨ 0xDFFF < c.val)
    (hs' : ∀ c ∈ text', c.val < 0xD800 ∨ 0xDFFF < c.val) :
    (loadText lossy (utf8 text) : Res (Embeddings K)) = loadText lossy (utf8 text') ∧
    (loadTextDims lossy (utf8 text) : Res (Embeddings K)) = loadTextDims lossy (utf8 text') := by
  have d := decodeLossy_utf8 lossy (any_surrogate.mpr hs)
  have d' := decodeLossy_utf8 lossy (any_surrogate.mpr hs')
  exact ⟨by rw [loadText_split d h, loadText_split d' h'],
    by rw [loadTextDims_split d h, loadTextDims_split d' h']⟩

end

namespace Sample

/-- `a 1 2`, `b  3 \t` and `c 4 5`, ended by `\r\n`, `\r` and nothing -/
def mixedText : PyStr := [97, 32, 49, 32, 50, 13, 10, 98, 32, 32, 51, 32, 9, 13, 99, 32, 52, 32, 53]

/-- The same with `\n` -/
def plainText : PyStr := [97, 32, 49, 32, 50, 10, 98, 32, 32, 51, 32, 9, 10, 99, 32, 52, 32, 53, 10]

theorem mixed_lines : SplitLines mixedText
    [[97, 32, 49, 32, 50], [98, 32, 32, 51, 32, 9], [99, 32, 52, 32, 53]] :=
  .crlf (l := [97, 32, 49, 32, 50]) (noBreak (by decide))
    (.cr (l := [98, 32, 32, 51, 32, 9]) (noBreak (by decide)) (by decide)
      (.last (noBreak (by decide)) (by decide)))

theorem plain_lines : SplitLines plainText
    [[97, 32, 49, 32, 50], [98, 32, 32, 51, 32, 9], [99, 32, 52, 32, 53]] :=
  .lf (l := [97, 32, 49, 32, 50]) (noBreak (by decide))
    (.lf (l := [98, 32, 32, 51, 32, 9]) (noBreak (by decide))
      (.lf (l := [99, 32, 52, 32, 53]) (noBreak (by decide)) .nil))

example : @loadText F32 f32Ops f32Text textIO false (utf8 mixedText) =
    @loadText F32 f32Ops f32Text textIO false (utf8 plainText) :=
  (@C59_line_ends F32 f32Text f32Ops textIO false mixedText plainText _ mixed_lines plain_lines
    (any_surrogate.mp (by decide)) (any_surrogate.mp (by decide))).1

example : normsOf (@loadText F32 f32Ops f32Text textIO false (utf8 mixedText)) = some [3, 6, 9] := by
  decide +kernel

/-- `b  3 \t` stands for a vector of two components. -/
example : @ReadsAs F32 f32Text 2 [98, 32, 32, 51, 32, 9] ([98], [3, 3]) :=
  ⟨[[51]], [3], hasFields_check [98] [([32, 32], [51])] [32, 9] (by decide),
    .cons (by decide +kernel) .nil, rfl, Or.inr ⟨3, rfl, rfl⟩⟩

example : ∃ e, @loadText F32 f32Ops f32Text textIO false (utf8 mixedText) = .ok e :=
  ⟨_, (@C59_text F32 f32Text f32Ops textIO false (utf8 mixedText) _).mpr
    ⟨mixedText, [97, 32, 49, 32, 50], [97], [[49], [50]],
      [[98, 32, 32, 51, 32, 9], [99, 32, 52, 32, 53]], [([97], [1, 2]), ([98], [3, 3]), ([99], [4, 5])],
      utf8Text_iff.mpr ⟨rfl, by decide⟩, mixed_lines,
      hasFields_check [97] [([32], [49]), ([32], [50])] [] (by decide),
      .cons ⟨[[49], [50]], [1, 2], hasFields_check [97] [([32], [49]), ([32], [50])] [] (by decide),
          .cons (by decide +kernel) (.cons (by decide +kernel) .nil), rfl, Or.inl rfl⟩
        (.cons ⟨[[51]], [3], hasFields_check [98] [([32, 32], [51])] [32, 9] (by decide),
            .cons (by decide +kernel) .nil, rfl, Or.inr ⟨3, rfl, rfl⟩⟩
          (.cons ⟨[[52], [53]], [4, 5], hasFields_check [99] [([32], [52]), ([32], [53])] [] (by decide),
            .cons (by decide +kernel) (.cons (by decide +kernel) .nil), rfl, Or.inl rfl⟩ .nil)),
      by decide, by unfold ShapeOk; decide, @w2vResult_normalized F32 f32Ops 2 _ (by decide)⟩⟩

/-- ` 1  2`, `a 1 2` and a line that is ignored -/
def extraText : PyStr := [32, 49, 32, 32, 50, 10, 97, 32, 49, 32, 50, 10, 120]

example : ∃ e, @loadTextDims F32 f32Ops f32Text textIO false (utf8 extraText) = .ok e :=
  ⟨_, (@C59_dims F32 f32Text f32Ops textIO false (utf8 extraText) _).mpr
    ⟨[32, 49, 32, 32, 50], 2, [[97, 32, 49, 32, 50]], [([97], [1, 2])],
      .inl ⟨extraText, [[120]], utf8Text_iff.mpr ⟨rfl, by decide⟩,
      .lf (l := [32, 49, 32, 32, 50]) (noBreak (by decide))
        (.lf (l := [97, 32, 49, 32, 50]) (noBreak (by decide))
          (.last (noBreak (by decide)) (by decide)))⟩,
      twoInts_iff.mp (by decide +kernel),
      .cons ⟨[[49], [50]], [1, 2], hasFields_check [97] [([32], [49]), ([32], [50])] [] (by decide),
          .cons (by decide +kernel) (.cons (by decide +kernel) .nil), rfl, Or.inl rfl⟩ .nil,
      by decide, by unfold ShapeOk; decide, @w2vResult_normalized F32 f32Ops 2 _ (by decide)⟩⟩

end Sample

end FF
