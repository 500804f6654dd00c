import Verif.Lemmas.W2vFile
import Verif.Props.C59
import Verif.Lemmas.Decimal
/-! C60: which word2vec files load, and as what. -/

namespace FF

section
variable {K : Type} [NumOps K] [Codec K]

theorem dimsAre_newline {line : PyStr} {rows cols : Int} (hn : ∀ c ∈ line, c.val ≠ 10) :
    DimsAre (line ++ [10]) rows cols ↔ DimsAre line rows cols := by
  rw [← twoInts_iff, ← twoInts_iff]
  have : Ended (line ++ [10]) line := Or.inl rfl
  unfold twoInts
  rw [this.splitWs]

/-- The first line of a file and what follows it. -/
theorem w2vHeader_of {bs : Bytes} {l : Bytes} {s1 : RFile} {header : PyStr} {rows cols : Int}
    (h1 : readLine ⟨bs, 0⟩ = .ok (l, s1)) (h2 : decodeAscii l = .ok header)
    (h3 : twoInts header = .ok (rows, cols)) :
    W2vHeader bs rows cols (s1.data.drop s1.pos) := by
  unfold readLine at h1
  simp only [List.drop_zero, Except.ok.injEq, Prod.mk.injEq] at h1
  obtain ⟨rfl, rfl⟩ := h1
  obtain ⟨hu, ha⟩ := decodeAscii_inv h2
  simp only
  rcases takeLine_inv bs with ⟨l, rest, hl, hb, ht⟩ | ⟨hl, ht⟩
  · rw [ht] at hu ⊢
    have hlast : header ≠ [] := by
      rintro rfl
      have := congrArg List.length hu
      simp [utf8] at this
    obtain ⟨init, c, rfl⟩ : ∃ init c, header = init ++ [c] :=
      ⟨header.dropLast, header.getLast hlast, (List.dropLast_append_getLast hlast).symm⟩
    have hc := ha c (by simp)
    have e1 : utf8 (init ++ [c]) = utf8 init ++ [UInt8.ofNat c.val] := by
      rw [utf8_append]
      show _ ++ (encCode c ++ []) = _
      unfold encCode
      simp only
      rw [if_pos (by omega)]
      rfl
    rw [e1] at hu
    have hu' := List.append_inj' hu rfl
    have hc10 : c = 10 := by
      have h := congrArg UInt8.toNat (List.cons.inj hu'.2).1
      rw [u8_toNat_ofNat (by omega)] at h
      exact Fin.ext h.symm
    subst hc10
    have hno : ∀ c ∈ init, c.val ≠ 10 := by
      intro c hc hv
      apply hl
      rw [hu'.1]
      have := mem_utf8_of hc (by omega)
      rw [hv] at this
      exact this
    refine ⟨init, fun c hc => ⟨ha c (by simp [hc]), hno c hc⟩,
      (dimsAre_newline hno).mp (twoInts_iff.mp h3), Or.inl ?_⟩
    rw [Nat.zero_add, hb, List.length_append, List.length_singleton, ← hu'.1, List.drop_append]
    simp
  · rw [ht] at hu ⊢
    refine ⟨header, fun c hc => ⟨ha c hc, fun hv => hl ?_⟩, twoInts_iff.mp h3, Or.inr ⟨hu, ?_⟩⟩
    · have := mem_utf8_of hc (ha c hc)
      rw [hv, ← hu] at this
      exact this
    · rw [Nat.zero_add, List.drop_length]

theorem w2vHeader_to {bs body : Bytes} {rows cols : Int} (h : W2vHeader bs rows cols body) :
    ∃ l s1 header, readLine ⟨bs, 0⟩ = .ok (l, s1) ∧ decodeAscii l = .ok header ∧
      twoInts header = .ok (rows, cols) ∧ s1.data.drop s1.pos = body := by
  obtain ⟨line, ha, hd, hb⟩ := h
  have hno : (10 : UInt8) ∉ utf8 line := by
    intro h10
    obtain ⟨c, hc, hv⟩ := mem_utf8 h10 (by decide)
    exact (ha c hc).2 hv
  rcases hb with rfl | ⟨rfl, rfl⟩
  · refine ⟨utf8 (line ++ [10]), ⟨utf8 line ++ 10 :: body, (utf8 (line ++ [10])).length⟩, line ++ [10], ?_, ?_,
      twoInts_iff.mpr ((dimsAre_newline fun c hc => (ha c hc).2).mpr hd), ?_⟩
    · unfold readLine
      simp only [List.drop_zero]
      rw [takeLine_append hno, utf8_append, Nat.zero_add]
      rfl
    · refine decodeAscii_utf8 fun c hc => ?_
      rcases List.mem_append.mp hc with hc | hc
      · exact (ha c hc).1
      · rw [List.mem_singleton] at hc; subst hc; decide
    · simp only
      rw [utf8_append, List.length_append, List.drop_append]
      show List.drop _ _ ++ List.drop ((utf8 line).length + 1 - (utf8 line).length) _ = _
      simp
  · refine ⟨utf8 line, ⟨utf8 line, (utf8 line).length⟩, line, ?_, decodeAscii_utf8 fun c hc => (ha c hc).1,
      twoInts_iff.mpr hd, by simp⟩
    unfold readLine
    simp only [List.drop_zero]
    rw [takeLine_none hno, Nat.zero_add]

/-- `load_word2vec`, strict or lossy, returns embeddings exactly if the first line consists of two
integers `rows` and `cols`, followed by `rows` words and vectors (see `W2vBody`), the words are distinct and the
matrix can be allocated.  What it returns are these words, without whitespace at their ends, and
vectors, normalised.  Whatever follows the last vector is ignored. -/
theorem C60_word2vec (lossy : Bool) (bs : Bytes) (e : Embeddings K) :
    Rd.run (loadWord2vec lossy) bs = .ok e ↔
      ∃ (cols : Nat) (body : Bytes) (rs : List (PyStr × List F32)),
        W2vHeader bs (rs.length : Int) (cols : Int) body ∧ W2vBody lossy cols body rs ∧
        (rs.map Prod.fst).Nodup ∧ ShapeOk rs.length cols ∧
        Normalized cols (rs.map Prod.fst) (rs.map fun p => p.2.map Codec.ofBits) e := by
  constructor
  · intro h
    obtain ⟨s', h⟩ := rd_run_ok h
    unfold loadWord2vec at h
    obtain ⟨l, s1, h1, k1⟩ := rd_bind_inv h
    obtain ⟨header, s2, h2, k2⟩ := rd_bind_inv k1
    obtain ⟨dims, s3, h3, k3⟩ := rd_bind_inv k2
    obtain ⟨shape, s4, h4, k4⟩ := rd_bind_inv k3
    obtain ⟨rows, s5, h5, k5⟩ := rd_bind_inv k4
    clear h k1 k2 k3 k4
    dsimp only at k5
    obtain ⟨v, s6, h6, k6⟩ := rd_bind_inv k5
    clear k5
    obtain ⟨a2, e2⟩ := rd_lift_inv h2
    obtain ⟨a3, e3⟩ := rd_lift_inv h3
    obtain ⟨a4, e4⟩ := rd_lift_inv h4
    obtain ⟨a6, e6⟩ := rd_lift_inv h6
    obtain ⟨a7, e7⟩ := rd_lift_inv k6
    clear h2 h3 h4 h6 k6
    subst e2 e3 e4
    obtain ⟨d1, d2, hsh⟩ := zerosShape_iff.mp a4
    obtain ⟨qs, hq, hn, rfl⟩ := w2vRows_body h5
    obtain ⟨hnd, hv⟩ := Vocab.new_ok.mp a6
    have hdims : dims = ((qs.length : Int), (shape.2 : Int)) := by
      rw [hn]; exact Prod.ext d1 d2
    rw [hdims] at a3
    have hw : ((qs.map fun q => (q.1, q.2.map (Codec.ofBits (K := K)))).map Prod.fst) =
        qs.map Prod.fst := by rw [List.map_map]; rfl
    have hvec : ((qs.map fun q => (q.1, q.2.map (Codec.ofBits (K := K)))).map Prod.snd) =
        qs.map fun p => p.2.map Codec.ofBits := by rw [List.map_map]; rfl
    rw [← hn] at hsh
    refine ⟨shape.2, _, qs, w2vHeader_of h1 a2 a3, hq, by rw [← hw]; exact hnd, hsh, ?_⟩
    have := w2vResult_normalized (cols := shape.2) hnd
    rw [hw, hvec] at this
    rw [hv] at a7
    have hres := (Except.ok.inj (a7.symm.trans w2vResult_new))
    rw [hres]
    exact this
  · rintro ⟨cols, body, rs, hh, hb, hn, hs, he⟩
    obtain ⟨l, s1, header, h1, h2, h3, h4⟩ := w2vHeader_to hh
    obtain ⟨s2, h5⟩ := w2vRows_of_body (K := K) hs.cols hb h4
    refine rd_run_of (s' := s2) ?_
    unfold loadWord2vec
    rw [rd_bind_ok h1, rd_bind_ok (by rw [h2]; exact rd_lift_ok _ _),
      rd_bind_ok (by rw [h3]; exact rd_lift_ok _ _),
      rd_bind_ok (by rw [zerosShape_ok hs]; exact rd_lift_ok _ _), rd_bind_ok h5]
    dsimp only
    have hw : ((rs.map fun q => (q.1, q.2.map (Codec.ofBits (K := K)))).map Prod.fst) =
        rs.map Prod.fst := by rw [List.map_map]; rfl
    have hvec : ((rs.map fun q => (q.1, q.2.map (Codec.ofBits (K := K)))).map Prod.snd) =
        rs.map fun p => p.2.map Codec.ofBits := by rw [List.map_map]; rfl
    rw [rd_bind_ok (by rw [Vocab.new_ok.mpr ⟨by rw [hw]; exact hn, rfl⟩]; exact rd_lift_ok _ _)]
    refine (congrArg (fun r => Rd.lift r s2) w2vResult_new).trans ?_
    have h6 := w2vResult_normalized (K := K) (cols := cols)
      (rows := rs.map fun q => (q.1, q.2.map (Codec.ofBits (K := K)))) (by rw [hw]; exact hn)
    rw [hw, hvec] at h6
    rw [normalized_unique he h6]
    rfl

end

/-! ### The characters involved -/

/-- Whitespace at the ends of words and lines and between the dimensions is this. -/
theorem C60_whitespace (c : Code) : isSpace c = true ↔
    c.val ∈ [0x9, 0xA, 0xB, 0xC, 0xD, 0x1C, 0x1D, 0x1E, 0x1F, 0x20, 0x85, 0xA0, 0x1680, 0x2000, 0x2001,
      0x2002, 0x2003, 0x2004, 0x2005, 0x2006, 0x2007, 0x2008, 0x2009, 0x200A, 0x2028, 0x2029, 0x202F,
      0x205F, 0x3000] := by
  unfold isSpace
  simp only [Bool.or_eq_true, Bool.and_eq_true, decide_eq_true_eq, beq_iff_eq, List.mem_cons,
    List.not_mem_nil, or_false]
  omega

/-- Whitespace between the fields of a line is this. -/
theorem C60_ascii_whitespace (c : Code) : isAsciiSpace c = true ↔
    c.val ∈ [0x9, 0xA, 0xB, 0xC, 0xD, 0x20] := by
  unfold isAsciiSpace
  simp only [Bool.or_eq_true, Bool.and_eq_true, decide_eq_true_eq, beq_iff_eq, List.mem_cons,
    List.not_mem_nil, or_false]
  omega

/-- Digits are the characters of category Nd. -/
theorem C60_digit (c : Code) (d : Nat) :
    Digit c d ↔ ∃ r ∈ ndRanges, r.1 ≤ c.val ∧ c.val ≤ r.2 ∧ d = (c.val - r.1) % 10 := by
  have hz : decimalZeros = ndRanges.flatMap fun r => (List.range ((r.2 - r.1 + 1) / 10)).map fun k => r.1 + 10 * k := by
    decide +kernel
  have hr : ∀ r ∈ ndRanges, r.1 ≤ r.2 ∧ (r.2 - r.1 + 1) % 10 = 0 := by decide +kernel
  unfold Digit
  constructor
  · rintro ⟨hd, z, hm, hc⟩
    rw [hz] at hm
    obtain ⟨r, h1, h2⟩ := List.mem_flatMap.mp hm
    obtain ⟨k, h3, rfl⟩ := List.mem_map.mp h2
    have := hr r h1
    have := List.mem_range.mp h3
    exact ⟨r, h1, by omega, by omega, by omega⟩
  · rintro ⟨r, h1, h2, h3, rfl⟩
    have := hr r h1
    refine ⟨Nat.mod_lt _ (by omega), r.1 + 10 * ((c.val - r.1) / 10), ?_, by omega⟩
    rw [hz]
    exact List.mem_flatMap.mpr ⟨r, h1, List.mem_map.mpr ⟨_, List.mem_range.mpr (by omega), rfl⟩⟩

/-- `int()` accepts exactly the integer literals, possibly with whitespace around them; the control
characters `\x1c` to `\x1f` are no whitespace here. -/
theorem C60_int (s : PyStr) (i : Int) :
    pyInt s = .ok i ↔ ∃ t0 a t1 : PyStr, s = t0 ++ a ++ t1 ∧
      (∀ c ∈ t0 ++ t1, isSpace c = true ∧ ¬ (0x1C ≤ c.val ∧ c.val ≤ 0x1F)) ∧ IntText a i := by
  have sp : ∀ c : Code, isNumSpace c = true ↔ isSpace c = true ∧ ¬ (0x1C ≤ c.val ∧ c.val ≤ 0x1F) := by
    intro c
    unfold isNumSpace
    simp only [Bool.and_eq_true, Bool.not_eq_true', Bool.and_eq_false_iff, decide_eq_false_iff_not]
    exact and_congr_right fun _ => by omega
  rw [pyInt_iff]
  constructor
  · intro h
    obtain ⟨t0, t1, h1, h2, h3⟩ := trimBy_decompose isNumSpace s
    refine ⟨t0, _, t1, h1, fun c hc => (sp c).mp ?_, h⟩
    rcases List.mem_append.mp hc with hc | hc
    · exact h2 c hc
    · exact h3 c hc
  · rintro ⟨t0, a, t1, rfl, hs, hi⟩
    have ends := intText_ends hi
    rw [trimBy_append (fun c hc => (sp c).mpr (hs c (by simp [hc]))) (fun c hc => (sp c).mpr (hs c (by simp [hc])))
      (fun c hc => isNumSpace_of_not (ends c (.inl hc))) (fun c hc => isNumSpace_of_not (ends c (.inr hc)))]
    exact hi

/-- The numbers in the headers that are written are numerals of ASCII digits without leading zeros. -/
theorem C60_decimal (s : PyStr) (n : Nat) : s = decimal n ↔
    Numeral s n ∧ (∀ c ∈ s, 48 ≤ c.val ∧ c.val ≤ 57) ∧ (s.head? = some 48 → s = [48]) := by
  constructor
  · rintro rfl
    exact ⟨parseDigits_iff.mp (parseDigits_decimal n), decimal_digits n, decimal_no_zero n⟩
  · rintro ⟨h1, h2, h3⟩
    exact canonical_unique h1 h2 h3

namespace Sample


/-- `2 1` and two rows; a carriage return before the first line end, no newlines after the
vectors, spaces around the second word that are not blanks, and trailing bytes -/
def oddW2v : Bytes :=
  utf8 [50, 32, 49, 13] ++ 10 :: (utf8 [97] ++ 32 :: (f32sLE [7] ++
    (utf8 [9, 98, 10] ++ 32 :: (f32sLE [9] ++ [1, 2, 3]))))

theorem w2vKey_check {lossy : Bool} {k : Bytes} {w w' : PyStr} (h : (32 : UInt8) ∉ k)
    (hs : decodeLossy lossy k = .ok w) (h' : strip w = w') : W2vKey lossy k w' :=
  ⟨h, w, decodeLossy_iff.mp hs, stripped_iff.mp h'⟩

example : ∃ e, Rd.run (@loadWord2vec F32 f32Ops _ false) oddW2v = .ok e :=
  ⟨_, (@C60_word2vec F32 f32Ops _ false oddW2v _).mpr
    ⟨1, _, [([97], [7]), ([98], [9])],
      ⟨[50, 32, 49, 13], by
        intro c hc
        have : ∀ c ∈ ([50, 32, 49, 13] : List Nat), c < 128 ∧ c ≠ 10 := by decide
        simp only [List.mem_cons, List.not_mem_nil, or_false] at hc
        rcases hc with rfl | rfl | rfl | rfl <;> decide, twoInts_iff.mp (by decide +kernel), Or.inl rfl⟩,
      .row (w2vKey_check (by decide) (by rfl) (by decide)) rfl
        (.row (w2vKey_check (by decide) (by rfl) (by decide)) rfl (.nil _)),
      by decide, by unfold ShapeOk; decide,
      @w2vResult_normalized F32 f32Ops 1 [([97], [7]), ([98], [9])] (by decide)⟩⟩

/-- A word with a malformed byte, read with replacement (tests/data/utf8-incomplete.bin) -/
example : W2vKey true [122, 101, 101, 191, 110] [122, 101, 101, 0xFFFD, 110] :=
  w2vKey_check (w := [122, 101, 101, 0xFFFD, 110]) (by decide) (by decide +kernel) (by decide)

example : (match Rd.run (@loadWord2vec F32 f32Ops _ false) oddW2v with
    | .ok e => some e.vocab.words
    | .error _ => none) = some [[97], [98]] := by decide +kernel

/-- `1_000` and ` +0_7\n`; `1__0` is no literal -/
example : pyInt [49, 95, 48, 48, 48] = .ok 1000 ∧ pyInt [32, 43, 48, 95, 55, 10] = .ok 7 ∧
    pyInt [49, 95, 95, 48] = .error .valueError := by decide +kernel

/-- Arabic-Indic digits, with a no-break space; `\x1c` is not stripped. -/
example : pyInt [0xA0, 0x661, 0x662] = .ok 12 ∧ pyInt [0x1C, 49] = .error .valueError := by decide +kernel

example : IntText [45, 49, 95, 50] (-12) :=
  ⟨[49, 95, 50], 12, .under (s := [49]) (n := 1) (d := 2) (.one ⟨by omega, 48, by decide, rfl⟩) ⟨by omega, 48, by decide, rfl⟩,
    .inr ⟨rfl, rfl⟩⟩

example : decimal 307 = [51, 48, 55] := by decide +kernel

end Sample

end FF
