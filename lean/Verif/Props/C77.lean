import Verif.Lemmas.FloatUnique
import Verif.Props.C59
import Verif.Props.C67
/-! C77: which texts are numbers, and which text files consist of words and numbers. -/

namespace FF

/-- Float literals with whitespace around them are read as the numbers they stand for. -/
theorem C77_reads (s : PyStr) (v : FloatVal) (h : FloatWord s v) : ∃ x, b32Text.parse s = .ok x ∧ v.Reads x := by
  obtain ⟨x, h1, h2⟩ := B32.word_reads h
  exact ⟨x, B32.parse_of_read h1, h2⟩

/-- Nothing else is read. -/
theorem C77_only (s : PyStr) (x : F32) (h : b32Text.parse s = .ok x) : ∃ v, FloatWord s v ∧ v.Reads x := by
  refine B32.reads_word ?_
  have h' : (match B32.read s with
    | some x => Except.ok x
    | none => Except.error PyErr.valueError) = .ok x := h
  cases hr : B32.read s with
  | none => rw [hr] at h'; cases h'
  | some y => rw [hr] at h'; rw [Except.ok.inj h']

/-- Both in one: numbers are what literals stand for. -/
theorem C77_parse (s : PyStr) (x : F32) : b32Text.parse s = .ok x ↔ ∃ v, FloatWord s v ∧ v.Reads x := by
  refine ⟨C77_only s x, ?_⟩
  rintro ⟨v, h1, h2⟩
  obtain ⟨y, h3, h4⟩ := C77_reads s v h1
  rw [h3, B32.reads_unique h2 h4]

/-- Everything else is a `ValueError`. -/
theorem C77_error (s : PyStr) (err : PyErr) :
    b32Text.parse s = .error err ↔ err = .valueError ∧ ¬ ∃ v, FloatWord s v := by
  constructor
  · intro h
    constructor
    · have h' : (match B32.read s with
        | some x => Except.ok x
        | none => Except.error PyErr.valueError) = .error err := h
      cases hr : B32.read s with
      | none => rw [hr] at h'; exact (Except.error.inj h').symm
      | some y => rw [hr] at h'; cases h'
    · rintro ⟨v, hv⟩
      obtain ⟨x, hx, -⟩ := C77_reads s v hv
      rw [h] at hx
      cases hx
  · rintro ⟨rfl, hn⟩
    cases hp : b32Text.parse s with
    | ok x =>
      obtain ⟨v, hv, -⟩ := C77_only s x hp
      exact absurd ⟨v, hv⟩ hn
    | error e =>
      have h' : (match B32.read s with
        | some x => Except.ok x
        | none => Except.error PyErr.valueError) = .error e := hp
      cases hr : B32.read s with
      | none => rw [hr] at h'; rw [Except.error.inj h']
      | some y => rw [hr] at h'; cases h'

/-- Whitespace at the ends of lines and between the numbers in headers: that around numbers, and four control
characters -/
theorem C77_space (c : Code) : isSpace c = true ↔ Blank c ∨ 0x1C ≤ c.val ∧ c.val ≤ 0x1F := B32.isSpace_code

section
variable [NumOps F32] [TextIO]

/-- A line with a word and numbers, as many as `cols` or a single one -/
def TextLine (cols : Nat) (line : PyStr) (w : PyStr) : Prop :=
  ∃ ps, HasFields line w ps ∧ (ps.length = cols ∨ ps.length = 1) ∧ ∀ p ∈ ps, ∃ v, FloatWord p v

omit [NumOps F32] [TextIO] in
theorem readsAs_line {cols : Nat} {line w : PyStr} :
    (∃ v, @ReadsAs F32 b32Text cols line (w, v)) ↔ TextLine cols line w := by
  constructor
  · rintro ⟨v, ps, xs, h1, h2, h3, h4⟩
    have hl := h2.length_eq
    refine ⟨ps, h1, ?_, fun p hp => ?_⟩
    · rcases h4 with rfl | ⟨x, rfl, -⟩
      · exact .inl (hl.trans h3)
      · exact .inr hl
    · obtain ⟨i, hi, rfl⟩ := List.mem_iff_getElem.mp hp
      obtain ⟨v, hv, -⟩ := C77_only _ _ (List.forall₂_iff_get.mp h2 |>.2 i hi (hl ▸ hi))
      exact ⟨v, hv⟩
  · rintro ⟨ps, h1, h2, h3⟩
    obtain ⟨xs, hx⟩ : ∃ xs : List F32, List.Forall₂ (fun p x => b32Text.parse p = .ok x) ps xs := by
      clear h1 h2
      induction ps with
      | nil => exact ⟨[], .nil⟩
      | cons p ps ih =>
        obtain ⟨xs, hx⟩ := ih fun q hq => h3 q (by simp [hq])
        obtain ⟨v, hv⟩ := h3 p (by simp)
        obtain ⟨x, h, -⟩ := C77_reads p v hv
        exact ⟨x :: xs, .cons h hx⟩
    have hl := hx.length_eq
    rcases h2 with h2 | h2
    · exact ⟨xs, ps, xs, h1, hx, hl.symm.trans h2, .inl rfl⟩
    · obtain ⟨x, rfl⟩ := List.length_eq_one_iff.mp (hl.symm.trans h2)
      exact ⟨List.replicate cols x, ps, [x], h1, hx, List.length_replicate, .inr ⟨x, rfl, rfl⟩⟩

omit [NumOps F32] [TextIO] in
theorem readsAs_lines {cols : Nat} {lines words : List PyStr} :
    (∃ rs, List.Forall₂ (@ReadsAs F32 b32Text cols) lines rs ∧ rs.map Prod.fst = words) ↔
      List.Forall₂ (TextLine cols) lines words := by
  constructor
  · rintro ⟨rs, h, rfl⟩
    rw [List.forall₂_map_right_iff]
    exact h.imp fun line r hr => readsAs_line.mp ⟨r.2, hr⟩
  · intro h
    induction h with
    | nil => exact ⟨[], .nil, rfl⟩
    | cons h _ ih =>
      obtain ⟨rs, h1, h2⟩ := ih
      obtain ⟨v, hv⟩ := readsAs_line.mpr h
      exact ⟨(_, v) :: rs, .cons hv h1, by rw [List.map_cons, h2]⟩

/-- `load_text` accepts exactly files with at least one line, whose lines consist of a word and float literals, as
many as in the first line or one, and whose words are distinct. -/
theorem C77_text (lossy : Bool) (bs : Bytes) :
    (∃ e, @loadText F32 _ b32Text _ lossy bs = .ok e) ↔
      ∃ (text first w0 : PyStr) (ps0 lines words : List PyStr),
        DecodesTo lossy bs text ∧ SplitLines text (first :: lines) ∧ HasFields first w0 ps0 ∧
        List.Forall₂ (TextLine ps0.length) (first :: lines) words ∧ words.Nodup ∧
        ShapeOk words.length ps0.length := by
  constructor
  · rintro ⟨e, he⟩
    obtain ⟨text, first, w0, ps0, lines, rs, h1, h2, h3, h4, h5, h6, -⟩ := (@C59_text F32 b32Text _ _ lossy bs e).mp he
    exact ⟨text, first, w0, ps0, lines, rs.map Prod.fst, h1, h2, h3, readsAs_lines.mp ⟨rs, h4, rfl⟩, h5,
      by rw [List.length_map]; exact h6⟩
  · rintro ⟨text, first, w0, ps0, lines, words, h1, h2, h3, h4, h5, h6⟩
    obtain ⟨rs, h7, rfl⟩ := readsAs_lines.mpr h4
    rw [List.length_map] at h6
    exact ⟨_, (@C59_text F32 b32Text _ _ lossy bs _).mpr ⟨text, first, w0, ps0, lines, rs, h1, h2, h3, h7, h5, h6,
      w2vResult_normalized h5⟩⟩

/-- `load_text_dims` accepts exactly files whose first line has the dimensions and that go on with lines of a
word and float literals. -/
theorem C77_dims (lossy : Bool) (bs : Bytes) :
    (∃ e, @loadTextDims F32 _ b32Text _ lossy bs = .ok e) ↔
      ∃ (first : PyStr) (cols : Nat) (lines words : List PyStr),
        YieldsFirst lossy bs (first :: lines) ∧ DimsAre first (lines.length : Int) (cols : Int) ∧
        List.Forall₂ (TextLine cols) lines words ∧ words.Nodup ∧ ShapeOk words.length cols := by
  constructor
  · rintro ⟨e, he⟩
    obtain ⟨first, cols, lines, rs, h1, h2, h4, h5, h6, -⟩ := (@C59_dims F32 b32Text _ _ lossy bs e).mp he
    exact ⟨first, cols, lines, rs.map Prod.fst, h1, h2, readsAs_lines.mp ⟨rs, h4, rfl⟩, h5,
      by rw [List.length_map]; exact h6⟩
  · rintro ⟨first, cols, lines, words, h1, h2, h4, h5, h6⟩
    obtain ⟨rs, h7, rfl⟩ := readsAs_lines.mpr h4
    rw [List.length_map] at h6
    exact ⟨_, (@C59_dims F32 b32Text _ _ lossy bs _).mpr ⟨first, cols, lines, rs, h1, h2, h7, h5, h6,
      w2vResult_normalized h5⟩⟩

/-- A line with the word `r.1` and literals for the vector `r.2` of length `cols`, or one literal for all components -/
def NumberLine (cols : Nat) (line : PyStr) (r : PyStr × List F32) : Prop :=
  ∃ (ps : List PyStr) (xs : List F32), HasFields line r.1 ps ∧
    List.Forall₂ (fun p x => ∃ v : FloatVal, FloatWord p v ∧ v.Reads x) ps xs ∧
    r.2.length = cols ∧ (r.2 = xs ∨ ∃ x, xs = [x] ∧ r.2 = List.replicate cols x)

omit [NumOps F32] [TextIO] in
theorem readsAs_numbers {cols : Nat} : @ReadsAs F32 b32Text cols = NumberLine cols := by
  funext line r
  unfold ReadsAs NumberLine
  simp only [C77_parse]

/-- What `load_text` returns for them: the literals are rounded to binary64, then to binary32, then the rows are
normalised. -/
theorem C77_text_numbers (lossy : Bool) (bs : Bytes) (e : Embeddings F32) :
    @loadText F32 _ b32Text _ lossy bs = .ok e ↔
      ∃ (text first w0 : PyStr) (ps0 lines : List PyStr) (rs : List (PyStr × List F32)),
        DecodesTo lossy bs text ∧ SplitLines text (first :: lines) ∧ HasFields first w0 ps0 ∧
        List.Forall₂ (NumberLine ps0.length) (first :: lines) rs ∧ (rs.map Prod.fst).Nodup ∧
        ShapeOk rs.length ps0.length ∧ Normalized ps0.length (rs.map Prod.fst) (rs.map Prod.snd) e := by
  simp only [← readsAs_numbers]
  exact @C59_text F32 b32Text _ _ lossy bs e

/-- The same for `load_text_dims` -/
theorem C77_dims_numbers (lossy : Bool) (bs : Bytes) (e : Embeddings F32) :
    @loadTextDims F32 _ b32Text _ lossy bs = .ok e ↔
      ∃ (first : PyStr) (cols : Nat) (lines : List PyStr) (rs : List (PyStr × List F32)),
        YieldsFirst lossy bs (first :: lines) ∧ DimsAre first (lines.length : Int) (cols : Int) ∧
        List.Forall₂ (NumberLine cols) lines rs ∧ (rs.map Prod.fst).Nodup ∧ ShapeOk rs.length cols ∧
        Normalized cols (rs.map Prod.fst) (rs.map Prod.snd) e := by
  simp only [← readsAs_numbers]
  exact @C59_dims F32 b32Text _ _ lossy bs e

end

namespace Sample

/-- `-1_2.٣E+0_1` with a no-break space before it and an ideographic space after it -/
theorem literal12 : FloatWord [0xA0, 45, 49, 95, 50, 46, 0x663, 69, 43, 48, 95, 49, 0x3000] (.dec true 123 0) := by
  have dig : ∀ {c : Code} {d : Nat}, digitVal c = some d → Digit c d := digitVal_digit.mp
  refine ⟨[0xA0], [45, 49, 95, 50, 46, 0x663, 69, 43, 48, 95, 49], [0x3000], rfl, ?_, ?_⟩
  · intro c hc
    simp only [List.cons_append, List.nil_append, List.mem_cons, List.not_mem_nil, or_false] at hc
    rcases hc with rfl | rfl <;> (unfold Blank; decide)
  · exact .dec (sg := [45]) (i := [49, 95, 50]) (f := [46, 0x663]) (e := [69, 43, 48, 95, 49]) (ids := [1, 2])
      (fds := [3]) .minus (.under (dig (by decide)) (.cons (dig (by decide)) .nil) (by simp))
      (.point (.cons (dig (by decide)) .nil))
      (.letter (sg := [43]) (s := [48, 95, 49]) (ds := [0, 1]) (.inr rfl) .plus
        (.under (dig (by decide)) (.cons (dig (by decide)) .nil) (by simp)) (by simp)) (by simp)

example : ∃ x, b32Text.parse [0xA0, 45, 49, 95, 50, 46, 0x663, 69, 43, 48, 95, 49, 0x3000] = .ok x ∧
    (FloatVal.dec true 123 0).Reads x := C77_reads _ _ literal12

/-- It is -123. -/
example : b32Text.parse [0xA0, 45, 49, 95, 50, 46, 0x663, 69, 43, 48, 95, 49, 0x3000] = .ok 0xC2F60000 :=
  B32.parse_of_read (by decide +kernel)

/-- `+iNf` and `NaN` -/
example : b32Text.parse [43, 105, 78, 102] = .ok F32.posInf ∧ b32Text.parse [78, 97, 78] = .ok B32.nan := by
  obtain ⟨x, h1, h2⟩ := C77_reads [43, 105, 78, 102] (.inf false) ⟨[], _, [], (List.append_nil _).symm, by simp,
    .inf (sg := [43]) (w := [105, 78, 102]) .plus
      (.inl (.cons (.inl rfl) (.cons (.inr rfl) (.cons (.inl rfl) .nil))))⟩
  obtain ⟨y, h3, h4⟩ := C77_reads [78, 97, 78] .nan ⟨[], _, [], (List.append_nil _).symm, by simp,
    .nan (sg := []) (w := [78, 97, 78]) .none (.cons (.inr rfl) (.cons (.inl rfl) (.cons (.inr rfl) .nil)))⟩
  refine ⟨?_, ?_⟩
  · rw [h1, h2]; rfl
  · rw [h3, h4]

example : ∃ v, FloatWord [49, 46] v ∧ v.Reads 0x3F800000 := C77_only _ _ (B32.parse_of_read (by decide +kernel))

/-- `1__0`, `_1`, `1_`, `1e`, `.`, `0x1`, `- 1` and the unit separator after a digit -/
example : ∀ s ∈ ([[49, 95, 95, 48], [95, 49], [49, 95], [49, 101], [46], [48, 120, 49], [45, 32, 49],
    [49, 31]] : List PyStr), ¬ ∃ v, FloatWord s v := by
  intro s hs
  have : b32Text.parse s = .error .valueError := by
    have hr : B32.read s = none := by
      revert s
      decide +kernel
    show (match B32.read s with
      | some x => Except.ok x
      | none => Except.error PyErr.valueError) = _
    rw [hr]
  exact ((C77_error s _).mp this).2

example : isSpace 0xA0 = true ∧ isSpace 0x1D = true ∧ isSpace 0x200B = false := by decide

/-- `a 1 2`, `b ٣`: the single component of the second line is repeated. -/
example : ∃ e, @loadText F32 b32Ops b32Text textIO false (utf8 [97, 32, 49, 32, 50, 10, 98, 32, 0x663]) = .ok e := by
  have dig : ∀ {c : Code} {d : Nat}, digitVal c = some d → Digit c d := digitVal_digit.mp
  have lit : ∀ {c : Code} {d : Nat}, digitVal c = some d → ∃ v, FloatWord [c] v := by
    intro c d h
    exact ⟨_, [], [c], [], rfl, by simp,
      .dec (sg := []) (i := [c]) (f := []) (e := []) (ids := [d]) (fds := []) .none (.cons (dig h) .nil) .none .none
        (by simp)⟩
  exact (@C77_text b32Ops textIO false _).mpr
    ⟨[97, 32, 49, 32, 50, 10, 98, 32, 0x663], [97, 32, 49, 32, 50], [97], [[49], [50]], [[98, 32, 0x663]], [[97], [98]],
      utf8Text_iff.mpr ⟨rfl, by decide⟩,
      .lf (l := [97, 32, 49, 32, 50]) (noBreak (by decide)) (.last (noBreak (by decide)) (by decide)),
      hasFields_check [97] [([32], [49]), ([32], [50])] [] (by decide),
      .cons ⟨[[49], [50]], hasFields_check [97] [([32], [49]), ([32], [50])] [] (by decide), .inl rfl, by
          intro p hp
          simp only [List.mem_cons, List.not_mem_nil, or_false] at hp
          rcases hp with rfl | rfl
          · exact lit (d := 1) (by decide)
          · exact lit (d := 2) (by decide)⟩
        (.cons ⟨[[0x663]], hasFields_check [98] [([32], [0x663])] [] (by decide), .inr rfl, by
          intro p hp
          rw [List.mem_singleton] at hp
          subst hp
          exact lit (d := 3) (by decide)⟩ .nil),
      by decide, by unfold ShapeOk; decide⟩

/-- `1 2`, `a .5 Infinity`, and a line that is ignored -/
example : ∃ e, @loadTextDims F32 b32Ops b32Text textIO false
    (utf8 ([49, 32, 50, 10, 97, 32, 46, 53, 32, 73, 110, 102, 105, 110, 105, 116, 121, 10, 120])) = .ok e := by
  have dig : ∀ {c : Code} {d : Nat}, digitVal c = some d → Digit c d := digitVal_digit.mp
  exact (@C77_dims b32Ops textIO false _).mpr
    ⟨[49, 32, 50], 2, [[97, 32, 46, 53, 32, 73, 110, 102, 105, 110, 105, 116, 121]], [[97]],
      .inl ⟨_, [[120]], utf8Text_iff.mpr ⟨rfl, by decide⟩,
      .lf (l := [49, 32, 50]) (noBreak (by decide))
        (.lf (l := [97, 32, 46, 53, 32, 73, 110, 102, 105, 110, 105, 116, 121]) (noBreak (by decide))
          (.last (noBreak (by decide)) (by decide)))⟩,
      twoInts_iff.mp (by decide +kernel),
      .cons ⟨[[46, 53], [73, 110, 102, 105, 110, 105, 116, 121]],
        hasFields_check [97] [([32], [46, 53]), ([32], [73, 110, 102, 105, 110, 105, 116, 121])] [] (by decide),
        .inl rfl, by
          intro p hp
          simp only [List.mem_cons, List.not_mem_nil, or_false] at hp
          rcases hp with rfl | rfl
          · exact ⟨_, [], [46, 53], [], rfl, by simp, .dec (sg := []) (i := []) (f := [46, 53]) (e := []) (ids := [])
              (fds := [5]) .none .nil (.point (.cons (dig (by decide)) .nil)) .none (by simp)⟩
          · exact ⟨_, [], _, [], (List.append_nil _).symm, by simp,
              .inf (sg := []) (w := [73, 110, 102, 105, 110, 105, 116, 121]) .none
                (.inr (.cons (.inr rfl) (.cons (.inl rfl) (.cons (.inl rfl) (.cons (.inl rfl) (.cons (.inl rfl)
                  (.cons (.inl rfl) (.cons (.inl rfl) (.cons (.inl rfl) .nil)))))))))⟩⟩ .nil,
      by decide, by unfold ShapeOk; decide⟩

/-- `1` and `2` after `a`, a three that is not an ASCII digit after `b` -/
theorem numberLines : List.Forall₂ (NumberLine 2) [[97, 32, 49, 32, 50], [98, 32, 0x663]]
    [([97], [0x3F800000, 0x40000000]), ([98], [0x40400000, 0x40400000])] := by
  have num : ∀ {s : PyStr} {x : F32}, B32.read s = some x → ∃ v : FloatVal, FloatWord s v ∧ v.Reads x := fun h =>
    (C77_parse _ _).mp (B32.parse_of_read h)
  exact .cons ⟨[[49], [50]], [0x3F800000, 0x40000000], hasFields_check [97] [([32], [49]), ([32], [50])] [] (by decide),
      .cons (num (by decide +kernel)) (.cons (num (by decide +kernel)) .nil), rfl, .inl rfl⟩
    (.cons ⟨[[0x663]], [0x40400000], hasFields_check [98] [([32], [0x663])] [] (by decide),
      .cons (num (by decide +kernel)) .nil, rfl, .inr ⟨_, rfl, rfl⟩⟩ .nil)

example : ∃ e, @loadText F32 b32Ops b32Text textIO false (utf8 [97, 32, 49, 32, 50, 10, 98, 32, 0x663]) = .ok e ∧
    @Normalized F32 b32Ops 2 [[97], [98]] [[0x3F800000, 0x40000000], [0x40400000, 0x40400000]] e :=
  ⟨_, (@C77_text_numbers b32Ops textIO false _ _).mpr
    ⟨[97, 32, 49, 32, 50, 10, 98, 32, 0x663], [97, 32, 49, 32, 50], [97], [[49], [50]], [[98, 32, 0x663]], _,
      utf8Text_iff.mpr ⟨rfl, by decide⟩,
      .lf (l := [97, 32, 49, 32, 50]) (noBreak (by decide)) (.last (noBreak (by decide)) (by decide)),
      hasFields_check [97] [([32], [49]), ([32], [50])] [] (by decide), numberLines, by decide,
      by unfold ShapeOk; decide, @w2vResult_normalized F32 b32Ops _ _ (by decide)⟩,
    @w2vResult_normalized F32 b32Ops _ _ (by decide)⟩

example : ∃ e, @loadTextDims F32 b32Ops b32Text textIO false
      (utf8 [50, 32, 50, 10, 97, 32, 49, 32, 50, 10, 98, 32, 0x663]) = .ok e ∧
    @Normalized F32 b32Ops 2 [[97], [98]] [[0x3F800000, 0x40000000], [0x40400000, 0x40400000]] e :=
  ⟨_, (@C77_dims_numbers b32Ops textIO false _ _).mpr
    ⟨[50, 32, 50], 2, [[97, 32, 49, 32, 50], [98, 32, 0x663]], _,
      .inl ⟨_, [], utf8Text_iff.mpr ⟨rfl, by decide⟩,
        .lf (l := [50, 32, 50]) (noBreak (by decide)) (.lf (l := [97, 32, 49, 32, 50]) (noBreak (by decide))
          (.last (noBreak (by decide)) (by decide)))⟩,
      twoInts_iff.mp (by decide +kernel), numberLines, by decide,
      by unfold ShapeOk; decide, @w2vResult_normalized F32 b32Ops _ _ (by decide)⟩,
    @w2vResult_normalized F32 b32Ops _ _ (by decide)⟩

/-- The literal is -123 and nothing else. -/
example (x : F32) : (FloatVal.dec true 123 0).Reads x ↔ x = 0xC2F60000 := by
  have h : b32Text.parse [0xA0, 45, 49, 95, 50, 46, 0x663, 69, 43, 48, 95, 49, 0x3000] = .ok 0xC2F60000 :=
    B32.parse_of_read (by decide +kernel)
  obtain ⟨y, h1, h2⟩ := C77_reads _ _ literal12
  rw [h] at h1
  cases h1
  exact ⟨fun hx => B32.reads_unique hx h2, fun hx => hx ▸ h2⟩

end Sample

end FF
