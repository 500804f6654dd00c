import Verif.Lemmas.FloatShortest
import Verif.Lemmas.FloatUnique
import Verif.Props.C40
import Verif.Props.C66
/-! C67: which float32 numbers survive the text formats. -/

namespace FF

open F32

/-- The number whose text is read as its successor -/
def exception : F32 := 0x15AE43FD

/-- ... and its negative -/
def negException : F32 := 0x95AE43FD

theorem mant_exception {x : F32} : B32.mant x = B32.exceptional ↔ x = exception ∨ x = negException := by
  have := x.toNat_lt
  unfold B32.mant B32.exceptional exception negException
  rw [← UInt32.toNat_inj, ← UInt32.toNat_inj]
  show _ ↔ x.toNat = 363742205 ∨ x.toNat = 2511225853
  omega

theorem sign_eq (x : F32) : B32.sign x = decide (sgn x = 1) := by
  have := x.toNat_lt
  unfold B32.sign sgn
  rw [decide_eq_decide]
  omega

/-- The text of a finite number is a decimal number that is rounded to it. -/
theorem C67_text (x : F32) (h : Finite x) : ∃ m e, DecimalText (b32Text.str x) (decide (sgn x = 1)) m e ∧
    RoundsTo (decimalVal (decide (sgn x = 1)) m e) x := by
  rw [← sign_eq]
  by_cases h0 : B32.mant x = 0
  · refine ⟨0, -1, B32.str_zero h0, ?_⟩
    have e : decimalVal (B32.sign x) 0 (-1) = 0 := by
      unfold decimalVal
      simp
    rw [e]
    have hv := val_zero_iff.mpr h0
    refine .inl ⟨?_, h, fun c _ => ?_⟩
    · rw [abs_zero, overflow_eq]
      positivity
    · rw [hv, sub_zero, abs_zero]
      refine ⟨abs_nonneg _, fun hc => .inl ?_⟩
      rw [sub_zero] at hc
      exact (abs_eq_zero.mp hc.symm).symm
  · obtain ⟨m, e, h1, h2⟩ := B32.str_spec h h0
    obtain ⟨N, -, -, h3, -⟩ := B32.shortest_optimal h h0
    refine ⟨m, e, h1, ?_⟩
    unfold decimalVal
    rw [h2, ← B32.sg_eq]
    exact h3

/-- It has at most nine digits, and no number with fewer digits is rounded to `x`. -/
theorem C67_shortest (x : F32) (h : Finite x) (h0 : val x ≠ 0) : ∃ m e N,
    DecimalText (b32Text.str x) (decide (sgn x = 1)) m e ∧ N ≤ 9 ∧
    Significant N (decimalVal (decide (sgn x = 1)) m e) ∧
    ∀ N' z, Significant N' z → RoundsTo z x → N ≤ N' := by
  have h0' : B32.mant x ≠ 0 := fun hm => h0 (val_zero_iff.mpr hm)
  obtain ⟨m, e, h1, h2⟩ := B32.str_spec h h0'
  obtain ⟨N, -, h9, -, h4, h5⟩ := B32.shortest_optimal h h0'
  refine ⟨m, e, N, by rw [← sign_eq]; exact h1, h9, ?_, h5⟩
  unfold decimalVal
  rw [h2, ← sign_eq, ← B32.sg_eq]
  exact h4

/-- Decimal numbers are read by rounding to binary64 first and to binary32 then. -/
theorem C67_read (s : PyStr) (neg : Bool) (m : Nat) (e : Int) (h : DecimalText s neg m e) :
    ∃ x y, b32Text.parse s = .ok x ∧ (sgn x = 1 ↔ neg = true) ∧ F64.Nearest (decimalVal neg m e) y ∧ RoundsTo y x := by
  obtain ⟨y, h1, h2⟩ := B32.decimalRound_spec neg m e
  refine ⟨_, y, ?_, ?_, h1, h2⟩
  · exact B32.parse_of_read (B32.read_spec h)
  · have hlt : B32.decimalRound m e < 2 ^ 31 := by
      have h31 : B32.inf < 2 ^ 31 := by decide
      refine lt_of_le_of_lt ?_ h31
      have hr : ∀ k num den, B32.roundTwice k num den ≤ B32.inf := by
        intro k num den
        unfold B32.roundTwice B32.round
        split
        · exact le_rfl
        · exact min_le_left _ _
      unfold B32.decimalRound B32.viaDouble
      split
      · exact hr _ _ _
      · exact hr _ _ _
    have := sign_mk neg hlt
    rw [sign_eq] at this
    conv_rhs => rw [← this, decide_eq_true_iff]

/-- This determines what is read. -/
theorem C67_read_exact (s : PyStr) (neg : Bool) (m : Nat) (e : Int) (h : DecimalText s neg m e) (x : F32) :
    b32Text.parse s = .ok x ↔
      (sgn x = 1 ↔ neg = true) ∧ ∃ y, F64.Nearest (decimalVal neg m e) y ∧ RoundsTo y x := by
  obtain ⟨x', y', h1, h2, h3, h4⟩ := C67_read s neg m e h
  constructor
  · intro hx
    rw [h1] at hx
    cases hx
    exact ⟨h2, y', h3, h4⟩
  · rintro ⟨g2, y, g3, g4⟩
    obtain rfl := B32.double_unique g3 h3
    rw [h1, B32.rounds_unique (h2.trans g2.symm) h4 g4]

theorem C67_parse_str (x : F32) : b32Text.parse (b32Text.str x) = .ok (if B32.isNaN x then B32.nan else if B32.isInf x
    then x else if B32.mant x = 0 then x else B32.mk (B32.sign x) (B32.readBack (B32.mant x))) := by
  exact B32.parse_of_read (B32.read_str x)

/-- All numbers survive being written and read except for one and its negative. -/
theorem C67_survives (x : F32) (h : ¬ NaN x) :
    b32Text.parse (b32Text.str x) = .ok x ↔ x ≠ exception ∧ x ≠ negException := by
  rw [C67_parse_str, if_neg (fun hn => h (isNaN_iff.mp hn)), ← not_or, ← mant_exception]
  have hinf : B32.exceptional < B32.inf := by decide
  by_cases hi : B32.isInf x = true
  · rw [if_pos hi]
    refine ⟨fun _ hx => ?_, fun _ => rfl⟩
    unfold B32.isInf at hi
    simp only [decide_eq_true_eq] at hi
    omega
  rw [if_neg hi]
  by_cases h0 : B32.mant x = 0
  · rw [if_pos h0]
    refine ⟨fun _ hx => ?_, fun _ => rfl⟩
    rw [h0] at hx
    exact absurd hx (by decide)
  rw [if_neg h0]
  have hfin : B32.mant x < B32.inf := by
    have h1 : ¬ B32.isNaN x = true := fun hn => h (isNaN_iff.mp hn)
    unfold B32.isNaN at h1
    unfold B32.isInf at hi
    simp only [decide_eq_true_eq] at h1 hi
    omega
  constructor
  · intro he hx
    rw [hx, B32.readBack_exceptional] at he
    have h1 := congrArg B32.mant (Except.ok.inj he)
    rw [mant_mk _ (by decide), hx] at h1
    omega
  · intro hx
    rw [B32.readBack_eq (Nat.pos_of_ne_zero h0) hfin hx, mk_eta]

/-- NaNs are read as the same NaN. -/
theorem C67_nan (x : F32) (h : NaN x) : b32Text.parse (b32Text.str x) = .ok B32.nan := by
  rw [C67_parse_str, if_pos (isNaN_iff.mpr h)]

/-- The exception: `7.038531e-26` is read as the next number. -/
theorem C67_exception : b32Text.str exception = [55, 46, 48, 51, 56, 53, 51, 49, 101, 45, 50, 54] ∧
    b32Text.parse (b32Text.str exception) = .ok (exception + 1) ∧
    b32Text.parse (b32Text.str negException) = .ok (negException + 1) := by
  refine ⟨by decide +kernel, ?_, ?_⟩
  · rw [C67_parse_str]
    decide +kernel
  · rw [C67_parse_str]
    decide +kernel

/-- The numbers whose text has no blanks and is read as the same number -/
theorem C67_printable (x : F32) :
    @Printable F32 b32Text x ↔ (NaN x → x = B32.nan) ∧ x ≠ exception ∧ x ≠ negException := by
  have hc : NumberText (b32Text.str x) := B32.str_chars x
  have hs : @Printable F32 b32Text x ↔ b32Text.parse (b32Text.str x) = .ok x := ⟨fun h => h.2, fun h => ⟨hc, h⟩⟩
  rw [hs]
  by_cases h : NaN x
  · rw [C67_nan x h]
    constructor
    · intro he
      rw [← Except.ok.inj he]
      exact ⟨fun _ => rfl, by decide, by decide⟩
    · intro he
      rw [he.1 h]
  · rw [C67_survives x h]
    exact ⟨fun he => ⟨fun hn => absurd hn h, he⟩, fun he => he.2⟩

/-- Round trip of the text formats, with what float32 numbers look like. -/
theorem C67_round_trip [NumOps F32] [TextIO] (dims lossy : Bool) (sep : PyStr) (hs : TextSep sep) (e : Embeddings F32)
    (he : BuiltEmb e) (hne : dims = false → e.vocab.words ≠ []) (hc : CodesOk e.storage)
    (hw : ∀ w ∈ e.vocab.words, TextWord w)
    (hz : e.storage.nCols = 0 → ∀ w ∈ e.vocab.words, ∀ c, w.getLast? = some c → isSpace c = false)
    (hx : ∀ i v, i < e.vocab.words.length → Exported e i v → ∀ x ∈ v, ¬ NaN x ∧ x ≠ exception ∧ x ≠ negException)
    (hsh : ShapeOk e.vocab.words.length e.storage.nCols)
    (hsz : ∀ vs, ExportedAll e vs →
      (utf8 (textFile dims sep e.storage.nCols (@strRows F32 b32Text (e.vocab.words.zip vs)))).length < 2 ^ 63) :
    ∃ vs bs e', ExportedAll e vs ∧ (@writeText F32 _ b32Text dims e sep).file = (.ok (), bs) ∧
      (if dims then @loadTextDims F32 _ b32Text _ lossy else @loadText F32 _ b32Text _ lossy) bs = .ok e' ∧
      Normalized e.storage.nCols e.vocab.words vs e' := by
  have hr : @TextReady F32 _ b32Text e := @TextReady.mk F32 _ b32Text e hc hw hz
    (fun i v hi hv x hxv => (C67_printable x).mpr ⟨fun hn => absurd hn (hx i v hi hv x hxv).1, (hx i v hi hv x hxv).2⟩) hsh
  cases dims with
  | true => exact @C40_round_trip_dims F32 _ b32Text _ lossy sep hs e he hr hsz
  | false => exact @C40_round_trip F32 _ b32Text _ lossy sep hs e he hr (hne rfl) hsz

namespace Sample

/-- `0.1` -/
def tenth : F32 := 0x3DCCCCCD

example : b32Text.str tenth = [48, 46, 49] ∧ Finite tenth ∧ ¬ NaN tenth := by
  refine ⟨by decide +kernel, by unfold F32.Finite; decide, by unfold NaN; decide⟩

example : ∃ m e, DecimalText (b32Text.str tenth) (decide (sgn tenth = 1)) m e ∧
    RoundsTo (decimalVal (decide (sgn tenth = 1)) m e) tenth := C67_text tenth (by unfold F32.Finite; decide)

/-- Nine digits: `0.100000024` -/
example : b32Text.str 0x3DCCCCD0 = [48, 46, 49, 48, 48, 48, 48, 48, 48, 50, 52] := by decide +kernel

/-- Scientific notation: `-1.5e-05`, `1e+16` -/
example : b32Text.str 0xB77BA882 = [45, 49, 46, 53, 101, 45, 48, 53] ∧
    b32Text.str 0x5A0E1BCA = [49, 101, 43, 49, 54] := by decide +kernel

example : ∃ m e N, DecimalText (b32Text.str tenth) (decide (sgn tenth = 1)) m e ∧ N ≤ 9 ∧
    Significant N (decimalVal (decide (sgn tenth = 1)) m e) ∧
    ∀ N' z, Significant N' z → RoundsTo z tenth → N ≤ N' :=
  C67_shortest tenth (by unfold F32.Finite; decide) (fun h => absurd (val_zero_iff.mp h) (by decide))

/-- `-12.5E+3` -/
theorem text_12500 : DecimalText [45, 49, 50, 46, 53, 69, 43, 51] true 125 2 :=
  .neg ⟨[49, 50], [53], [46, 53], [69, 43, 51], 3, by simp [Digits], .point (by simp [Digits]),
    .pos (sg := [43]) (.inr rfl) (.inr rfl) (by simp [Digits]) (by simp), by simp, rfl, rfl, rfl⟩

example : ∃ x y, b32Text.parse [45, 49, 50, 46, 53, 69, 43, 51] = .ok x ∧ (sgn x = 1 ↔ true = true) ∧
    F64.Nearest (decimalVal true 125 2) y ∧ RoundsTo y x := C67_read _ _ _ _ text_12500

example (x : F32) : b32Text.parse [45, 49, 50, 46, 53, 69, 43, 51] = .ok x ↔
    (sgn x = 1 ↔ true = true) ∧ ∃ y, F64.Nearest (decimalVal true 125 2) y ∧ RoundsTo y x :=
  C67_read_exact _ _ _ _ text_12500 x

/-- It is -12500. -/
example : b32Text.parse [45, 49, 50, 46, 53, 69, 43, 51] = .ok 0xC6435000 := by
  exact B32.parse_of_read (by decide +kernel)

/-- Blanks, underscores, digits of other scripts, and words -/
example : B32.read [32, 49, 95, 48, 48, 48, 0x663, 10] = some 0x461C4C00 ∧
    B32.read [45, 73, 78, 70] = some negInf ∧ B32.read [78, 97, 78] = some B32.nan ∧
    B32.read [49, 95, 95, 48] = none ∧ B32.read [48, 120, 49] = none ∧ B32.read [] = none := by decide +kernel

example : b32Text.parse (b32Text.str tenth) = .ok tenth :=
  (C67_survives tenth (by unfold NaN; decide)).mpr ⟨by decide, by decide⟩

example : b32Text.parse (b32Text.str exception) ≠ .ok exception :=
  fun h => ((C67_survives exception (by unfold NaN; decide)).mp h).1 rfl

example : b32Text.parse (b32Text.str 0xFFC00001) = .ok B32.nan := C67_nan _ (by unfold NaN; decide)

example : @Printable F32 b32Text tenth :=
  (C67_printable tenth).mpr ⟨fun h => absurd h (by unfold NaN; decide), by decide, by decide⟩

/-- Three rows of unit length, norms 5, 10 and 0.1: `3.0 4.0`, `8.0 6.0`, `0.1 0.0` -/
def embText : Embeddings F32 :=
  ⟨.nd ⟨2, [[0x3F19999A, 0x3F4CCCCD], [0x3F4CCCCD, 0x3F19999A], [0x3F800000, 0]]⟩, simple,
    some [0x40A00000, 0x41200000, 0x3DCCCCCD], none⟩

theorem builtEmbText : BuiltEmb embText :=
  ⟨builtSimple, (by unfold embText StorageWF Mat.WF ShapeOk; decide), rfl⟩

theorem exportedText : @ExportedAll F32 b32Ops embText
    [[0x40400000, 0x40800000], [0x41000000, 0x40C00000], [0x3DCCCCCD, 0]] := by
  refine ⟨rfl, fun i v hv => (@exportRow_ok F32 b32Ops embText embText.storage i v builtEmbText rfl).mp ?_⟩
  match i, hv with
  | 0, hv => cases hv; decide +kernel
  | 1, hv => cases hv; decide +kernel
  | 2, hv => cases hv; decide +kernel

/-- Both formats; the separator is a tab. -/
example (dims : Bool) : ∃ vs bs e', @ExportedAll F32 b32Ops embText vs ∧
    (@writeText F32 b32Ops b32Text dims embText [9]).file = (.ok (), bs) ∧
    (if dims then @loadTextDims F32 b32Ops b32Text textIO false else @loadText F32 b32Ops b32Text textIO false) bs =
      .ok e' ∧ @Normalized F32 b32Ops 2 words vs e' := by
  refine @C67_round_trip b32Ops textIO dims false [9] ⟨by decide, by
      intro c hc; rw [List.mem_singleton] at hc; subst hc; decide⟩ embText builtEmbText (fun _ => by decide) trivial
    textWords (fun h => absurd h (by decide)) ?_ (by unfold ShapeOk; decide) ?_
  · intro i v hi hv
    have hx : ∀ x ∈ ([[0x40400000, 0x40800000], [0x41000000, 0x40C00000], [0x3DCCCCCD, 0]] : List (List F32)).flatten,
        ¬ NaN x ∧ x ≠ exception ∧ x ≠ negException := by
      intro x hx
      simp only [List.flatten_cons, List.flatten_nil, List.cons_append, List.nil_append, List.mem_cons,
        List.not_mem_nil, or_false] at hx
      rcases hx with rfl | rfl | rfl | rfl | rfl | rfl <;> exact ⟨by unfold NaN; decide, by decide, by decide⟩
    have hi' : i < [[0x40400000, 0x40800000], [0x41000000, 0x40C00000], [(0x3DCCCCCD : F32), 0]].length := hi
    have he := @exported_unique F32 b32Ops _ builtEmbText _ _ _ hv
      (exportedText.2 i _ (List.getElem?_eq_getElem hi'))
    intro x hxv
    refine hx x (List.mem_flatten.mpr ⟨v, ?_, hxv⟩)
    rw [he]
    exact List.getElem_mem hi'
  · intro vs hv
    rw [@exportedAll_unique F32 b32Ops _ builtEmbText _ _ hv exportedText]
    cases dims <;> decide +kernel

/-- `a 3.0 4.0`, `ß 8.0 6.0`, `語 0.1 0.0` -/
example : (@writeText F32 b32Ops b32Text false embText [32]).file.2 = utf8 (
    [97, 32, 51, 46, 48, 32, 52, 46, 48, 10] ++ [0xDF, 32, 56, 46, 48, 32, 54, 46, 48, 10] ++
    [0x8A9E, 32, 48, 46, 49, 32, 48, 46, 48, 10]) := by decide +kernel

end Sample

end FF
