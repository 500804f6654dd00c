import Verif.Lemmas.Float32
/-!
# The operations of binary32 are correctly rounded
-/

namespace FF

open B32

namespace F32

/-! ### Patterns and numbers -/

theorem isFin_iff {b : F32} : isFin b = true ↔ Finite b := by
  have := b.toNat_lt
  unfold isFin Finite ex mant B32.inf
  rw [decide_eq_true_iff]
  omega

theorem fin_mant {b : F32} (h : Finite b) : mant b < B32.inf := by
  have := isFin_iff.mpr h
  unfold isFin at this
  exact decide_eq_true_iff.mp this

theorem not_nan_inf {b : F32} (h : Finite b) : isNaN b = false ∧ isInf b = false := by
  have := fin_mant h
  unfold isNaN isInf
  simp only [decide_eq_false_iff_not]
  omega

theorem isNaN_iff {b : F32} : isNaN b = true ↔ NaN b := by
  have := b.toNat_lt
  unfold isNaN NaN ex fr mant B32.inf
  rw [decide_eq_true_iff]
  omega

theorem isInf_iff {b : F32} : isInf b = true ↔ b = posInf ∨ b = negInf := by
  have := b.toNat_lt
  unfold isInf mant B32.inf posInf negInf
  rw [decide_eq_true_iff, ← UInt32.toNat_inj, ← UInt32.toNat_inj]
  show _ ↔ b.toNat = 2139095040 ∨ b.toNat = 4286578688
  omega

/-- The real number of a sign. -/
noncomputable def sg (s : Bool) : ℝ := if s then -1 else 1

theorem sg_sq (s : Bool) : sg s * sg s = 1 := by cases s <;> norm_num [sg]

theorem abs_sg (s : Bool) : |sg s| = 1 := by cases s <;> norm_num [sg]

theorem sg_xor (s t : Bool) : sg (s != t) = sg s * sg t := by cases s <;> cases t <;> norm_num [sg]

theorem sg_ne (s : Bool) : sg s ≠ 0 := by cases s <;> norm_num [sg]

theorem val_eq (b : F32) : val b = sg (sign b) * ((mag (mant b) : ℝ) / 2 ^ 149) := by
  have hb := b.toNat_lt
  have hs : ((-1 : ℝ)) ^ sgn b = sg (sign b) := by
    unfold sgn sign sg
    by_cases h : 2 ^ 31 ≤ b.toNat
    · rw [show b.toNat / 2 ^ 31 = 1 by omega, decide_eq_true h]
      simp
    · rw [show b.toNat / 2 ^ 31 = 0 by omega, decide_eq_false h]
      simp
  have he : ex b = mant b / 2 ^ 23 := by unfold ex mant; omega
  have hf : fr b = mant b % 2 ^ 23 := by unfold fr mant; omega
  unfold val mag
  rw [hs, he, hf]
  by_cases h : mant b / 2 ^ 23 = 0
  · rw [if_pos h, if_pos (by omega), show mant b % 2 ^ 23 = mant b by omega, zpow_neg]
    norm_cast
  · rw [if_neg h, if_neg (by omega)]
    have e : (2 : ℝ) ^ (((mant b / 2 ^ 23 : Nat) : ℤ) - 150) = 2 ^ (mant b / 2 ^ 23 - 1) / 2 ^ 149 := by
      rw [show (((mant b / 2 ^ 23 : Nat) : ℤ) - 150) = ((mant b / 2 ^ 23 - 1 : Nat) : ℤ) - ((149 : Nat) : ℤ) by
        omega, zpow_sub₀ (by norm_num), zpow_natCast, zpow_natCast]
    rw [e, Nat.cast_mul, Nat.cast_add, Nat.cast_pow, Nat.cast_pow, mul_div_assoc]
    rfl

theorem val_int (b : F32) : val b = (B32.int b : ℝ) / 2 ^ 149 := by
  rw [val_eq]
  unfold B32.int sg
  by_cases h : sign b = true
  · rw [if_pos h, if_pos h]; push_cast; ring
  · rw [if_neg h, if_neg h]; push_cast; ring

theorem lt_iff {a b : F32} (ha : isNaN a = false) (hb : isNaN b = false) :
    B32.lt a b = true ↔ val a < val b := by
  unfold B32.lt
  rw [ha, hb, val_int, val_int, div_lt_div_iff_of_pos_right (by positivity)]
  simp

theorem abs_val (b : F32) : |val b| = (mag (mant b) : ℝ) / 2 ^ 149 := by
  rw [val_eq, abs_mul, abs_sg, one_mul, abs_of_nonneg (by positivity)]

theorem toNat_mk (s : Bool) {n : Nat} (h : n < 2 ^ 31) : (mk s n).toNat = n + if s then 2 ^ 31 else 0 := by
  unfold mk
  rw [UInt32.toNat_ofNat_of_lt']
  cases s <;> simp <;> (norm_num [UInt32.size]; omega)

theorem sign_mk (s : Bool) {n : Nat} (h : n < 2 ^ 31) : sign (mk s n) = s := by
  unfold sign
  rw [toNat_mk s h]
  cases s <;> simp <;> omega

theorem mant_mk (s : Bool) {n : Nat} (h : n < 2 ^ 31) : mant (mk s n) = n := by
  unfold mant
  rw [toNat_mk s h]
  cases s <;> simp <;> omega

theorem val_mk (s : Bool) {n : Nat} (h : n < 2 ^ 31) : val (mk s n) = sg s * ((mag n : ℝ) / 2 ^ 149) := by
  rw [val_eq, sign_mk s h, mant_mk s h]

theorem finite_mk (s : Bool) {n : Nat} (h : n < B32.inf) : Finite (mk s n) := by
  rw [← isFin_iff]
  unfold isFin
  rw [mant_mk s (by unfold B32.inf at h; omega)]
  exact decide_eq_true h

theorem fr_mk (s : Bool) {n : Nat} (h : n < 2 ^ 31) : fr (mk s n) % 2 = n % 2 := by
  unfold fr
  rw [toNat_mk s h]
  cases s <;> simp <;> omega

theorem mk_eta (b : F32) : mk (sign b) (mant b) = b := by
  have hb := b.toNat_lt
  rw [← UInt32.toNat_inj, toNat_mk _ (by unfold mant; omega)]
  unfold sign mant
  by_cases h : 2 ^ 31 ≤ b.toNat
  · rw [decide_eq_true h, if_pos rfl]; omega
  · rw [decide_eq_false h, if_neg (by simp)]; omega

theorem mag_zero_iff {n : Nat} : mag n = 0 ↔ n = 0 := by
  unfold mag
  split
  · rfl
  · constructor
    · intro h
      have : 0 < (2 ^ 23 + n % 2 ^ 23) * 2 ^ (n / 2 ^ 23 - 1) := by positivity
      omega
    · intro h; omega

theorem val_zero_iff {b : F32} : val b = 0 ↔ mant b = 0 := by
  rw [← abs_eq_zero, abs_val, div_eq_zero_iff]
  simp only [Nat.cast_eq_zero, mag_zero_iff]
  norm_num

theorem mk_posInf : mk false B32.inf = posInf := by decide

theorem mk_negInf : mk true B32.inf = negInf := by decide

theorem neg_finite {b : F32} (h : Finite b) : Finite (B32.neg b) := finite_mk _ (fin_mant h)

theorem neg_val {b : F32} (h : Finite b) : val (B32.neg b) = -val b := by
  have := fin_mant h
  unfold B32.neg
  rw [val_mk _ (by unfold B32.inf at this; omega), val_eq b]
  cases sign b <;> norm_num [sg]

theorem overflow_eq : overflow = (2 ^ 25 - 1) * 2 ^ 252 / 2 ^ 149 := by
  unfold overflow
  rw [eq_div_iff (by positivity), sub_mul, sub_mul, ← pow_add, ← pow_add, ← pow_add, one_mul]

/-! ### Results -/

/-- The result of an operation with the exact result `x` -/
structure Result (x : ℝ) (b : F32) : Prop where
  rounds : RoundsTo x b
  fin : |x| < overflow → Finite b
  error : |x| < overflow → |val b - x| ≤ (2 : ℝ)⁻¹ ^ 24 * |x| + 2⁻¹ ^ 150
  near : |x| < overflow → (2 : ℝ)⁻¹ ^ 126 ≤ |x| → Near ((2 : ℝ)⁻¹ ^ 24) x (val b)

section
variable {X : ℝ} {k q : Nat}

theorem val_rnd (h : Rnd X k q) (s : Bool) (hX : X < (2 ^ 25 - 1) * 2 ^ 252) :
    Finite (mk s (min B32.inf (k * 2 ^ 23 + q))) ∧
      val (mk s (min B32.inf (k * 2 ^ 23 + q))) = sg s * ((q : ℝ) * 2 ^ k / 2 ^ 149) := by
  have h1 := h.fin hX
  rw [min_eq_right h1.le]
  refine ⟨finite_mk s h1, ?_⟩
  rw [val_mk s (by unfold B32.inf at h1; omega), h.mag]
  push_cast
  rfl

theorem err_rnd (s : Bool) : |sg s * ((q : ℝ) * 2 ^ k / 2 ^ 149) - sg s * (X / 2 ^ 149)| =
    |(q : ℝ) * 2 ^ k - X| / 2 ^ 149 := by
  rw [← mul_sub, abs_mul, abs_sg, one_mul, ← sub_div, abs_div, abs_of_pos (show (0 : ℝ) < 2 ^ 149 by positivity)]

theorem nearest_rnd (h : Rnd X k q) (hX0 : 0 ≤ X) (s : Bool) (hX : X < (2 ^ 25 - 1) * 2 ^ 252) :
    Nearest (sg s * (X / 2 ^ 149)) (mk s (min B32.inf (k * 2 ^ 23 + q))) := by
  obtain ⟨h1, h2⟩ := val_rnd h s hX
  have h3 := h.fin hX
  have hpos : (0 : ℝ) < 2 ^ 149 := by positivity
  have hev : q % 2 = 0 → fr (mk s (min B32.inf (k * 2 ^ 23 + q))) % 2 = 0 := by
    intro he
    rw [min_eq_right h3.le, fr_mk s (by unfold B32.inf at h3; omega)]
    omega
  refine ⟨h1, fun c hc => ?_⟩
  rw [h2, err_rnd, val_eq c]
  by_cases hs : sign c = s
  · rw [hs, ← mul_sub, abs_mul, abs_sg, one_mul, ← sub_div, abs_div, abs_of_pos hpos]
    obtain ⟨g1, g2⟩ := h.nearest (mant c)
    refine ⟨div_le_div_of_nonneg_right g1 hpos.le, fun he => ?_⟩
    rcases g2 (by rwa [div_left_inj' hpos.ne'] at he) with g | g
    · left; rw [g]
    · right; exact hev g
  · obtain ⟨g1, g2⟩ := h.nearest 0
    have hm0 : B32.mag 0 = 0 := rfl
    rw [hm0] at g1 g2
    simp only [Nat.cast_zero, zero_sub, abs_neg, abs_of_nonneg hX0] at g1 g2
    have hsg : sg (sign c) = -sg s := by
      revert hs
      cases sign c <;> cases s <;> simp [sg]
    have e : |sg (sign c) * ((mag (mant c) : ℝ) / 2 ^ 149) - sg s * (X / 2 ^ 149)| =
        (mag (mant c) + X) / 2 ^ 149 := by
      rw [hsg, show -sg s * ((mag (mant c) : ℝ) / 2 ^ 149) - sg s * (X / 2 ^ 149) =
        sg s * (-((mag (mant c) + X) / 2 ^ 149)) by ring, abs_mul, abs_sg, one_mul, abs_neg,
        abs_of_nonneg (by positivity)]
    rw [e]
    have hm : (0 : ℝ) ≤ mag (mant c) := by positivity
    refine ⟨div_le_div_of_nonneg_right (by linarith) hpos.le, fun he => ?_⟩
    rw [div_left_inj' hpos.ne'] at he
    have hz : (mag (mant c) : ℝ) = 0 := by linarith
    rcases g2 (by linarith) with g | g
    · left; rw [g, hz]; simp
    · right; exact hev g

theorem result_rnd (h : Rnd X k q) (hX0 : 0 ≤ X) (s : Bool) :
    Result (sg s * (X / 2 ^ 149)) (mk s (min B32.inf (k * 2 ^ 23 + q))) := by
  have hpos : (0 : ℝ) < 2 ^ 149 := by positivity
  have habs : |sg s * (X / 2 ^ 149)| = X / 2 ^ 149 := by
    rw [abs_mul, abs_sg, one_mul, abs_of_nonneg (by positivity)]
  have hlt : |sg s * (X / 2 ^ 149)| < overflow ↔ X < (2 ^ 25 - 1) * 2 ^ 252 := by
    rw [habs, overflow_eq]
    exact div_lt_div_iff_of_pos_right hpos
  refine ⟨?_, fun hx => (val_rnd h s (hlt.mp hx)).1, fun hx => ?_, fun hx hn => ?_⟩
  · by_cases hx : |sg s * (X / 2 ^ 149)| < overflow
    · exact Or.inl ⟨hx, nearest_rnd h hX0 s (hlt.mp hx)⟩
    · right
      have hX : (2 ^ 25 - 1) * 2 ^ 252 ≤ X := not_lt.mp (fun hc => hx (hlt.mpr hc))
      rw [min_eq_left (h.over hX)]
      have : overflow ≤ X / 2 ^ 149 := by
        rw [overflow_eq]
        exact div_le_div_of_nonneg_right hX hpos.le
      cases s with
      | false => exact Or.inl ⟨by simpa [sg] using this, mk_posInf⟩
      | true => exact Or.inr ⟨by simpa [sg] using this, mk_negInf⟩
  · rw [(val_rnd h s (hlt.mp hx)).2, err_rnd, habs]
    have h1 := h.absolute hX0
    calc _ ≤ ((2 : ℝ)⁻¹ ^ 24 * X + 1 / 2) / 2 ^ 149 := div_le_div_of_nonneg_right h1 hpos.le
      _ = _ := by rw [add_div, mul_div_assoc, inv_pow _ 150]; congr 1; rw [div_div, ← pow_succ', one_div]
  · unfold Near
    rw [(val_rnd h s (hlt.mp hx)).2, err_rnd, habs]
    rw [habs, le_div_iff₀ hpos] at hn
    have h23 : (2 : ℝ) ^ 23 ≤ X := by
      refine le_trans (le_of_eq ?_) hn
      rw [inv_pow, inv_mul_eq_div, eq_div_iff (by positivity), ← pow_add]
    rw [← mul_div_assoc]
    exact div_le_div_of_nonneg_right (h.relative h23) hpos.le

/-- Numbers that are a whole number of units have no absolute error. -/
theorem near_integer {n : Nat} (h : Rnd n k q) (s : Bool) (hx : |sg s * ((n : ℝ) / 2 ^ 149)| < overflow) :
    Near ((2 : ℝ)⁻¹ ^ 24) (sg s * ((n : ℝ) / 2 ^ 149)) (val (mk s (min B32.inf (k * 2 ^ 23 + q)))) := by
  have hpos : (0 : ℝ) < 2 ^ 149 := by positivity
  have habs : |sg s * ((n : ℝ) / 2 ^ 149)| = (n : ℝ) / 2 ^ 149 := by
    rw [abs_mul, abs_sg, one_mul, abs_of_nonneg (by positivity)]
  rw [habs, overflow_eq, div_lt_div_iff_of_pos_right hpos] at hx
  unfold Near
  rw [(val_rnd h s hx).2, err_rnd, habs, ← mul_div_assoc]
  exact div_le_div_of_nonneg_right h.integer hpos.le

end

theorem result_round (num : Nat) {den : Nat} (hd : 0 < den) (s : Bool) :
    Result (sg s * ((num : ℝ) / den / 2 ^ 149)) (mk s (round num den)) :=
  result_rnd (round_rnd num hd) (by positivity) s

/-- A zero result does not depend on the sign. -/
theorem result_zero {x : ℝ} {num den : Nat} (hd : 0 < den) (s : Bool)
    (hx : num ≠ 0 → x = sg s * ((num : ℝ) / den / 2 ^ 149)) (h0 : num = 0 → x = 0) :
    Result x (mk s (round num den)) := by
  by_cases hn : num = 0
  · have := result_round num hd s
    rw [h0 hn]
    rw [hn] at this ⊢
    simpa using this
  · rw [hx hn]
    exact result_round num hd s

/-! ### The operations -/

/-- The sign of an integer result. -/
theorem sg_natAbs (t : Int) (z : Bool) (h : t ≠ 0) :
    (t : ℝ) = sg (if t = 0 then z else decide (t < 0)) * (t.natAbs : ℝ) := by
  rw [if_neg h]
  have : (t.natAbs : ℝ) = |(t : ℝ)| := by
    rw [Nat.cast_natAbs]; simp
  rw [this]
  by_cases hn : t < 0
  · have : (t : ℝ) < 0 := by exact_mod_cast hn
    simp [sg, hn, abs_of_neg this]
  · have : (0 : ℝ) ≤ t := by exact_mod_cast (not_lt.mp hn)
    simp [sg, hn, abs_of_nonneg this]

theorem add_eq {a b : F32} (ha : Finite a) (hb : Finite b) : B32.add a b =
    mk (if B32.int a + B32.int b = 0 then sign a && sign b else decide (B32.int a + B32.int b < 0))
      (round (B32.int a + B32.int b).natAbs 1) := by
  unfold B32.add
  simp [not_nan_inf ha, not_nan_inf hb]

theorem add_result {a b : F32} (ha : Finite a) (hb : Finite b) :
    Result (val a + val b) (B32.add a b) ∧
      (|val a + val b| < overflow → Near ((2 : ℝ)⁻¹ ^ 24) (val a + val b) (val (B32.add a b))) := by
  rw [add_eq ha hb]
  have e : val a + val b = ((B32.int a + B32.int b : Int) : ℝ) / 2 ^ 149 := by
    rw [val_int, val_int]; push_cast; ring
  rw [e]
  generalize B32.int a + B32.int b = t
  by_cases h : t = 0
  · subst h
    have h1 := result_round 0 (den := 1) (by norm_num) (sign a && sign b)
    have h2 := near_integer (n := 0) (by simpa using round_rnd 0 (den := 1) (by norm_num)) (sign a && sign b)
    simp only [Nat.cast_zero, zero_div, mul_zero, Nat.cast_one, Int.cast_zero, Int.natAbs_zero, ite_true]
      at h1 h2 ⊢
    exact ⟨h1, h2⟩
  · have e2 : (t : ℝ) / 2 ^ 149 = sg (if t = 0 then sign a && sign b else decide (t < 0)) *
        ((t.natAbs : ℝ) / 2 ^ 149) := by
      rw [← mul_div_assoc, ← sg_natAbs t _ h]
    rw [e2]
    constructor
    · have := result_round t.natAbs (den := 1) (by norm_num)
        (if t = 0 then sign a && sign b else decide (t < 0))
      simpa using this
    · intro hx
      have h1 := round_rnd t.natAbs (den := 1) (by norm_num)
      have h2 := near_integer (n := t.natAbs) (by simpa using h1) _ hx
      unfold B32.round
      simpa using h2

theorem sub_result {a b : F32} (ha : Finite a) (hb : Finite b) :
    Result (val a - val b) (B32.sub a b) ∧
      (|val a - val b| < overflow → Near ((2 : ℝ)⁻¹ ^ 24) (val a - val b) (val (B32.sub a b))) := by
  have := add_result ha (neg_finite hb)
  rw [neg_val hb, ← sub_eq_add_neg] at this
  exact this

theorem mul_result {a b : F32} (ha : Finite a) (hb : Finite b) : Result (val a * val b) (B32.mul a b) := by
  unfold B32.mul
  simp only [not_nan_inf ha, not_nan_inf hb, Bool.or_self, Bool.false_eq_true, if_false]
  have := result_round (mag (mant a) * mag (mant b)) (den := 2 ^ 149) (by positivity) (sign a != sign b)
  have e : val a * val b = sg (sign a != sign b) *
      (((mag (mant a) * mag (mant b) : Nat) : ℝ) / (2 ^ 149 : Nat) / 2 ^ 149) := by
    rw [val_eq a, val_eq b, sg_xor]
    push_cast
    ring
  rw [e]
  exact this

theorem div_result {a b : F32} (ha : Finite a) (hb : Finite b) (h0 : val b ≠ 0) :
    Result (val a / val b) (B32.div a b) := by
  have hm : mant b ≠ 0 := fun h => h0 (val_zero_iff.mpr h)
  have hmag : 0 < mag (mant b) := Nat.pos_of_ne_zero fun h => hm (mag_zero_iff.mp h)
  unfold B32.div
  simp only [not_nan_inf ha, not_nan_inf hb, Bool.or_self, Bool.false_eq_true, if_false, hm]
  have := result_round (mag (mant a) * 2 ^ 149) hmag (sign a != sign b)
  have e : val a / val b = sg (sign a != sign b) *
      (((mag (mant a) * 2 ^ 149 : Nat) : ℝ) / mag (mant b) / 2 ^ 149) := by
    rw [val_eq a, val_eq b, sg_xor]
    have h1 : (mag (mant b) : ℝ) ≠ 0 := by exact_mod_cast hmag.ne'
    have h2 := sg_sq (sign b)
    have h3 := sg_ne (sign b)
    push_cast
    field_simp
    rw [pow_two, h2]
    ring
  rw [e]
  exact this

theorem fma_result {a b c : F32} (ha : Finite a) (hb : Finite b) (hc : Finite c) :
    Result (val a * val b + val c) (B32.fma a b c) := by
  unfold B32.fma
  simp only [not_nan_inf ha, not_nan_inf hb, not_nan_inf hc, Bool.or_self, Bool.false_eq_true, if_false]
  have e : val a * val b + val c = ((B32.int a * B32.int b + B32.int c * 2 ^ 149 : Int) : ℝ) /
      (2 ^ 149 : Nat) / 2 ^ 149 := by
    rw [val_int, val_int, val_int, Nat.cast_pow, Nat.cast_ofNat, Int.cast_add, Int.cast_mul, Int.cast_mul,
      Int.cast_pow, Int.cast_ofNat]
    field_simp
  rw [e]
  generalize B32.int a * B32.int b + B32.int c * 2 ^ 149 = t
  refine result_zero (by positivity) _ (fun h => ?_) (fun h => ?_)
  · rw [← mul_div_assoc, ← mul_div_assoc, ← sg_natAbs t _ (by omega)]
  · rw [show t = 0 by omega]; simp

theorem sqrt_result {a : F32} (ha : Finite a) (h0 : 0 ≤ val a) : Result (Real.sqrt (val a)) (B32.sqrt a) := by
  unfold B32.sqrt
  simp only [not_nan_inf ha, Bool.false_eq_true, if_false]
  by_cases hm : mant a = 0
  · rw [if_pos hm]
    have hv := val_zero_iff.mpr hm
    rw [hv, Real.sqrt_zero]
    have hn : Nearest 0 a := ⟨ha, fun c _ => by
      rw [hv]
      refine ⟨by simp, fun h => Or.inl ?_⟩
      simp only [sub_zero, abs_zero] at h
      exact (abs_eq_zero.mp h.symm).symm⟩
    have ho : (0 : ℝ) < overflow := by unfold overflow; norm_num
    refine ⟨Or.inl ⟨by simpa using ho, hn⟩, fun _ => ha, fun _ => ?_, fun _ _ => ?_⟩
    · rw [hv]; simp
    · unfold Near; rw [hv]; simp
  · rw [if_neg hm]
    have hs : sign a = false := by
      by_contra hc
      have hc : sign a = true := by simpa using hc
      rw [val_eq, hc] at h0
      have : 0 < mag (mant a) := Nat.pos_of_ne_zero fun h => hm (mag_zero_iff.mp h)
      have : (0 : ℝ) < mag (mant a) / 2 ^ 149 := by positivity
      simp only [sg, if_true] at h0
      linarith
    simp only [hs, Bool.false_eq_true, if_false]
    obtain ⟨q, h1, h2⟩ := roundSqrt_rnd (mag (mant a) * 2 ^ 149)
    rw [h1]
    have h3 := result_rnd h2 (Real.sqrt_nonneg _) false
    have e : Real.sqrt (val a) = sg false * (Real.sqrt ((mag (mant a) * 2 ^ 149 : Nat) : ℝ) / 2 ^ 149) := by
      rw [val_eq, hs]
      simp only [sg, Bool.false_eq_true, if_false, one_mul]
      rw [Nat.cast_mul, Nat.cast_pow, Nat.cast_ofNat, eq_div_iff (by positivity), Real.sqrt_div (by positivity), Real.sqrt_mul (by positivity)]
      have h149 : Real.sqrt ((2 : ℝ) ^ 149) ^ 2 = 2 ^ 149 := Real.sq_sqrt (by positivity)
      have hne : Real.sqrt ((2 : ℝ) ^ 149) ≠ 0 := by positivity
      rw [div_mul_eq_mul_div, div_eq_iff hne]
      generalize Real.sqrt ((2 : ℝ) ^ 149) = z at *
      rw [← h149]
      ring
    rw [e]
    exact h3

theorem ofNat_result (n : Nat) : Result n (B32.ofNat n) := by
  have := result_round (n * 2 ^ 149) (den := 1) (by norm_num) false
  have e : (n : ℝ) = sg false * (((n * 2 ^ 149 : Nat) : ℝ) / (1 : Nat) / 2 ^ 149) := by
    simp only [sg, Bool.false_eq_true, if_false, one_mul]
    rw [Nat.cast_mul, Nat.cast_pow, Nat.cast_ofNat, Nat.cast_one]
    field_simp
  rw [e]
  exact this

end F32

end FF
