import Verif.Lemmas.FloatShortest
import Verif.Lemmas.FloatLit
/-!
# Rounding has only one result
-/

namespace FF

namespace B32

open F32

/-- What lies between two equally near numbers is nearer. -/
theorem nearer_between {x a b c : ℝ} (h : |a - x| = |b - x|) (h1 : a < c) (h2 : c < b) : |c - x| < |a - x| := by
  have hx : a + b = 2 * x := by
    rcases abs_eq_abs.mp h with h | h <;> linarith
  rw [abs_of_neg (show a - x < 0 by linarith), abs_lt]
  constructor <;> linarith

theorem mant_fr (b : F32) : mant b % 2 = fr b % 2 := by
  unfold mant fr
  omega

theorem mag_mono_iff {m n : Nat} : mag m < mag n ↔ m < n := mag_strictMono.lt_iff_lt

theorem between_nonneg {a b : F32} (hb : F32.Finite b) (ea : fr a % 2 = 0) (eb : fr b % 2 = 0)
    (h0 : 0 ≤ val a) (h : val a < val b) : ∃ c, F32.Finite c ∧ val a < val c ∧ val c < val b := by
  have hp : (0 : ℝ) < 2 ^ 149 := by positivity
  have va : val a = (mag (mant a) : ℝ) / 2 ^ 149 := by rw [← abs_val, abs_of_nonneg h0]
  have vb : val b = (mag (mant b) : ℝ) / 2 ^ 149 := by rw [← abs_val, abs_of_nonneg (h0.trans h.le)]
  have hlt : mant a < mant b := by
    rw [va, vb, div_lt_div_iff_of_pos_right hp] at h
    exact mag_mono_iff.mp (by exact_mod_cast h)
  rw [← mant_fr] at ea eb
  have hi := fin_mant hb
  have h31 : inf < 2 ^ 31 := by decide
  refine ⟨mk false (mant a + 1), finite_mk _ (by omega), ?_, ?_⟩
  · rw [va, val_mk _ (by omega), show sg false = 1 from rfl, one_mul, div_lt_div_iff_of_pos_right hp]
    exact_mod_cast mag_mono_iff.mpr (Nat.lt_succ_self _)
  · rw [vb, val_mk _ (by omega), show sg false = 1 from rfl, one_mul, div_lt_div_iff_of_pos_right hp]
    exact_mod_cast mag_mono_iff.mpr (by omega)

theorem neg_fr (b : F32) : fr (B32.neg b) % 2 = fr b % 2 := by
  unfold B32.neg
  rw [fr_mk _ (by unfold mant; omega), mant_fr]

/-- Two even numbers are not neighbours. -/
theorem between {a b : F32} (ha : F32.Finite a) (hb : F32.Finite b) (ea : fr a % 2 = 0) (eb : fr b % 2 = 0)
    (h : val a < val b) : ∃ c, F32.Finite c ∧ val a < val c ∧ val c < val b := by
  rcases le_or_gt 0 (val a) with h0 | h0
  · exact between_nonneg hb ea eb h0 h
  rcases le_or_gt (val b) 0 with h1 | h1
  · obtain ⟨c, c1, c2, c3⟩ := between_nonneg (neg_finite ha) (by rw [neg_fr, eb]) (by rw [neg_fr, ea])
      (by rw [neg_val hb]; linarith) (by rw [neg_val ha, neg_val hb]; linarith)
    rw [neg_val hb] at c2
    rw [neg_val ha] at c3
    exact ⟨B32.neg c, neg_finite c1, by rw [neg_val c1]; linarith, by rw [neg_val c1]; linarith⟩
  · refine ⟨0, by unfold F32.Finite ex; decide, ?_, ?_⟩ <;> rwa [val_zero_iff.mpr (show mant 0 = 0 from rfl)]

theorem nearest_unique {x : ℝ} {a b : F32} (ha : F32.Nearest x a) (hb : F32.Nearest x b) : val a = val b := by
  have e : |val a - x| = |val b - x| := le_antisymm (ha.2 b hb.1).1 (hb.2 a ha.1).1
  by_contra hne
  have ea : fr a % 2 = 0 := ((ha.2 b hb.1).2 e).resolve_left hne
  have eb : fr b % 2 = 0 := ((hb.2 a ha.1).2 e.symm).resolve_left (Ne.symm hne)
  rcases lt_or_gt_of_ne hne with h | h
  · obtain ⟨c, c1, c2, c3⟩ := between ha.1 hb.1 ea eb h
    exact absurd (ha.2 c c1).1 (not_le.mpr (nearer_between e c2 c3))
  · obtain ⟨c, c1, c2, c3⟩ := between hb.1 ha.1 eb ea h
    exact absurd (hb.2 c c1).1 (not_le.mpr (nearer_between e.symm c2 c3))

theorem overflow_pos : 0 < overflow := by
  rw [overflow_eq]
  positivity

theorem sgn_sign {a b : F32} (h : sgn a = 1 ↔ sgn b = 1) : sign a = sign b := by
  have := a.toNat_lt
  have := b.toNat_lt
  unfold sgn at h
  unfold sign
  rw [decide_eq_decide]
  omega

theorem val_inj {a b : F32} (hs : sgn a = 1 ↔ sgn b = 1) (h : val a = val b) : a = b := by
  have hm : mant a = mant b := by
    have : |val a| = |val b| := by rw [h]
    rw [abs_val, abs_val, div_left_inj' (by positivity)] at this
    exact mag_strictMono.injective (by exact_mod_cast this)
  rw [← mk_eta a, ← mk_eta b, sgn_sign hs, hm]

/-- Up to the sign of zero there is only one correctly rounded result. -/
theorem rounds_unique {x : ℝ} {a b : F32} (hs : sgn a = 1 ↔ sgn b = 1) (ha : RoundsTo x a) (hb : RoundsTo x b) :
    a = b := by
  have := overflow_pos
  rcases ha with ⟨a1, a2⟩ | ⟨a1, rfl⟩ | ⟨a1, rfl⟩ <;> rcases hb with ⟨b1, b2⟩ | ⟨b1, rfl⟩ | ⟨b1, rfl⟩ <;>
    try rfl
  · exact val_inj hs (nearest_unique a2 b2)
  · rw [abs_lt] at a1; linarith
  · rw [abs_lt] at a1; linarith
  · rw [abs_lt] at b1; linarith
  · linarith
  · rw [abs_lt] at b1; linarith
  · linarith

/-- The same without fixing the sign -/
theorem rounds_unique_zero {x : ℝ} {a b : F32} (ha : RoundsTo x a) (hb : RoundsTo x b) :
    a = b ∨ (F32.Finite a ∧ F32.Finite b ∧ val a = 0 ∧ val b = 0) := by
  by_cases hs : sgn a = 1 ↔ sgn b = 1
  · exact .inl (rounds_unique hs ha hb)
  have := overflow_pos
  have hp : sgn posInf = 0 := by decide
  have hn : sgn negInf = 1 := by decide
  rcases ha with ⟨a1, a2⟩ | ⟨a1, rfl⟩ | ⟨a1, rfl⟩ <;> rcases hb with ⟨b1, b2⟩ | ⟨b1, rfl⟩ | ⟨b1, rfl⟩
  · have hv := nearest_unique a2 b2
    have hz : val a = 0 := by
      have := a.toNat_lt
      have := b.toNat_lt
      have hne : sign a ≠ sign b := by
        intro he
        apply hs
        unfold sign at he
        rw [decide_eq_decide] at he
        unfold sgn
        omega
      have h1 := val_eq a
      have h2 := val_eq b
      have h3 : (0 : ℝ) ≤ (mag (mant a) : ℝ) / 2 ^ 149 := by positivity
      have h4 : (0 : ℝ) ≤ (mag (mant b) : ℝ) / 2 ^ 149 := by positivity
      cases ha : sign a <;> cases hb : sign b <;> rw [ha, hb] at hne <;> try exact absurd rfl hne
      · rw [ha] at h1; rw [hb] at h2; simp only [sg] at h1 h2; norm_num at h1 h2; linarith
      · rw [ha] at h1; rw [hb] at h2; simp only [sg] at h1 h2; norm_num at h1 h2; linarith
    exact .inr ⟨a2.1, b2.1, hz, hv ▸ hz⟩
  · rw [abs_lt] at a1; linarith
  · rw [abs_lt] at a1; linarith
  · rw [abs_lt] at b1; linarith
  · exact absurd Iff.rfl hs
  · linarith
  · rw [abs_lt] at b1; linarith
  · linarith
  · exact absurd Iff.rfl hs

/-! ### binary64 -/

theorem gap_nat {m k m' k' : Nat} (e : m % 2 = 0) (e' : m' % 2 = 0) (h : m ≤ 2 ^ 53) (h' : m' ≤ 2 ^ 53)
    (hk : k = 0 ∨ 2 ^ 52 ≤ m) (hk' : k' = 0 ∨ 2 ^ 52 ≤ m') (hlt : m * 2 ^ k < m' * 2 ^ k') :
    ∃ n j, n ≤ 2 ^ 53 ∧ m * 2 ^ k < n * 2 ^ j ∧ n * 2 ^ j < m' * 2 ^ k' := by
  rcases lt_trichotomy k k' with hkk | rfl | hkk
  · obtain ⟨d, rfl⟩ : ∃ d, k' = k + d + 1 := ⟨k' - k - 1, by omega⟩
    have hm' : 2 ^ 52 ≤ m' := by omega
    have ha : 0 < 2 ^ k := by positivity
    have hp : 1 ≤ 2 ^ d := Nat.one_le_two_pow
    have e1 : 2 ^ (k + d + 1) = 2 ^ k * 2 ^ d * 2 := by rw [pow_succ, pow_add]
    by_cases hm : 2 ^ 52 = m'
    · rcases Nat.eq_zero_or_pos d with rfl | hd
      · have : m < 2 ^ 53 := by
          rw [e1, pow_zero, mul_one, ← hm] at hlt
          have : m * 2 ^ k < 2 ^ 53 * 2 ^ k := by
            calc _ < _ := hlt
              _ = _ := by ring
          exact lt_of_mul_lt_mul_right this (Nat.zero_le _)
        refine ⟨m + 1, k, by omega, Nat.mul_lt_mul_of_pos_right (by omega) ha, ?_⟩
        rw [e1, pow_zero, mul_one, ← hm]
        calc (m + 1) * 2 ^ k < 2 ^ 53 * 2 ^ k := Nat.mul_lt_mul_of_pos_right (by omega) ha
          _ = _ := by ring
      · have hp2 : 2 ≤ 2 ^ d := by
          calc 2 = 2 ^ 1 := rfl
            _ ≤ _ := Nat.pow_le_pow_right (by omega) hd
        refine ⟨2 ^ 53 - 1, k + d, by omega, ?_, ?_⟩
        · rw [pow_add]
          calc m * 2 ^ k ≤ 2 ^ 53 * 2 ^ k := Nat.mul_le_mul_right _ h
            _ < (2 ^ 53 - 1) * (2 ^ k * 2) := by
              rw [mul_comm (2 ^ k) 2, ← mul_assoc]
              exact Nat.mul_lt_mul_of_pos_right (by norm_num) ha
            _ ≤ _ := Nat.mul_le_mul_left _ (Nat.mul_le_mul_left _ hp2)
        · rw [e1, ← hm, pow_add]
          have : 0 < 2 ^ k * 2 ^ d := by positivity
          generalize 2 ^ k * 2 ^ d = z at *
          omega
    · refine ⟨m' - 1, k + d + 1, by omega, ?_, Nat.mul_lt_mul_of_pos_right (by omega) (by positivity)⟩
      calc m * 2 ^ k ≤ 2 ^ 53 * 2 ^ k := Nat.mul_le_mul_right _ h
        _ = 2 ^ 52 * (2 ^ k * 1 * 2) := by ring
        _ ≤ 2 ^ 52 * 2 ^ (k + d + 1) := by
          rw [e1]
          exact Nat.mul_le_mul_left _ (Nat.mul_le_mul_right _ (Nat.mul_le_mul_left _ hp))
        _ < _ := Nat.mul_lt_mul_of_pos_right (by omega) (by positivity)
  · have ha : 0 < 2 ^ k := by positivity
    have := lt_of_mul_lt_mul_right hlt (Nat.zero_le _)
    exact ⟨m + 1, k, by omega, Nat.mul_lt_mul_of_pos_right (by omega) ha, Nat.mul_lt_mul_of_pos_right (by omega) ha⟩
  · exfalso
    obtain ⟨d, rfl⟩ : ∃ d, k = k' + d + 1 := ⟨k - k' - 1, by omega⟩
    have hm : 2 ^ 52 ≤ m := by omega
    have hp : 1 ≤ 2 ^ d := Nat.one_le_two_pow
    have e1 : 2 ^ (k' + d + 1) = 2 ^ k' * 2 ^ d * 2 := by rw [pow_succ, pow_add]
    have : m' * 2 ^ k' ≤ m * 2 ^ (k' + d + 1) := by
      calc m' * 2 ^ k' ≤ 2 ^ 53 * 2 ^ k' := Nat.mul_le_mul_right _ h'
        _ = 2 ^ 52 * (2 ^ k' * 1 * 2) := by ring
        _ ≤ 2 ^ 52 * 2 ^ (k' + d + 1) := by
          rw [e1]
          exact Nat.mul_le_mul_left _ (Nat.mul_le_mul_right _ (Nat.mul_le_mul_left _ hp))
        _ ≤ _ := Nat.mul_le_mul_right _ hm
    omega

theorem Even53.abs {e : Nat} {y : ℝ} (h : Even53 e y) (h0 : 0 ≤ y) :
    ∃ m k : Nat, m % 2 = 0 ∧ m ≤ 2 ^ 53 ∧ (k = 0 ∨ 2 ^ 52 ≤ m) ∧ y = ((m * 2 ^ k : Nat) : ℝ) / 2 ^ e := by
  obtain ⟨m, k, e0, h1, h2, rfl⟩ := h
  have hm : 0 ≤ m := by
    by_contra hm
    have : (m : ℝ) * 2 ^ k / 2 ^ e < 0 := div_neg_of_neg_of_pos (mul_neg_of_neg_of_pos (by exact_mod_cast not_le.mp hm)
      (by positivity)) (by positivity)
    linarith
  obtain ⟨n, rfl⟩ := Int.eq_ofNat_of_zero_le hm
  rw [Nat.abs_cast] at h1 h2
  refine ⟨n, k, by omega, by exact_mod_cast h1, ?_, by push_cast; rfl⟩
  rcases h2 with h2 | h2
  · exact .inl h2
  · exact .inr (by exact_mod_cast h2)

theorem between53_nonneg {e : Nat} {a b : ℝ} (ha : Even53 e a) (hb : Even53 e b) (h0 : 0 ≤ a) (h : a < b) :
    ∃ c, Number53 e c ∧ a < c ∧ c < b := by
  obtain ⟨m, k, h1, h2, h3, rfl⟩ := ha.abs h0
  obtain ⟨m', k', h1', h2', h3', rfl⟩ := hb.abs (h0.trans h.le)
  have hp : (0 : ℝ) < 2 ^ e := by positivity
  rw [div_lt_div_iff_of_pos_right hp] at h
  obtain ⟨n, j, g1, g2, g3⟩ := gap_nat h1 h1' h2 h2' h3 h3' (by exact_mod_cast h)
  refine ⟨((n * 2 ^ j : Nat) : ℝ) / 2 ^ e, ⟨n, j, ?_, by push_cast; rfl⟩, ?_, ?_⟩
  · rw [Nat.abs_cast]; exact_mod_cast g1
  · rw [div_lt_div_iff_of_pos_right hp]; exact_mod_cast g2
  · rw [div_lt_div_iff_of_pos_right hp]; exact_mod_cast g3

theorem between53 {e : Nat} {a b : ℝ} (ha : Even53 e a) (hb : Even53 e b) (h : a < b) :
    ∃ c, Number53 e c ∧ a < c ∧ c < b := by
  rcases le_or_gt 0 a with h0 | h0
  · exact between53_nonneg ha hb h0 h
  rcases le_or_gt b 0 with h1 | h1
  · obtain ⟨c, c1, c2, c3⟩ := between53_nonneg hb.neg ha.neg (by linarith) (by linarith)
    exact ⟨-c, c1.neg, by linarith, by linarith⟩
  · exact ⟨0, ⟨0, 0, by norm_num, by norm_num⟩, h0, h1⟩

theorem nearest53_unique {e : Nat} {x a b : ℝ} (ha : Nearest53 e x a) (hb : Nearest53 e x b) : a = b := by
  have he : |a - x| = |b - x| := le_antisymm (ha.2 b hb.1).1 (hb.2 a ha.1).1
  by_contra hne
  have ea := ((ha.2 b hb.1).2 he).resolve_left hne
  have eb := ((hb.2 a ha.1).2 he.symm).resolve_left (Ne.symm hne)
  rcases lt_or_gt_of_ne hne with h | h
  · obtain ⟨c, c1, c2, c3⟩ := between53 ea eb h
    exact absurd (ha.2 c c1).1 (not_le.mpr (nearer_between he c2 c3))
  · obtain ⟨c, c1, c2, c3⟩ := between53 eb ea h
    exact absurd (hb.2 c c1).1 (not_le.mpr (nearer_between he.symm c2 c3))

/-- There is only one nearest number of binary64. -/
theorem double_unique {x a b : ℝ} (ha : F64.Nearest x a) (hb : F64.Nearest x b) : a = b :=
  nearest53_unique (e := 1074) ha hb

/-- A literal is read as only one number. -/
theorem reads_unique {v : FloatVal} {a b : F32} (ha : v.Reads a) (hb : v.Reads b) : a = b := by
  cases v with
  | nan => exact ha.trans hb.symm
  | inf neg => exact ha.trans hb.symm
  | dec neg m e =>
    obtain ⟨s1, y, n1, r1⟩ := ha
    obtain ⟨s2, y', n2, r2⟩ := hb
    obtain rfl := double_unique n1 n2
    exact rounds_unique (s1.trans s2.symm) r1 r2

end B32

end FF
