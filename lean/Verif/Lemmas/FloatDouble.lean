import Verif.Lemmas.FloatText
import Verif.Lemmas.FloatRead
/-!
# Reading rounds twice
-/

namespace FF

namespace B32

open F32

/-- `F64.Number` for numbers that are multiples of `2⁻ᵉ` -/
def Number53 (e : Nat) (y : ℝ) : Prop := ∃ (m : Int) (k : Nat), |m| ≤ 2 ^ 53 ∧ y = m * 2 ^ k / 2 ^ e

def Even53 (e : Nat) (y : ℝ) : Prop :=
  ∃ (m : Int) (k : Nat), m % 2 = 0 ∧ |m| ≤ 2 ^ 53 ∧ (k = 0 ∨ 2 ^ 52 ≤ |m|) ∧ y = m * 2 ^ k / 2 ^ e

def Nearest53 (e : Nat) (x y : ℝ) : Prop :=
  Number53 e y ∧ ∀ c, Number53 e c → |y - x| ≤ |c - x| ∧ (|y - x| = |c - x| → y = c ∨ Even53 e y)

theorem Number53.neg {e : Nat} {y : ℝ} (h : Number53 e y) : Number53 e (-y) := by
  obtain ⟨m, k, h1, rfl⟩ := h
  exact ⟨-m, k, by rwa [abs_neg], by push_cast; ring⟩

theorem Even53.neg {e : Nat} {y : ℝ} (h : Even53 e y) : Even53 e (-y) := by
  obtain ⟨m, k, h0, h1, h2, rfl⟩ := h
  exact ⟨-m, k, by omega, by rwa [abs_neg], by rwa [abs_neg], by push_cast; ring⟩

theorem Nearest53.neg {e : Nat} {x y : ℝ} (h : Nearest53 e x y) : Nearest53 e (-x) (-y) := by
  refine ⟨h.1.neg, fun c hc => ?_⟩
  have e1 : |-y - -x| = |y - x| := by rw [← abs_neg]; congr 1; ring
  have e2 : |c - -x| = |-c - x| := by rw [← abs_neg]; congr 1; ring
  rw [e1, e2]
  obtain ⟨h1, h2⟩ := h.2 _ hc.neg
  refine ⟨h1, fun he => ?_⟩
  rcases h2 he with h | h
  · exact .inl (by rw [h, neg_neg])
  · exact .inr h.neg

/-- The nearest integer is at least as near as any other one. -/
theorem int_nearest {q : Nat} {X : ℝ} (h1 : |(q : ℝ) - X| ≤ 1 / 2) (h2 : |(q : ℝ) - X| = 1 / 2 → q % 2 = 0) (m : Int) :
    |(q : ℝ) - X| ≤ |(m : ℝ) - X| ∧ (|(q : ℝ) - X| = |(m : ℝ) - X| → (q : Int) = m ∨ q % 2 = 0) := by
  by_cases hm : (q : Int) = m
  · rw [← hm]
    exact ⟨le_rfl, fun _ => .inl rfl⟩
  have hd : (1 : ℝ) ≤ |(q : ℝ) - m| := by
    have : (1 : ℤ) ≤ |(q : ℤ) - m| := Int.one_le_abs (by omega)
    exact_mod_cast this
  have ht := abs_sub_le (q : ℝ) X m
  have ht2 : |X - (m : ℝ)| = |(m : ℝ) - X| := abs_sub_comm _ _
  exact ⟨by linarith, fun he => .inr (h2 (by linarith))⟩

/-- Rounding to 53 bits -/
theorem double_nearest {e A den k q : Nat} (hd : 0 < den) (hk : k = Nat.log2 (A * 2 ^ e / den) - 52)
    (hq : q = halfEven (A * 2 ^ e) (den * 2 ^ k)) :
    Nearest53 e ((A : ℝ) / den) ((q : ℝ) * 2 ^ k / 2 ^ e) := by
  have h2k : (0 : ℝ) < 2 ^ k := by positivity
  have h2e : (0 : ℝ) < 2 ^ e := by positivity
  have hdR : (0 : ℝ) < den := by exact_mod_cast hd
  have hdk : 0 < den * 2 ^ k := Nat.mul_pos hd (by positivity)
  obtain ⟨n1, n2⟩ := halfEven_near (A * 2 ^ e) hdk
  rw [← hq] at n1 n2
  have eX : ((A * 2 ^ e : Nat) : ℝ) / (den * 2 ^ k : Nat) = (A : ℝ) / den * 2 ^ e / 2 ^ k := by
    push_cast
    field_simp
  rw [eX] at n1 n2
  generalize hx : (A : ℝ) / den = x at *
  have up : A * 2 ^ e ≤ 2 ^ 53 * (den * 2 ^ k) := by
    have h1 : Nat.log2 (A * 2 ^ e / den) < 53 + k := by omega
    have h2 : A * 2 ^ e / den < 2 ^ (53 + k) := by
      by_cases h0 : A * 2 ^ e / den = 0
      · rw [h0]; positivity
      · exact (Nat.log2_lt h0).mp h1
    have h3 := (Nat.div_lt_iff_lt_mul hd).mp h2
    calc A * 2 ^ e ≤ 2 ^ (53 + k) * den := h3.le
      _ = _ := by rw [pow_add]; ring
  have q53 : q ≤ 2 ^ 53 := by rw [hq]; exact halfEven_le hdk up
  have low : 0 < k → 2 ^ 52 * (den * 2 ^ k) ≤ A * 2 ^ e := by
    intro hk0
    have h0 : A * 2 ^ e / den ≠ 0 := by
      intro h0
      rw [h0] at hk
      simp only [show Nat.log2 0 = 0 by decide] at hk
      omega
    have h1 := Nat.log2_self_le h0
    rw [show Nat.log2 (A * 2 ^ e / den) = 52 + k by omega] at h1
    have h2 := (Nat.le_div_iff_mul_le hd).mp h1
    calc _ = 2 ^ (52 + k) * den := by rw [pow_add]; ring
      _ ≤ _ := h2
  have q52 : 0 < k → 2 ^ 52 ≤ q := fun hk0 => by rw [hq]; exact le_halfEven hdk (low hk0)
  have lowR : 0 < k → (2 : ℝ) ^ 52 ≤ x * 2 ^ e / 2 ^ k := by
    intro hk0
    have : ((2 ^ 52 * (den * 2 ^ k) : Nat) : ℝ) ≤ (A * 2 ^ e : Nat) := by exact_mod_cast low hk0
    push_cast at this
    rw [← hx, le_div_iff₀ h2k]
    rw [div_mul_eq_mul_div, le_div_iff₀ hdR]
    linarith
  have habs : |(q : Int)| = (q : Int) := abs_of_nonneg (by positivity)
  have hev : q % 2 = 0 → Even53 e ((q : ℝ) * 2 ^ k / 2 ^ e) := by
    intro h
    refine ⟨q, k, by omega, ?_, ?_, by push_cast; ring⟩
    · rw [habs]; exact_mod_cast q53
    · rcases Nat.eq_zero_or_pos k with h0 | h0
      · exact .inl h0
      · exact .inr (by rw [habs]; exact_mod_cast q52 h0)
  refine ⟨⟨q, k, ?_, by push_cast; ring⟩, ?_⟩
  · rw [habs]; exact_mod_cast q53
  -- in units of the last place
  have scale : ∀ t : ℝ, |t * 2 ^ k / 2 ^ e - x| = |t - x * 2 ^ e / 2 ^ k| * (2 ^ k / 2 ^ e) := by
    intro t
    have : t * 2 ^ k / 2 ^ e - x = (t - x * 2 ^ e / 2 ^ k) * (2 ^ k / 2 ^ e) := by
      field_simp
    rw [this, abs_mul, abs_of_pos (div_pos h2k h2e)]
  have hmul : ∀ m : Int, |(q : ℝ) * 2 ^ k / 2 ^ e - x| ≤ |(m : ℝ) * 2 ^ k / 2 ^ e - x| ∧
      (|(q : ℝ) * 2 ^ k / 2 ^ e - x| = |(m : ℝ) * 2 ^ k / 2 ^ e - x| →
        (q : ℝ) * 2 ^ k / 2 ^ e = m * 2 ^ k / 2 ^ e ∨ Even53 e ((q : ℝ) * 2 ^ k / 2 ^ e)) := by
    intro m
    have hp := div_pos h2k h2e
    rw [scale, scale]
    obtain ⟨i1, i2⟩ := int_nearest n1 n2 m
    refine ⟨mul_le_mul_of_nonneg_right i1 hp.le, fun he => ?_⟩
    rcases i2 (mul_right_cancel₀ hp.ne' he) with h | h
    · exact .inl (by rw [← h]; push_cast; rfl)
    · exact .inr (hev h)
  rintro c ⟨m, j, hm, rfl⟩
  rcases Nat.lt_or_ge j k with hj | hj
  · have hk0 : 0 < k := by omega
    have hB := hmul (2 ^ 52)
    have hl := lowR hk0
    have hc : (m : ℝ) * 2 ^ j ≤ 2 ^ 52 * 2 ^ k := by
      have h1 : (m : ℝ) ≤ 2 ^ 53 := by
        have := le_trans (le_abs_self m) hm
        exact_mod_cast this
      have h2 : (2 : ℝ) ^ j ≤ 2 ^ (k - 1) := pow_le_pow_right₀ (by norm_num) (by omega)
      calc (m : ℝ) * 2 ^ j ≤ 2 ^ 53 * 2 ^ j := mul_le_mul_of_nonneg_right h1 (by positivity)
        _ ≤ 2 ^ 53 * 2 ^ (k - 1) := mul_le_mul_of_nonneg_left h2 (by positivity)
        _ = 2 ^ 52 * 2 ^ k := by
          obtain ⟨i, rfl⟩ : ∃ i, k = i + 1 := ⟨k - 1, by omega⟩
          rw [Nat.add_sub_cancel, pow_succ]
          ring
    have hxB : (2 : ℝ) ^ 52 * 2 ^ k / 2 ^ e ≤ x := by
      rw [div_le_iff₀ h2e]
      rwa [le_div_iff₀ h2k] at hl
    have hcB : (m : ℝ) * 2 ^ j / 2 ^ e ≤ 2 ^ 52 * 2 ^ k / 2 ^ e := div_le_div_of_nonneg_right hc h2e.le
    have a1 : |((2 ^ 52 : Int) : ℝ) * 2 ^ k / 2 ^ e - x| = x - 2 ^ 52 * 2 ^ k / 2 ^ e := by
      have c52 : ((2 ^ 52 : Int) : ℝ) = 2 ^ 52 := by norm_num
      rw [c52, abs_sub_comm, abs_of_nonneg (by linarith)]
    have a2 : |(m : ℝ) * 2 ^ j / 2 ^ e - x| = x - m * 2 ^ j / 2 ^ e := by
      rw [abs_sub_comm, abs_of_nonneg (by linarith)]
    rw [a1] at hB
    rw [a2]
    refine ⟨by linarith [hB.1], fun he => ?_⟩
    have e1 : (m : ℝ) * 2 ^ j / 2 ^ e = 2 ^ 52 * 2 ^ k / 2 ^ e := by linarith [hB.1]
    rcases hB.2 (by rw [he, e1]) with h | h
    · left
      have c52 : ((2 ^ 52 : Int) : ℝ) = 2 ^ 52 := by norm_num
      rw [h, e1, c52]
    · exact .inr h
  · have e1 : (m : ℝ) * 2 ^ j / 2 ^ e = ((m * 2 ^ (j - k) : Int) : ℝ) * 2 ^ k / 2 ^ e := by
      have : (2 : ℝ) ^ j = 2 ^ (j - k) * 2 ^ k := by rw [← pow_add, Nat.sub_add_cancel hj]
      rw [this]
      push_cast
      ring
    rw [e1]
    exact hmul _

/-- Rounding to 53 bits and then to binary32 -/
theorem roundTwice_spec {e num den : Nat} (he : 149 ≤ e) (hd : 0 < den) (neg : Bool) :
    ∃ y, Nearest53 e (sg neg * ((num : ℝ) / den)) y ∧ RoundsTo y (mk neg (roundTwice e num den)) := by
  generalize hk : Nat.log2 (num * 2 ^ e / den) - 52 = k
  generalize hq : halfEven (num * 2 ^ e) (den * 2 ^ k) = q
  have hn := double_nearest hd hk.symm hq.symm
  refine ⟨sg neg * ((q : ℝ) * 2 ^ k / 2 ^ e), ?_, ?_⟩
  · cases neg
    · simpa [sg] using hn
    · simpa [sg] using hn.neg
  · unfold roundTwice roundDouble
    simp only [hk, hq]
    have h2e : (0 : ℝ) < 2 ^ e := by positivity
    by_cases hv : q * 2 ^ k < 2 ^ (1024 + e)
    · rw [if_pos hv]
      simp only
      have h := (result_round (q * 2 ^ k) (den := 2 ^ (e - 149)) (by positivity) neg).rounds
      have e1 : ((q * 2 ^ k : Nat) : ℝ) / (2 ^ (e - 149) : Nat) / 2 ^ 149 = q * 2 ^ k / 2 ^ e := by
        push_cast
        rw [div_div, ← pow_add, Nat.sub_add_cancel he]
      rw [e1] at h
      exact h
    · rw [if_neg hv]
      simp only
      have h1 : (2 : ℝ) ^ 1024 ≤ q * 2 ^ k / 2 ^ e := by
        rw [le_div_iff₀ h2e, ← pow_add]
        exact_mod_cast not_lt.mp hv
      have h2 : overflow ≤ q * 2 ^ k / 2 ^ e := by
        refine le_trans ?_ h1
        have h3 : (2 : ℝ) ^ 128 ≤ 2 ^ 1024 := pow_le_pow_right₀ (by norm_num) (by norm_num)
        have h4 : overflow ≤ 2 ^ 128 := by
          unfold overflow
          have : (0 : ℝ) ≤ 2 ^ 103 := by positivity
          linarith
        exact le_trans h4 h3
      right
      cases neg with
      | false => exact Or.inl ⟨by simpa [sg] using h2, mk_posInf⟩
      | true => exact Or.inr ⟨by simpa [sg] using h2, mk_negInf⟩

theorem sg_eq (neg : Bool) : sg neg = if neg then (-1 : ℝ) else 1 := rfl

/-- Reading a decimal number -/
theorem decimalRound_spec (neg : Bool) (m : Nat) (x : Int) :
    ∃ y, F64.Nearest (decimalVal neg m x) y ∧ RoundsTo y (mk neg (decimalRound m x)) := by
  unfold decimalRound decimalVal
  rw [← sg_eq]
  split
  · rename_i hx
    have h := roundTwice_spec (e := 1074) (num := m) (den := 10 ^ x.natAbs) (by norm_num) (by positivity) neg
    have e1 : (m : ℝ) * 10 ^ x = (m : ℝ) / (10 ^ x.natAbs : Nat) := by
      conv_lhs => rw [show x = -(x.natAbs : Int) by omega]
      rw [zpow_neg, zpow_natCast]
      push_cast
      rfl
    rw [e1]
    exact h
  · rename_i hx
    have h := roundTwice_spec (e := 1074) (num := m * 10 ^ x.natAbs) (den := 1) (by norm_num) (by norm_num) neg
    have e1 : (m : ℝ) * 10 ^ x = ((m * 10 ^ x.natAbs : Nat) : ℝ) / (1 : Nat) := by
      conv_lhs => rw [show x = (x.natAbs : Int) by omega]
      rw [zpow_natCast]
      push_cast
      ring
    rw [e1]
    exact h

end B32

end FF
