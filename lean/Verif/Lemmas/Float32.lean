import Verif.Spec.Float32
import Verif.Lemmas.Round
import Mathlib.Tactic.Positivity
import Mathlib.Tactic.Ring
import Mathlib.Tactic.FieldSimp
import Mathlib.Tactic.Linarith
import Mathlib.Tactic.NormNum
import Mathlib.Tactic.GCongr
/-!
# Lemmas about binary32
-/

namespace FF

namespace B32

/-! ### Rounding to 24 bits, in units -/

/-- `q * 2 ^ k` is the number `X`, rounded to 24 bits. -/
structure Rnd (X : ℝ) (k q : Nat) : Prop where
  near : |(q : ℝ) * 2 ^ k - X| ≤ 2 ^ k / 2
  even : |(q : ℝ) * 2 ^ k - X| = 2 ^ k / 2 → q % 2 = 0
  low : 0 < k → (2 : ℝ) ^ (23 + k) ≤ X
  high : X < (2 : ℝ) ^ (24 + k)

theorem halfEven_near (num : Nat) {den : Nat} (hd : 0 < den) :
    |(halfEven num den : ℝ) - num / den| ≤ 1 / 2 ∧
      (|(halfEven num den : ℝ) - num / den| = 1 / 2 → halfEven num den % 2 = 0) := by
  have hd' : (0 : ℝ) < den := by exact_mod_cast hd
  have h1 : (num : ℝ) = den * (num / den : Nat) + (num % den : Nat) := by
    exact_mod_cast (Nat.div_add_mod num den).symm
  have h2 : (num : ℝ) / den = (num / den : Nat) + (num % den : Nat) / den := by
    rw [h1]; field_simp
  have h3 : num % den < den := Nat.mod_lt _ hd
  rw [h2]
  unfold halfEven
  generalize num % den = r at *
  generalize num / den = q at *
  have hr0 : (0 : ℝ) ≤ r / den := by positivity
  split
  · rename_i h
    have h' : (2 : ℝ) * r < den := by exact_mod_cast h
    have : (r : ℝ) / den < 1 / 2 := by rw [div_lt_div_iff₀ hd' (by norm_num)]; linarith
    rw [show (q : ℝ) - (q + r / den) = -(r / den) by ring, abs_neg, abs_of_nonneg hr0]
    exact ⟨by linarith, fun h => by linarith⟩
  split
  · rename_i _ h
    have h' : (den : ℝ) < 2 * r := by exact_mod_cast h
    have h4 : 1 / 2 < (r : ℝ) / den := by rw [div_lt_div_iff₀ (by norm_num) hd']; linarith
    have h5 : (r : ℝ) / den < 1 := by rw [div_lt_one hd']; exact_mod_cast h3
    push_cast
    rw [show (q : ℝ) + 1 - (q + r / den) = 1 - r / den by ring, abs_of_nonneg (by linarith)]
    exact ⟨by linarith, fun h => by linarith⟩
  · rename_i ha hb
    have h' : (den : ℝ) = 2 * r := by
      have : den = 2 * r := by omega
      exact_mod_cast this
    have h4 : (r : ℝ) / den = 1 / 2 := by
      rw [div_eq_div_iff hd'.ne' (by norm_num)]; linarith
    rw [h4]
    rcases Nat.mod_two_eq_zero_or_one q with h | h
    · rw [h]
      constructor
      · rw [abs_le]; constructor <;> push_cast <;> linarith
      · intro _; simpa using h
    · rw [h]
      constructor
      · rw [abs_le]; constructor <;> push_cast <;> linarith
      · intro _; omega

theorem log2_pow_le {n : Nat} (h : 0 < Nat.log2 n) : 2 ^ Nat.log2 n ≤ n :=
  Nat.log2_self_le (by rintro rfl; simp at h)

theorem round_rnd (num : Nat) {den : Nat} (hd : 0 < den) :
    Rnd ((num : ℝ) / den) (Nat.log2 (num / den) - 23)
      (halfEven num (den * 2 ^ (Nat.log2 (num / den) - 23))) := by
  have hd' : (0 : ℝ) < den := by exact_mod_cast hd
  have hlt : num / den < 2 ^ (24 + (Nat.log2 (num / den) - 23)) :=
    lt_of_lt_of_le Nat.lt_log2_self (Nat.pow_le_pow_right (by norm_num) (by omega))
  have hle : 0 < Nat.log2 (num / den) - 23 → 2 ^ (23 + (Nat.log2 (num / den) - 23)) ≤ num / den := by
    intro h
    have := log2_pow_le (n := num / den) (by omega)
    rwa [show 23 + (Nat.log2 (num / den) - 23) = Nat.log2 (num / den) by omega]
  generalize Nat.log2 (num / den) - 23 = k at *
  obtain ⟨h1, h2⟩ := halfEven_near num (den := den * 2 ^ k) (by positivity)
  generalize halfEven num (den * 2 ^ k) = q at *
  have h2k : (0 : ℝ) < 2 ^ k := by positivity
  have hx : (num : ℝ) / (den * 2 ^ k : Nat) = num / den / 2 ^ k := by
    push_cast; rw [div_div]
  rw [hx] at h1 h2
  have hq : (q : ℝ) * 2 ^ k - num / den = (q - num / den / 2 ^ k) * 2 ^ k := by field_simp
  have habs : |(q : ℝ) * 2 ^ k - num / den| = |(q : ℝ) - num / den / 2 ^ k| * 2 ^ k := by
    rw [hq, abs_mul, abs_of_pos h2k]
  refine ⟨?_, ?_, ?_, ?_⟩
  · rw [habs]
    calc _ ≤ 1 / 2 * 2 ^ k := mul_le_mul_of_nonneg_right h1 h2k.le
      _ = _ := by ring
  · intro h
    rw [habs] at h
    refine h2 ?_
    have : |(q : ℝ) - num / den / 2 ^ k| * 2 ^ k = 1 / 2 * 2 ^ k := by rw [h]; ring
    exact mul_right_cancel₀ h2k.ne' this
  · intro h
    rw [le_div_iff₀ hd']
    have := (Nat.le_div_iff_mul_le hd).mp (hle h)
    exact_mod_cast this
  · rw [div_lt_iff₀ hd']
    have := (Nat.div_lt_iff_lt_mul hd).mp hlt
    exact_mod_cast this

theorem roundSqrt_rnd (m : Nat) :
    ∃ q, roundSqrt m = min inf ((Nat.log2 (Nat.sqrt m) - 23) * 2 ^ 23 + q) ∧
      Rnd (Real.sqrt m) (Nat.log2 (Nat.sqrt m) - 23) q := by
  have hlt : Nat.sqrt m < 2 ^ (24 + (Nat.log2 (Nat.sqrt m) - 23)) :=
    lt_of_lt_of_le Nat.lt_log2_self (Nat.pow_le_pow_right (by norm_num) (by omega))
  have hle : 0 < Nat.log2 (Nat.sqrt m) - 23 → 2 ^ (23 + (Nat.log2 (Nat.sqrt m) - 23)) ≤ Nat.sqrt m := by
    intro h
    have := log2_pow_le (n := Nat.sqrt m) (by omega)
    rwa [show 23 + (Nat.log2 (Nat.sqrt m) - 23) = Nat.log2 (Nat.sqrt m) by omega]
  unfold roundSqrt
  simp only
  refine ⟨_, rfl, ?_⟩
  have hs1 : (Nat.sqrt m : ℝ) ≤ Real.sqrt m := by
    refine Real.le_sqrt_of_sq_le ?_
    exact_mod_cast Nat.sqrt_le' m
  have hs2 : Real.sqrt m < Nat.sqrt m + 1 := by
    rw [Real.sqrt_lt' (by positivity)]
    exact_mod_cast Nat.lt_succ_sqrt' m
  have hsq : Real.sqrt m ^ 2 = m := Real.sq_sqrt (by positivity)
  have hX0 : 0 ≤ Real.sqrt m := Real.sqrt_nonneg _
  generalize Nat.log2 (Nat.sqrt m) - 23 = k at *
  have h2k : (0 : ℝ) < 2 ^ k := by positivity
  have hq1 : ((Nat.sqrt m / 2 ^ k : Nat) : ℝ) * 2 ^ k ≤ Real.sqrt m := by
    refine le_trans ?_ hs1
    exact_mod_cast Nat.div_mul_le_self (Nat.sqrt m) (2 ^ k)
  have hq2 : Real.sqrt m < ((Nat.sqrt m / 2 ^ k : Nat) + 1 : ℝ) * 2 ^ k := by
    refine lt_of_lt_of_le hs2 ?_
    have : Nat.sqrt m + 1 ≤ (Nat.sqrt m / 2 ^ k + 1) * 2 ^ k := by
      have h1 := Nat.div_add_mod (Nat.sqrt m) (2 ^ k)
      have h2 := Nat.mod_lt (Nat.sqrt m) (show 0 < 2 ^ k by positivity)
      rw [add_mul, one_mul, mul_comm]
      omega
    exact_mod_cast this
  have hlow : 0 < k → (2 : ℝ) ^ (23 + k) ≤ Real.sqrt m := by
    intro h
    refine le_trans ?_ hs1
    exact_mod_cast hle h
  have hhigh : Real.sqrt m < (2 : ℝ) ^ (24 + k) := by
    refine lt_of_lt_of_le hs2 ?_
    exact_mod_cast hlt
  generalize Nat.sqrt m / 2 ^ k = q at *
  have hpos : (0 : ℝ) < (2 * q + 1) * 2 ^ k := by positivity
  have cmp1 : 4 * m < ((2 * q + 1) * 2 ^ k) ^ 2 ↔ 2 * Real.sqrt m < (2 * q + 1) * 2 ^ k := by
    have h0 : 4 * m < ((2 * q + 1) * 2 ^ k) ^ 2 ↔ (4 * m : ℝ) < ((2 * q + 1) * 2 ^ k) ^ 2 := by
      constructor <;> intro h <;> exact_mod_cast h
    have h4 : (4 : ℝ) * m = (2 * Real.sqrt m) ^ 2 := by rw [mul_pow, hsq]; norm_num
    rw [h0, h4]
    exact sq_lt_sq₀ (by positivity) hpos.le
  have cmp2 : ((2 * q + 1) * 2 ^ k) ^ 2 < 4 * m ↔ (2 * q + 1) * 2 ^ k < 2 * Real.sqrt m := by
    have h0 : ((2 * q + 1) * 2 ^ k) ^ 2 < 4 * m ↔ (((2 * q + 1) * 2 ^ k) ^ 2 : ℝ) < 4 * m := by
      constructor <;> intro h <;> exact_mod_cast h
    have h4 : (4 : ℝ) * m = (2 * Real.sqrt m) ^ 2 := by rw [mul_pow, hsq]; norm_num
    rw [h0, h4]
    exact sq_lt_sq₀ hpos.le (by positivity)
  generalize Real.sqrt m = X at *
  split
  · rename_i h
    have h := cmp1.mp h
    have ha : |(q : ℝ) * 2 ^ k - X| = X - q * 2 ^ k := by
      rw [abs_sub_comm, abs_of_nonneg (by linarith)]
    refine ⟨?_, ?_, hlow, hhigh⟩ <;> rw [ha]
    · linarith
    · intro _; linarith
  split
  · rename_i h
    have h := cmp2.mp h
    have ha : |((q + 1 : Nat) : ℝ) * 2 ^ k - X| = (q + 1) * 2 ^ k - X := by
      push_cast
      rw [abs_of_nonneg (by linarith)]
    refine ⟨?_, ?_, hlow, hhigh⟩ <;> rw [ha]
    · linarith
    · intro _; linarith
  · rename_i h1 h2
    have h1 := not_lt.mp (fun h => h1 (cmp1.mpr h))
    have h2 := not_lt.mp (fun h => h2 (cmp2.mpr h))
    have hX : 2 * X = (2 * q + 1) * 2 ^ k := le_antisymm h2 h1
    refine ⟨?_, ?_, hlow, hhigh⟩
    · rcases Nat.mod_two_eq_zero_or_one q with h | h <;> rw [h] <;> push_cast <;> rw [abs_le] <;>
        constructor <;> linarith
    · intro _; omega

/-! ### Consequences -/

section
variable {X : ℝ} {k q : Nat}

theorem Rnd.le (h : Rnd X k q) : q ≤ 2 ^ 24 := by
  by_contra hc
  have h1 : (2 : ℝ) ^ 24 + 1 ≤ q := by exact_mod_cast (not_le.mp hc)
  have h2 := (abs_le.mp h.near).2
  have h3 := h.high
  rw [pow_add] at h3
  have h2k : (0 : ℝ) < 2 ^ k := by positivity
  nlinarith

theorem Rnd.ge (h : Rnd X k q) (hk : 0 < k) : 2 ^ 23 ≤ q := by
  by_contra hc
  have h1 : (q : ℝ) + 1 ≤ 2 ^ 23 := by exact_mod_cast (not_le.mp hc)
  have h2 := (abs_le.mp h.near).1
  have h3 := h.low hk
  rw [pow_add] at h3
  have h2k : (0 : ℝ) < 2 ^ k := by positivity
  nlinarith

theorem Rnd.nonneg (h : Rnd X k q) : -(1 / 2) ≤ X := by
  rcases Nat.eq_zero_or_pos k with rfl | hk
  · have h2 := (abs_le.mp h.near).2
    have : (0 : ℝ) ≤ q := by positivity
    simp only [pow_zero, mul_one] at h2
    linarith
  · have := h.low hk
    have h2 : (0 : ℝ) < 2 ^ (23 + k) := by positivity
    linarith

theorem mag_mk (h : q ≤ 2 ^ 24) (hk : 0 < k → 2 ^ 23 ≤ q) : mag (k * 2 ^ 23 + q) = q * 2 ^ k := by
  unfold mag
  rcases lt_or_ge q (2 ^ 23) with h1 | h1
  · have hk0 : k = 0 := by
      by_contra hc
      have := hk (Nat.pos_of_ne_zero hc)
      omega
    subst hk0
    rw [if_pos (by omega)]
    simp
  · have : ¬ (k * 2 ^ 23 + q < 2 ^ 23) := by omega
    rw [if_neg this]
    rcases eq_or_lt_of_le h with rfl | h2
    · rw [show (k * 2 ^ 23 + 2 ^ 24) % 2 ^ 23 = 0 by omega,
        show (k * 2 ^ 23 + 2 ^ 24) / 2 ^ 23 - 1 = k + 1 by omega]
      ring
    · rw [show 2 ^ 23 + (k * 2 ^ 23 + q) % 2 ^ 23 = q by omega,
        show (k * 2 ^ 23 + q) / 2 ^ 23 - 1 = k by omega]

theorem Rnd.mag (h : Rnd X k q) : mag (k * 2 ^ 23 + q) = q * 2 ^ k := mag_mk h.le h.ge

/-- Relative error of normal numbers. -/
theorem Rnd.relative (h : Rnd X k q) (hX : (2 : ℝ) ^ 23 ≤ X) :
    |(q : ℝ) * 2 ^ k - X| ≤ (2 : ℝ)⁻¹ ^ 24 * X := by
  refine h.near.trans ?_
  have h2 : (2 : ℝ) ^ (23 + k) ≤ X := by
    rcases Nat.eq_zero_or_pos k with rfl | hk
    · exact hX
    · exact h.low hk
  rw [pow_add] at h2
  have : (2 : ℝ)⁻¹ ^ 24 * X ≥ (2 : ℝ)⁻¹ ^ 24 * (2 ^ 23 * 2 ^ k) := mul_le_mul_of_nonneg_left h2 (by positivity)
  refine le_trans ?_ this
  have : (2 : ℝ)⁻¹ ^ 24 * (2 ^ 23 * 2 ^ k) = 2 ^ k / 2 := by
    rw [show (2 : ℝ)⁻¹ ^ 24 * (2 ^ 23 * 2 ^ k) = (2⁻¹ ^ 24 * 2 ^ 23) * 2 ^ k by ring]
    norm_num
    ring
  rw [this]

/-- Error of all numbers. -/
theorem Rnd.absolute (h : Rnd X k q) (hX : 0 ≤ X) :
    |(q : ℝ) * 2 ^ k - X| ≤ (2 : ℝ)⁻¹ ^ 24 * X + 1 / 2 := by
  rcases Nat.eq_zero_or_pos k with rfl | hk
  · have := h.near
    have h2 : 0 ≤ (2 : ℝ)⁻¹ ^ 24 * X := by positivity
    simp only [pow_zero] at this ⊢
    linarith
  · have := h.relative (le_trans (by rw [pow_add]; nlinarith [one_le_pow₀ (M₀ := ℝ) (n := k) (show (1 : ℝ) ≤ 2 by norm_num)]) (h.low hk))
    linarith

/-- Integers below `2 ^ 24` are not changed. -/
theorem Rnd.exact {n : Nat} (h : Rnd n k q) (hn : n < 2 ^ 24) : (q : ℝ) * 2 ^ k = n := by
  rcases Nat.eq_zero_or_pos k with rfl | hk
  · have := h.near
    simp only [pow_zero, mul_one] at this ⊢
    have h1 : |((q : ℤ) - (n : ℤ) : ℤ)| < 1 := by
      have : |((q : ℝ) - n)| < 1 := by linarith
      exact_mod_cast this
    have h2 := Int.abs_lt_one_iff.mp h1
    have : (q : ℤ) = n := by omega
    exact_mod_cast this
  · have := h.low hk
    have h2 : (n : ℝ) < 2 ^ 24 := by exact_mod_cast hn
    have h3 : (2 : ℝ) ^ 24 ≤ 2 ^ (23 + k) := pow_le_pow_right₀ (by norm_num) (by omega)
    linarith

/-- Sums of finite numbers have no absolute error: they are integers. -/
theorem Rnd.integer {n : Nat} (h : Rnd n k q) : |(q : ℝ) * 2 ^ k - n| ≤ (2 : ℝ)⁻¹ ^ 24 * n := by
  rcases lt_or_ge n (2 ^ 24) with hn | hn
  · rw [h.exact hn]
    simp
  · refine h.relative ?_
    have : (2 : ℝ) ^ 24 ≤ n := by exact_mod_cast hn
    linarith [show (2 : ℝ) ^ 23 ≤ 2 ^ 24 by norm_num]

/-- No overflow. -/
theorem Rnd.fin (h : Rnd X k q) (hX : X < (2 ^ 25 - 1) * 2 ^ 252) : k * 2 ^ 23 + q < inf := by
  have hq := h.le
  unfold inf
  have hk : k < 254 := by
    by_contra hc
    have := h.low (by omega)
    have h3 : (2 : ℝ) ^ (277 : Nat) ≤ 2 ^ (23 + k) := pow_le_pow_right₀ (by norm_num) (by omega)
    have h4 : (2 : ℝ) ^ (277 : Nat) = 2 ^ 25 * 2 ^ 252 := by rw [← pow_add]
    have h5 : (0 : ℝ) < 2 ^ 252 := by positivity
    rw [h4] at h3
    clear h4
    generalize (2 : ℝ) ^ 252 = Y at *
    generalize (2 : ℝ) ^ (23 + k) = Z at *
    linarith
  rcases Nat.lt_or_ge k 253 with hk2 | hk2
  · omega
  · have hk3 : k = 253 := by omega
    subst hk3
    rcases eq_or_lt_of_le hq with rfl | h2
    · exfalso
      have := (abs_le.mp h.near).2
      push_cast at this
      have e : (2 : ℝ) ^ 253 = 2 * 2 ^ 252 := by rw [pow_succ]; ring
      rw [e] at this
      nlinarith
    · omega

/-- Overflow. -/
theorem Rnd.over (h : Rnd X k q) (hX : (2 ^ 25 - 1) * 2 ^ 252 ≤ X) : inf ≤ k * 2 ^ 23 + q := by
  have hq := h.le
  unfold inf
  have h5 : (0 : ℝ) < 2 ^ 252 := by positivity
  have hk : 253 ≤ k := by
    by_contra hc
    have h1 := h.high
    have h3 : (2 : ℝ) ^ (24 + k) ≤ 2 ^ (276 : Nat) := pow_le_pow_right₀ (by norm_num) (by omega)
    have h4 : (2 : ℝ) ^ (276 : Nat) = 2 ^ 24 * 2 ^ 252 := by rw [← pow_add]
    rw [h4] at h3
    clear h4
    generalize (2 : ℝ) ^ 252 = Y at *
    generalize (2 : ℝ) ^ (24 + k) = Z at *
    linarith
  have hge := h.ge (by omega)
  rcases Nat.lt_or_ge k 254 with hk2 | hk2
  · have hk3 : k = 253 := by omega
    subst hk3
    have e : (2 : ℝ) ^ 253 = 2 * 2 ^ 252 := by rw [pow_succ]; ring
    have h1 := h.near
    rw [e] at h1
    have h2 := (abs_le.mp h1).1
    have h4 : (2 : ℝ) ^ 24 - 1 ≤ q := by
      by_contra hc
      have : (q : ℝ) + 1 < 2 ^ 24 := by linarith
      have : (q : ℝ) + 2 ≤ 2 ^ 24 := by
        have : q + 1 < 2 ^ 24 := by exact_mod_cast this
        exact_mod_cast this
      nlinarith
    have h4' : 2 ^ 24 ≤ q + 1 := by
      have : (2 : ℝ) ^ 24 ≤ q + 1 := by linarith
      exact_mod_cast this
    rcases eq_or_lt_of_le hq with rfl | h6
    · omega
    · exfalso
      have hq2 : q = 2 ^ 24 - 1 := by omega
      have : |(q : ℝ) * 2 ^ 253 - X| = 2 ^ 253 / 2 := by
        rw [e]
        refine le_antisymm (by simpa using h1) ?_
        rw [abs_sub_comm]
        refine le_trans ?_ (le_abs_self _)
        have : (q : ℝ) = 2 ^ 24 - 1 := by rw [hq2]; norm_num
        rw [this]
        clear e
        generalize (2 : ℝ) ^ 252 = Y at *
        linarith
      have := h.even this
      omega
  · omega

/-- Nothing representable is nearer. -/
theorem Rnd.nearest (h : Rnd X k q) (n : Nat) :
    |(q : ℝ) * 2 ^ k - X| ≤ |(B32.mag n : ℝ) - X| ∧
      (|(q : ℝ) * 2 ^ k - X| = |(B32.mag n : ℝ) - X| → (q : ℝ) * 2 ^ k = B32.mag n ∨ q % 2 = 0) := by
  have h2k : (0 : ℝ) < 2 ^ k := by positivity
  have hmul : ∀ m : Nat, |(q : ℝ) * 2 ^ k - X| ≤ |(m : ℝ) * 2 ^ k - X| ∧
      (|(q : ℝ) * 2 ^ k - X| = |(m : ℝ) * 2 ^ k - X| → q = m ∨ q % 2 = 0) := by
    intro m
    rcases eq_or_ne q m with rfl | hne
    · exact ⟨le_rfl, fun _ => Or.inl rfl⟩
    have hd : 2 ^ k ≤ |(q : ℝ) * 2 ^ k - m * 2 ^ k| := by
      rw [← sub_mul, abs_mul, abs_of_pos h2k]
      have : (1 : ℝ) ≤ |(q : ℝ) - m| := by
        have h1 : (1 : ℤ) ≤ |(q : ℤ) - m| := Int.one_le_abs (by omega)
        exact_mod_cast h1
      nlinarith
    have ht := abs_sub_le ((q : ℝ) * 2 ^ k) X (m * 2 ^ k)
    have ht2 : |X - (m : ℝ) * 2 ^ k| = |(m : ℝ) * 2 ^ k - X| := abs_sub_comm _ _
    have hn := h.near
    refine ⟨by linarith, fun he => Or.inr (h.even (by linarith))⟩
  rcases Nat.lt_or_ge n ((k + 1) * 2 ^ 23) with hn | hn
  · -- below the binade of `X`
    rcases Nat.eq_zero_or_pos k with rfl | hk
    · have : B32.mag n = n := by unfold B32.mag; rw [if_pos (by omega)]
      rw [this]
      have := hmul n
      simp only [pow_zero, mul_one] at this ⊢
      refine ⟨this.1, fun h => ?_⟩
      rcases this.2 h with h | h
      · exact Or.inl (by rw [h])
      · exact Or.inr h
    have hlow := h.low hk
    have hm : B32.mag n < 2 ^ (23 + k) := by
      unfold B32.mag
      split
      · exact lt_of_lt_of_le (by assumption) (Nat.pow_le_pow_right (by norm_num) (by omega))
      · have h1 : n / 2 ^ 23 - 1 ≤ k - 1 := by omega
        have h2 : n % 2 ^ 23 < 2 ^ 23 := Nat.mod_lt _ (by norm_num)
        calc (2 ^ 23 + n % 2 ^ 23) * 2 ^ (n / 2 ^ 23 - 1) < 2 ^ 24 * 2 ^ (n / 2 ^ 23 - 1) :=
              Nat.mul_lt_mul_of_pos_right (by omega) (by positivity)
          _ ≤ 2 ^ 24 * 2 ^ (k - 1) := Nat.mul_le_mul_left _ (Nat.pow_le_pow_right (by norm_num) h1)
          _ = 2 ^ (23 + k) := by rw [← pow_add]; congr 1; omega
    have hm' : (B32.mag n : ℝ) < 2 ^ (23 + k) := by exact_mod_cast hm
    have h1 := (hmul (2 ^ 23)).1
    rw [Nat.cast_pow, Nat.cast_ofNat, ← pow_add] at h1
    have a1 : |(2 : ℝ) ^ (23 + k) - X| = X - 2 ^ (23 + k) := by
      rw [abs_sub_comm, abs_of_nonneg (by linarith)]
    have a2 : |(B32.mag n : ℝ) - X| = X - B32.mag n := by
      rw [abs_sub_comm, abs_of_nonneg (by linarith)]
    rw [a1] at h1
    rw [a2]
    exact ⟨by linarith, fun h => by linarith⟩
  · -- multiples of the unit in the last place
    obtain ⟨m, hm⟩ : ∃ m, B32.mag n = m * 2 ^ k := by
      unfold B32.mag
      rw [if_neg (by omega)]
      refine ⟨(2 ^ 23 + n % 2 ^ 23) * 2 ^ (n / 2 ^ 23 - 1 - k), ?_⟩
      rw [mul_assoc, ← pow_add]
      congr 2
      omega
    rw [hm]
    push_cast
    refine ⟨(hmul m).1, fun h => ?_⟩
    rcases (hmul m).2 h with h | h
    · exact Or.inl (by rw [h])
    · exact Or.inr h

end

end B32

end FF
