import Verif.Model.FloatText
import Verif.Lemmas.Float32
import Verif.Lemmas.FloatGap
import Mathlib.Order.Monotone.Basic
import Mathlib.Tactic.IntervalCases
/-!
# Reading back decimal digits
-/

namespace FF

namespace B32

/-! ### Midpoints -/

/-- Patterns as exponent and significand -/
theorem pattern (n : Nat) : ∃ j h, n = j * 2 ^ 23 + h ∧ h < 2 ^ 24 ∧ (0 < j → 2 ^ 23 ≤ h) := by
  rcases Nat.lt_or_ge n (2 ^ 24) with h | h
  · exact ⟨0, n, by omega, h, by omega⟩
  · exact ⟨n / 2 ^ 23 - 1, 2 ^ 23 + n % 2 ^ 23, by omega, by omega, by omega⟩

theorem mag_pattern {j h : Nat} (h1 : h < 2 ^ 24) (h2 : 0 < j → 2 ^ 23 ≤ h) : mag (j * 2 ^ 23 + h) = h * 2 ^ j :=
  mag_mk h1.le h2

theorem mid_pattern {j h : Nat} (h1 : h < 2 ^ 24) (h2 : 0 < j → 2 ^ 23 ≤ h) :
    mid (j * 2 ^ 23 + h) = (2 * h + 1) * 2 ^ j := by
  unfold mid
  rw [mag_pattern h1 h2, Nat.add_assoc, mag_mk (q := h + 1) h1 (fun hj => (h2 hj).trans (Nat.le_succ _))]
  ring

theorem mag_strictMono : StrictMono mag := by
  refine strictMono_nat_of_lt_succ fun n => ?_
  obtain ⟨j, h, rfl, h1, h2⟩ := pattern n
  rw [mag_pattern h1 h2, Nat.add_assoc, mag_mk (q := h + 1) h1 (fun hj => (h2 hj).trans (Nat.le_succ _))]
  exact Nat.mul_lt_mul_of_pos_right (Nat.lt_succ_self _) (by positivity)

theorem mid_lt {n : Nat} : 2 * mag n < mid n ∧ mid n < 2 * mag (n + 1) := by
  have := mag_strictMono (Nat.lt_succ_self n)
  unfold mid
  simp only [Nat.succ_eq_add_one] at this
  omega

theorem inf_mag : mag inf = 2 ^ 277 := by decide +kernel

/-! ### Rounding, by midpoints -/

theorem round_eq {num den n : Nat} (hd : 0 < den) (hn : 0 < n) (hi : n < inf)
    (h1 : mid (n - 1) * den ≤ 2 * num) (h2 : 2 * num ≤ mid n * den)
    (h3 : n % 2 = 1 → mid (n - 1) * den ≠ 2 * num ∧ 2 * num ≠ mid n * den) : round num den = n := by
  have hr := round_rnd num hd
  have hm := hr.mag
  have hr2 := hr.nearest n
  unfold round
  simp only
  generalize Nat.log2 (num / den) - 23 = k at *
  generalize halfEven num (den * 2 ^ k) = q at *
  suffices k * 2 ^ 23 + q = n by
    rw [this]
    exact Nat.min_eq_right hi.le
  have hd' : (0 : ℝ) < den := by exact_mod_cast hd
  have hX1 : (mid (n - 1) : ℝ) ≤ 2 * (num / den) := by
    rw [← mul_div_assoc, le_div_iff₀ hd']
    exact_mod_cast h1
  have hX2 : 2 * ((num : ℝ) / den) ≤ mid n := by
    rw [← mul_div_assoc, div_le_iff₀ hd']
    exact_mod_cast h2
  have hX3 : n % 2 = 1 → (mid (n - 1) : ℝ) ≠ 2 * (num / den) ∧ 2 * ((num : ℝ) / den) ≠ mid n := by
    intro ho
    obtain ⟨ha, hb⟩ := h3 ho
    constructor
    · intro hc
      refine ha ?_
      rw [← mul_div_assoc, eq_div_iff hd'.ne'] at hc
      exact_mod_cast hc
    · intro hc
      refine hb ?_
      rw [← mul_div_assoc, div_eq_iff hd'.ne'] at hc
      exact_mod_cast hc
  have hq : (q : ℝ) * 2 ^ k = mag (k * 2 ^ 23 + q) := by
    rw [hm]
    push_cast
    rfl
  rw [hq] at hr2
  have hpar : (k * 2 ^ 23 + q) % 2 = q % 2 := by omega
  generalize k * 2 ^ 23 + q = p at *
  generalize (num : ℝ) / den = X at *
  obtain ⟨ha, hb⟩ := hr2
  have e1 : mid (n - 1) = mag (n - 1) + mag n := by
    unfold mid
    rw [Nat.sub_add_cancel hn]
  have e2 : mid n = mag n + mag (n + 1) := rfl
  rw [e1] at hX1 hX3
  rw [e2] at hX2 hX3
  push_cast at hX1 hX2 hX3
  rcases Nat.lt_trichotomy p n with hlt | heq | hgt
  · exfalso
    have hp : (mag p : ℝ) ≤ mag (n - 1) := by exact_mod_cast mag_strictMono.monotone (show p ≤ n - 1 by omega)
    have hl : (mag (n - 1) : ℝ) < mag n := by exact_mod_cast mag_strictMono (show n - 1 < n by omega)
    have hpX : |(mag p : ℝ) - X| = X - mag p := by
      rw [abs_sub_comm, abs_of_nonneg (by linarith)]
    rw [hpX] at ha hb
    have hnX : |(mag n : ℝ) - X| ≤ X - mag (n - 1) := by
      rw [abs_le]
      constructor <;> linarith
    have heq : X - mag p = |(mag n : ℝ) - X| := le_antisymm ha (by linarith)
    have hpn : (mag p : ℝ) = mag (n - 1) := by linarith
    have hpe : p = n - 1 := mag_strictMono.injective (by exact_mod_cast hpn)
    rcases hb heq with h | h
    · linarith
    · have ho : n % 2 = 1 := by omega
      refine (hX3 ho).1 ?_
      rw [heq] at ha
      rcases abs_cases ((mag n : ℝ) - X) with ⟨he, _⟩ | ⟨he, _⟩ <;> rw [he] at heq <;> linarith
  · exact heq
  · exfalso
    have hp : (mag (n + 1) : ℝ) ≤ mag p := by exact_mod_cast mag_strictMono.monotone (show n + 1 ≤ p by omega)
    have hl : (mag n : ℝ) < mag (n + 1) := by exact_mod_cast mag_strictMono (Nat.lt_succ_self n)
    have hpX : |(mag p : ℝ) - X| = mag p - X := abs_of_nonneg (by linarith)
    rw [hpX] at ha hb
    have hnX : |(mag n : ℝ) - X| ≤ mag (n + 1) - X := by
      rw [abs_le]
      constructor <;> linarith
    have heq : mag p - X = |(mag n : ℝ) - X| := le_antisymm ha (by linarith)
    have hpn : (mag p : ℝ) = mag (n + 1) := by linarith
    have hpe : p = n + 1 := mag_strictMono.injective (by exact_mod_cast hpn)
    rcases hb heq with h | h
    · linarith
    · have ho : n % 2 = 1 := by omega
      refine (hX3 ho).2 ?_
      rcases abs_cases ((mag n : ℝ) - X) with ⟨he, _⟩ | ⟨he, _⟩ <;> rw [he] at heq <;> linarith

/-! ### Rounding twice -/

theorem le_halfEven {num den a : Nat} (hd : 0 < den) (h : a * den ≤ num) : a ≤ halfEven num den := by
  have h1 : a ≤ num / den := (Nat.le_div_iff_mul_le hd).mpr h
  unfold halfEven
  split
  · exact h1
  split <;> omega

theorem halfEven_le {num den a : Nat} (hd : 0 < den) (h : num ≤ a * den) : halfEven num den ≤ a := by
  have h1 : num / den ≤ a := Nat.div_le_of_le_mul (by rwa [Nat.mul_comm])
  rcases Nat.lt_or_ge (num / den) a with h2 | h2
  · unfold halfEven
    split
    · exact h1
    split
    · omega
    · have := Nat.mod_two_eq_zero_or_one (num / den)
      omega
  · have h3 : num / den = a := le_antisymm h1 h2
    have h4 := Nat.div_add_mod num den
    rw [h3, Nat.mul_comm den a] at h4
    have h5 : num % den = 0 := by omega
    unfold halfEven
    rw [h5, if_pos (by omega)]
    exact h1

/-- Twice the distance is at most one unit. -/
theorem halfEven_dist (num : Nat) {den : Nat} (hd : 0 < den) :
    2 * num ≤ 2 * (halfEven num den * den) + den ∧ 2 * (halfEven num den * den) ≤ 2 * num + den := by
  have h4 := Nat.div_add_mod num den
  have h5 := Nat.mod_lt num hd
  have h6 := Nat.mod_two_eq_zero_or_one (num / den)
  unfold halfEven
  generalize num / den = q at *
  generalize num % den = r at *
  rw [Nat.mul_comm den q] at h4
  split
  · omega
  split
  · rw [Nat.add_mul]; omega
  · rcases h6 with h6 | h6
    · rw [h6, Nat.add_zero]; omega
    · rw [h6, Nat.add_mul]; omega

/-- The binary64 number nearest to `A / den`, in units of `2 ^ (150 - e)`, if `A / den` lies in the interval of the
float `n` and not too close to its ends. -/
theorem double_between {A den n e k q : Nat} (hd : 0 < den) (hn : 0 < n) (hi : n < inf) (he60 : 60 ≤ e)
    (hk : k = Nat.log2 (A * 2 ^ e / den) - 52) (hv : q = halfEven (A * 2 ^ e) (den * 2 ^ k))
    (h1 : mid (n - 1) * den ≤ A) (h2 : A ≤ mid n * den)
    (h3 : n % 2 = 1 → mid (n - 1) * den ≠ A ∧ A ≠ mid n * den)
    (h4 : mid (n - 1) * den = A ∨ A < 2 ^ 53 * (A - mid (n - 1) * den))
    (h5 : A = mid n * den ∨ A < 2 ^ 53 * (mid n * den - A)) :
    mid (n - 1) * 2 ^ e ≤ q * 2 ^ k ∧ q * 2 ^ k ≤ mid n * 2 ^ e ∧ q * 2 ^ k < 2 ^ (281 + e) ∧
      (n % 2 = 1 → mid (n - 1) * 2 ^ e ≠ q * 2 ^ k) ∧ (n % 2 = 1 → q * 2 ^ k ≠ mid n * 2 ^ e) := by
  -- the exponents
  obtain ⟨j, h, hjh, hh1, hh2⟩ := pattern (n - 1)
  have hlo : mid (n - 1) = (2 * h + 1) * 2 ^ j := by rw [hjh, mid_pattern hh1 hh2]
  have hhi : ∃ c, mid n = c * 2 ^ j ∧ c ≤ 2 ^ 26 := by
    obtain ⟨j', h', hjh', hh1', hh2'⟩ := pattern n
    have e : mid n = (2 * h' + 1) * 2 ^ j' := by rw [hjh', mid_pattern hh1' hh2']
    have hj : j' = j ∨ j' = j + 1 := by omega
    rcases hj with rfl | rfl
    · exact ⟨2 * h' + 1, e, by omega⟩
    · exact ⟨(2 * h' + 1) * 2, by rw [e, pow_succ]; ring, by omega⟩
  obtain ⟨c, hc, hcl⟩ := hhi
  have hj : j ≤ 254 := by
    have : inf = 255 * 2 ^ 23 := rfl
    omega
  have h2pos : ∀ i, 0 < 2 ^ i := fun i => by positivity
  -- bounds in units of `2⁻¹⁰⁷⁴`
  have b1 : (2 * h + 1) * 2 ^ j * 2 ^ e * den ≤ A * 2 ^ e := by
    have := Nat.mul_le_mul_right (2 ^ e) h1
    rw [hlo] at this
    calc _ = (2 * h + 1) * 2 ^ j * den * 2 ^ e := by ring
      _ ≤ _ := this
  have b2 : A * 2 ^ e ≤ c * 2 ^ j * 2 ^ e * den := by
    have := Nat.mul_le_mul_right (2 ^ e) h2
    rw [hc] at this
    calc _ ≤ c * 2 ^ j * den * 2 ^ e := this
      _ = _ := by ring
  have hq1 : (2 * h + 1) * 2 ^ j * 2 ^ e ≤ A * 2 ^ e / den := (Nat.le_div_iff_mul_le hd).mpr b1
  have hq2 : A * 2 ^ e / den ≤ c * 2 ^ j * 2 ^ e := Nat.div_le_of_le_mul (le_trans b2 (le_of_eq (Nat.mul_comm _ _)))
  have hqpos : A * 2 ^ e / den ≠ 0 := by
    have : 0 < (2 * h + 1) * 2 ^ j * 2 ^ e := by positivity
    omega
  have hlog1 : e ≤ Nat.log2 (A * 2 ^ e / den) := by
    rw [Nat.le_log2 hqpos]
    refine le_trans ?_ hq1
    have : 1 ≤ (2 * h + 1) * 2 ^ j := by have := h2pos j; nlinarith
    calc 2 ^ e = 1 * 2 ^ e := (Nat.one_mul _).symm
      _ ≤ _ := Nat.mul_le_mul_right _ this
  have hlog2 : Nat.log2 (A * 2 ^ e / den) ≤ 26 + e + j := by
    refine Nat.le_of_lt_succ ((Nat.log2_lt hqpos).mpr (lt_of_le_of_lt hq2 ?_))
    calc c * 2 ^ j * 2 ^ e ≤ 2 ^ 26 * 2 ^ j * 2 ^ e :=
          Nat.mul_le_mul_right _ (Nat.mul_le_mul_right _ hcl)
      _ = 2 ^ (26 + e + j) := by rw [← pow_add, ← pow_add]; congr 1; omega
      _ < 2 ^ (26 + e + j).succ := Nat.pow_lt_pow_right (by norm_num) (Nat.lt_succ_self _)
  have hself := Nat.log2_self_le hqpos
  have hk1 : Nat.log2 (A * 2 ^ e / den) = 52 + k := by omega
  rw [hk1] at hself
  have hkj : k ≤ e + j := by omega
  obtain ⟨t, ht⟩ : ∃ t, e + j = k + t := ⟨e + j - k, by omega⟩
  have hpow : 2 ^ j * 2 ^ e = 2 ^ t * 2 ^ k := by rw [← pow_add, ← pow_add]; congr 1; omega
  have hdk : 0 < den * 2 ^ k := Nat.mul_pos hd (h2pos k)
  have hself' : 2 ^ 52 * 2 ^ k * den ≤ A * 2 ^ e := by
    rw [← pow_add]
    exact (Nat.le_div_iff_mul_le hd).mp hself
  -- the binary64 number lies between the midpoints
  have c1 : (2 * h + 1) * 2 ^ t ≤ halfEven (A * 2 ^ e) (den * 2 ^ k) := by
    refine le_halfEven hdk (le_trans (le_of_eq ?_) b1)
    calc (2 * h + 1) * 2 ^ t * (den * 2 ^ k) = (2 * h + 1) * (2 ^ t * 2 ^ k) * den := by ring
      _ = (2 * h + 1) * (2 ^ j * 2 ^ e) * den := by rw [hpow]
      _ = _ := by ring
  have c2 : halfEven (A * 2 ^ e) (den * 2 ^ k) ≤ c * 2 ^ t := by
    refine halfEven_le hdk (le_trans b2 (le_of_eq ?_))
    calc c * 2 ^ j * 2 ^ e * den = c * (2 ^ j * 2 ^ e) * den := by ring
      _ = c * (2 ^ t * 2 ^ k) * den := by rw [hpow]
      _ = _ := by ring
  obtain ⟨d1, d2⟩ := halfEven_dist (A * 2 ^ e) hdk
  rw [← hv] at c1 c2 d1 d2
  have v1 : mid (n - 1) * 2 ^ e ≤ q * 2 ^ k := by
    calc mid (n - 1) * 2 ^ e = (2 * h + 1) * (2 ^ j * 2 ^ e) := by rw [hlo]; ring
      _ = (2 * h + 1) * 2 ^ t * 2 ^ k := by rw [hpow]; ring
      _ ≤ _ := Nat.mul_le_mul_right _ c1
  have v2 : q * 2 ^ k ≤ mid n * 2 ^ e := by
    calc q * 2 ^ k ≤ c * 2 ^ t * 2 ^ k := Nat.mul_le_mul_right _ c2
      _ = c * (2 ^ t * 2 ^ k) := by ring
      _ = c * (2 ^ j * 2 ^ e) := by rw [hpow]
      _ = _ := by rw [hc]; ring
  have vfin : q * 2 ^ k < 2 ^ (281 + e) := by
    refine lt_of_le_of_lt v2 ?_
    rw [hc]
    calc c * 2 ^ j * 2 ^ e ≤ 2 ^ 26 * 2 ^ 254 * 2 ^ e := by
          refine Nat.mul_le_mul_right _ (Nat.mul_le_mul hcl ?_)
          exact Nat.pow_le_pow_right (by norm_num) hj
      _ = 2 ^ (280 + e) := by rw [← pow_add, ← pow_add]
      _ < 2 ^ (281 + e) := Nat.pow_lt_pow_right (by norm_num) (by omega)
  -- it is a midpoint only if the decimal number is one
  have w1 : n % 2 = 1 → mid (n - 1) * 2 ^ e ≠ q * 2 ^ k := by
    intro ho he
    rcases h4 with h4 | h4
    · exact (h3 ho).1 h4
    · have g1 : mid (n - 1) * den ≤ A := h1
      have g2 : 2 * (A * 2 ^ e) ≤ 2 * (mid (n - 1) * 2 ^ e * den) + den * 2 ^ k := by
        calc _ ≤ 2 * (q * (den * 2 ^ k)) + den * 2 ^ k := d1
          _ = 2 * (q * 2 ^ k * den) + den * 2 ^ k := by ring
          _ = _ := by rw [← he]
      have g3 := Nat.mul_lt_mul_of_pos_right h4 (h2pos e)
      have e1 : 2 ^ 53 * (A - mid (n - 1) * den) * 2 ^ e =
          2 ^ 53 * (A * 2 ^ e - mid (n - 1) * 2 ^ e * den) := by
        rw [Nat.mul_assoc, Nat.sub_mul]
        congr 2
        ring
      rw [e1] at g3
      have g4 : 2 ^ 52 * (den * 2 ^ k) ≤ A * 2 ^ e := by
        calc _ = 2 ^ 52 * 2 ^ k * den := by ring
          _ ≤ _ := hself'
      have g5 : mid (n - 1) * 2 ^ e * den ≤ A * 2 ^ e := by
        rw [hlo]
        exact b1
      generalize A * 2 ^ e = N at *
      generalize mid (n - 1) * 2 ^ e * den = L at *
      generalize den * 2 ^ k = U at *
      omega
  have w2 : n % 2 = 1 → q * 2 ^ k ≠ mid n * 2 ^ e := by
    intro ho he
    rcases h5 with h5 | h5
    · exact (h3 ho).2 h5
    · have g2 : 2 * (mid n * 2 ^ e * den) ≤ 2 * (A * 2 ^ e) + den * 2 ^ k := by
        calc 2 * (mid n * 2 ^ e * den) = 2 * (q * (den * 2 ^ k)) := by rw [← he]; ring
          _ ≤ _ := d2
      have g3 := Nat.mul_lt_mul_of_pos_right h5 (h2pos e)
      have e1 : 2 ^ 53 * (mid n * den - A) * 2 ^ e =
          2 ^ 53 * (mid n * 2 ^ e * den - A * 2 ^ e) := by
        rw [Nat.mul_assoc, Nat.sub_mul]
        congr 2
        ring
      rw [e1] at g3
      have g4 : 2 ^ 52 * (den * 2 ^ k) ≤ A * 2 ^ e := by
        calc _ = 2 ^ 52 * 2 ^ k * den := by ring
          _ ≤ _ := hself'
      have g5 : A * 2 ^ e ≤ mid n * 2 ^ e * den := by
        rw [hc]
        exact b2
      generalize A * 2 ^ e = N at *
      generalize mid n * 2 ^ e * den = L at *
      generalize den * 2 ^ k = U at *
      omega
  exact ⟨v1, v2, vfin, w1, w2⟩

theorem roundTwice_eq {num den n e : Nat} (he60 : 60 ≤ e) (hd : 0 < den) (hn : 0 < n) (hi : n < inf)
    (h1 : mid (n - 1) * den ≤ num * 2 ^ 150) (h2 : num * 2 ^ 150 ≤ mid n * den)
    (h3 : n % 2 = 1 → mid (n - 1) * den ≠ num * 2 ^ 150 ∧ num * 2 ^ 150 ≠ mid n * den)
    (h4 : mid (n - 1) * den = num * 2 ^ 150 ∨ num * 2 ^ 150 < 2 ^ 53 * (num * 2 ^ 150 - mid (n - 1) * den))
    (h5 : num * 2 ^ 150 = mid n * den ∨ num * 2 ^ 150 < 2 ^ 53 * (mid n * den - num * 2 ^ 150)) :
    roundTwice (150 + e) num den = n := by
  have hfin : (2 : Nat) ^ (281 + e) ≤ 2 ^ (1024 + (150 + e)) := Nat.pow_le_pow_right (by norm_num) (by omega)
  unfold roundTwice roundDouble
  simp only
  rw [show 150 + e - 149 = e + 1 by omega, pow_add 2 150 e, pow_succ 2 e, Nat.mul_comm (2 ^ e) 2, ← Nat.mul_assoc]
  obtain ⟨k, hk⟩ : ∃ k, k = Nat.log2 (num * 2 ^ 150 * 2 ^ e / den) - 52 := ⟨_, rfl⟩
  rw [← hk]
  obtain ⟨q, hv⟩ : ∃ q, q = halfEven (num * 2 ^ 150 * 2 ^ e) (den * 2 ^ k) := ⟨_, rfl⟩
  rw [← hv]
  obtain ⟨v1, v2, vfin, w1, w2⟩ := double_between hd hn hi he60 hk hv h1 h2 h3 h4 h5
  rw [if_pos (lt_of_lt_of_le vfin hfin)]
  simp only
  clear hfin hk hv vfin
  refine round_eq (by positivity) hn hi ?_ ?_ ?_
  · calc mid (n - 1) * (2 * 2 ^ e) = 2 * (mid (n - 1) * 2 ^ e) := by ring
      _ ≤ _ := Nat.mul_le_mul_left 2 v1
  · calc 2 * (q * 2 ^ k) ≤ 2 * (mid n * 2 ^ e) := Nat.mul_le_mul_left 2 v2
      _ = _ := by ring
  · intro ho
    constructor
    · intro he
      refine w1 ho (Nat.eq_of_mul_eq_mul_left (show 0 < 2 by norm_num) ?_)
      rw [← he]
      ring
    · intro he
      refine w2 ho (Nat.eq_of_mul_eq_mul_left (show 0 < 2 by norm_num) ?_)
      rw [he]
      ring

theorem viaDouble_eq {num den n : Nat} (hd : 0 < den) (hn : 0 < n) (hi : n < inf)
    (h1 : mid (n - 1) * den ≤ num * 2 ^ 150) (h2 : num * 2 ^ 150 ≤ mid n * den)
    (h3 : n % 2 = 1 → mid (n - 1) * den ≠ num * 2 ^ 150 ∧ num * 2 ^ 150 ≠ mid n * den)
    (h4 : mid (n - 1) * den = num * 2 ^ 150 ∨ num * 2 ^ 150 < 2 ^ 53 * (num * 2 ^ 150 - mid (n - 1) * den))
    (h5 : num * 2 ^ 150 = mid n * den ∨ num * 2 ^ 150 < 2 ^ 53 * (mid n * den - num * 2 ^ 150)) :
    viaDouble num den = n := by
  unfold viaDouble
  exact roundTwice_eq (e := 924) (by omega) hd hn hi h1 h2 h3 h4 h5

/-! ### The digits that are written -/

/-- `x` lies between the midpoints around a float; the ends belong to it if the fraction is even. -/
def Inside (even : Bool) (lo x hi : Nat) : Prop :=
  lo ≤ x ∧ x ≤ hi ∧ (even = false → lo ≠ x ∧ x ≠ hi)

theorem pick_spec {even : Bool} {lo v hi u D : Nat} (hu : 0 < u) (h1 : lo < v) (h2 : v < hi)
    (h : pick even lo v hi u = some D) :
    Inside even lo (D * u) hi ∧ (D = v / u ∨ D = v / u + 1) := by
  have hD1 : v / u * u ≤ v := Nat.div_mul_le_self v u
  have hD2 : v < (v / u + 1) * u := by
    have := Nat.lt_succ_self (v / u)
    exact (Nat.div_lt_iff_lt_mul hu).mp this
  unfold pick at h
  simp only at h
  generalize v / u = d at *
  obtain ⟨low, hlow⟩ : ∃ low, low = (decide (lo < d * u) || (even && lo == d * u)) := ⟨_, rfl⟩
  obtain ⟨high, hhigh⟩ : ∃ high, high = (decide ((d + 1) * u < hi) || (even && (d + 1) * u == hi)) := ⟨_, rfl⟩
  rw [← hlow, ← hhigh] at h
  have L : low = true → Inside even lo (d * u) hi := by
    intro hl
    rw [hl] at hlow
    simp only [Bool.true_eq, Bool.or_eq_true, Bool.and_eq_true, beq_iff_eq, decide_eq_true_eq] at hlow
    refine ⟨by omega, by omega, fun he => ⟨?_, by omega⟩⟩
    rcases hlow with hlow | ⟨hlow, -⟩
    · omega
    · rw [he] at hlow; cases hlow
  have H : high = true → Inside even lo ((d + 1) * u) hi := by
    intro hl
    rw [hl] at hhigh
    simp only [Bool.true_eq, Bool.or_eq_true, Bool.and_eq_true, beq_iff_eq, decide_eq_true_eq] at hhigh
    refine ⟨by omega, by omega, fun he => ⟨by omega, ?_⟩⟩
    rcases hhigh with hhigh | ⟨hhigh, -⟩
    · omega
    · rw [he] at hhigh; cases hhigh
  cases low <;> cases high <;>
    simp only [Bool.and_true, Bool.true_and, Bool.and_false, Bool.false_and, Bool.or_true, Bool.or_false,
      Bool.or_self, if_true, Bool.false_eq_true, if_false, reduceCtorEq, Option.some.injEq] at h
  · subst h; exact ⟨H rfl, .inr rfl⟩
  · subst h; exact ⟨L rfl, .inl rfl⟩
  · split at h
    · subst h; exact ⟨L rfl, .inl rfl⟩
    · subst h; exact ⟨H rfl, .inr rfl⟩

/-- If the interval reaches beyond a unit on both sides, there is a result, and it is closest to the number. -/
theorem pick_close {even : Bool} {lo v hi u : Nat} (hu : 0 < u) (h1 : lo + u < v) (h2 : v + u < hi) :
    ∃ D, pick even lo v hi u = some D ∧ 2 * (D * u) ≤ 2 * v + u ∧ 2 * v ≤ 2 * (D * u) + u := by
  have hD0 := Nat.div_add_mod v u
  have hD3 := Nat.mod_lt v hu
  unfold pick
  simp only
  rw [Nat.mul_comm u] at hD0
  generalize v / u = d at *
  generalize v % u = r at *
  have e : (d + 1) * u = d * u + u := by ring
  have hl : decide (lo < d * u) = true := by rw [decide_eq_true_eq]; omega
  have hh : decide ((d + 1) * u < hi) = true := by rw [decide_eq_true_eq, e]; omega
  rw [hl, hh]
  simp only [Bool.true_or, Bool.and_self, if_true]
  split
  · rename_i h
    simp only [Bool.or_eq_true, Bool.and_eq_true, beq_iff_eq, decide_eq_true_eq] at h
    exact ⟨d, rfl, by omega, by omega⟩
  · rename_i h
    simp only [Bool.or_eq_true, Bool.and_eq_true, beq_iff_eq, decide_eq_true_eq, not_or] at h
    exact ⟨d + 1, rfl, by rw [e]; omega, by rw [e]; omega⟩

/-- No result: neither the digits nor the next ones lie in the interval. -/
theorem pick_none {even : Bool} {lo v hi u : Nat} (hu : 0 < u) (h1 : lo < v) (h2 : v < hi)
    (h : pick even lo v hi u = none) :
    ¬ Inside even lo (v / u * u) hi ∧ ¬ Inside even lo ((v / u + 1) * u) hi := by
  unfold pick at h
  simp only at h
  generalize v / u = d at *
  split at h
  · cases h
  · rename_i hc
    simp only [Bool.or_eq_true, Bool.and_eq_true, beq_iff_eq, decide_eq_true_eq, not_or, not_and] at hc
    obtain ⟨⟨c1, c2⟩, c3, c4⟩ := hc
    constructor
    · rintro ⟨i1, i2, i3⟩
      cases even with
      | true => exact c2 rfl (by omega)
      | false => have := (i3 rfl).1; omega
    · rintro ⟨i1, i2, i3⟩
      cases even with
      | true => exact c4 rfl (by omega)
      | false => have := (i3 rfl).2; omega

end B32

end FF
