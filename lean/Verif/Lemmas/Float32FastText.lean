import Verif.Lemmas.Float32Sum
/-! Means of rows in binary32, and what undoing and redoing them costs. -/

namespace FF

open B32

namespace F32

/-- A row times the number of its n-grams plus one times its norm -/
theorem scaled_error {u η x c a1 a2 k X : ℝ} (hu : 0 < u) (he : 0 < η) (hu8 : u ≤ 1 / 1000)
    (hXc : |x * k| * |c| = X)
    (h1 : |a1 - x * k| ≤ u * |x * k| + η) (h2 : |a2 - a1 * c| ≤ u * |a1 * c| + η) :
    |a2 - x * k * c| ≤ (2 * u + u ^ 2) * X + 2 * η * (1 + |c|) := by
  have hc0 := abs_nonneg c
  have b1 : |a1 * c - x * k * c| ≤ u * X + η * |c| := by
    rw [← sub_mul, abs_mul]
    calc |a1 - x * k| * |c| ≤ (u * |x * k| + η) * |c| := mul_le_mul_of_nonneg_right h1 hc0
      _ = u * (|x * k| * |c|) + η * |c| := by ring
      _ = _ := by rw [hXc]
  have b2 : |a1 * c| ≤ X + (u * X + η * |c|) := by
    have := abs_add_le (a1 * c - x * k * c) (x * k * c)
    rw [sub_add_cancel, abs_mul (x * k) c, hXc] at this
    linarith
  have := abs_add_le (a2 - a1 * c) (a1 * c - x * k * c)
  rw [sub_add_sub_cancel] at this
  have h : u * |a1 * c| ≤ u * (X + (u * X + η * |c|)) := mul_le_mul_of_nonneg_left b2 hu.le
  have h' : u * (η * |c|) ≤ 1 * (η * |c|) := mul_le_mul_of_nonneg_right (by linarith) (by positivity)
  have e1 : u * (X + (u * X + η * |c|)) = u * X + u ^ 2 * X + u * (η * |c|) := by ring
  have e2 : (2 * u + u ^ 2) * X + 2 * η * (1 + |c|) = 2 * (u * X) + u ^ 2 * X + 2 * η + 2 * (η * |c|) := by ring
  rw [e2]
  rw [e1] at h
  linarith

/-- Minus the sum of the rows of the n-grams -/
theorem raw_error {u E T a2 sS S A r X p P : ℝ} (hu : 0 < u) (hu8 : u ≤ 1 / 1000) (hE0 : 0 ≤ E)
    (hX0 : 0 ≤ X) (hT : |T| = X) (hA0 : 0 ≤ A) (hSA : |S| ≤ A) (hp3 : (1 + u) ^ 3 ≤ P) (hp : (1 + u) * p ≤ P)
    (b3 : |a2 - T| ≤ (2 * u + u ^ 2) * X + E) (h3 : |sS - S| ≤ (p - 1) * A)
    (h4 : Near u (a2 - sS) r) :
    |r - (T - S)| ≤ (P - 1) * (X + A) + 2 * E := by
  have b4 : |a2| ≤ X + ((2 * u + u ^ 2) * X + E) := by
    have := abs_add_le (a2 - T) T
    rw [sub_add_cancel, hT] at this
    linarith
  have b5 : |sS| ≤ p * A := by
    have := abs_add_le (sS - S) S
    rw [sub_add_cancel] at this
    linarith
  have h7 : |r - (a2 - sS)| ≤ u * |a2 - sS| := h4
  have h8 := abs_sub a2 sS
  have h9 : u * |a2 - sS| ≤ u * (X + ((2 * u + u ^ 2) * X + E) + p * A) :=
    mul_le_mul_of_nonneg_left (by linarith) hu.le
  have h10 : |r - (T - S)| ≤ |r - (a2 - sS)| + |a2 - T| + |sS - S| := by
    have e : r - (T - S) = (r - (a2 - sS)) + (a2 - T) - (sS - S) := by ring
    rw [e]
    exact (abs_sub _ _).trans (by linarith [abs_add_le (r - (a2 - sS)) (a2 - T)])
  have h12 : ((1 + u) ^ 3 - 1) * X ≤ (P - 1) * X := mul_le_mul_of_nonneg_right (by linarith) hX0
  have h13 : ((1 + u) * p - 1) * A ≤ (P - 1) * A := mul_le_mul_of_nonneg_right (by linarith) hA0
  have h14 : u * E ≤ 1 * E := mul_le_mul_of_nonneg_right (by linarith) hE0
  have e1 : ((1 + u) ^ 3 - 1) * X = (2 * u + u ^ 2) * X + u * X + u * ((2 * u + u ^ 2) * X) := by ring
  have e2 : ((1 + u) * p - 1) * A = (p - 1) * A + u * (p * A) := by ring
  have e3 : u * (X + ((2 * u + u ^ 2) * X + E) + p * A) =
    u * X + u * ((2 * u + u ^ 2) * X) + u * E + u * (p * A) := by ring
  rw [e1] at h12
  rw [e2] at h13
  rw [e3] at h9
  linarith

/-- Plus the rows of the n-grams -/
theorem redone_error {E T S A r q X p P : ℝ} (hE0 : 0 ≤ E) (hX0 : 0 ≤ X) (hT : |T| = X)
    (hA0 : 0 ≤ A) (hSA : |S| ≤ A) (hD0 : 0 ≤ P - 1) (hD1 : P - 1 ≤ 8 / 100) (hp : p ≤ P)
    (b6 : |r - (T - S)| ≤ (P - 1) * (X + A) + 2 * E) (h5 : |q - (r + S)| ≤ (p - 1) * (|r| + A)) :
    |q - T| ≤ (P - 1) * (3 + (P - 1)) * (X + A) + 3 * E := by
  have b7 : |r| ≤ P * (X + A) + 2 * E := by
    have e1 := abs_add_le (r - (T - S)) (T - S)
    rw [sub_add_cancel] at e1
    have e2 := abs_sub T S
    rw [hT] at e2
    linarith
  have e1 : |q - T| ≤ |q - (r + S)| + |r - (T - S)| := by
    have e : q - T = (q - (r + S)) + (r - (T - S)) := by ring
    rw [e]
    exact abs_add_le _ _
  have e2 : (p - 1) * (|r| + A) ≤ (P - 1) * (|r| + A) :=
    mul_le_mul_of_nonneg_right (by linarith) (by positivity)
  have e3 : (P - 1) * (|r| + A) ≤ (P - 1) * (P * (X + A) + 2 * E + A) :=
    mul_le_mul_of_nonneg_left (by linarith) hD0
  have e4 : (P - 1) * A ≤ (P - 1) * (X + A) := mul_le_mul_of_nonneg_left (by linarith) hD0
  have e5 : (P - 1) * E ≤ 8 / 100 * E := mul_le_mul_of_nonneg_right hD1 hE0
  have e6 : (P - 1) * (P * (X + A) + 2 * E + A) =
    (P - 1) * (1 + (P - 1)) * (X + A) + 2 * ((P - 1) * E) + (P - 1) * A := by ring
  have e7 : (P - 1) * (3 + (P - 1)) * (X + A) =
    (P - 1) * (1 + (P - 1)) * (X + A) + 2 * ((P - 1) * (X + A)) := by ring
  rw [e6] at e3
  rw [e7]
  linarith

/-- Divided by their number -/
theorem quotient_error {u η x c A E q m t k P : ℝ} (hu : 0 < u) (hu8 : u ≤ 1 / 1000) (hk0 : 1 ≤ k) (hE0 : 0 ≤ E)
    (hA0 : 0 ≤ A) (hD0 : 0 ≤ P - 1) (hP : P ≤ 1 + 108 / 100 * t) (ht : t ≤ 1 / 15) (hut : u ≤ t / 3)
    (b8 : |q - x * k * c| ≤ (P - 1) * (3 + (P - 1)) * (|x * c| * k + A) + 3 * E)
    (h6 : |m - q / k| ≤ u * |q / k| + η) :
    |m - x * c| ≤ 4 * t * (|x * c| + A / k) + 4 * E + η := by
  have hkp : (0 : ℝ) < k := by linarith
  have hTk : |x * k * c| = |x * c| * k := by
    rw [show x * k * c = x * c * k by ring, abs_mul (x * c) k, abs_of_pos hkp]
  set X : ℝ := |x * c| * k with hX
  have hX0 : 0 ≤ X := by positivity
  have hXA : 0 ≤ X + A := by linarith
  have b9 : |q| ≤ X + |q - x * k * c| := by
    have := abs_add_le (q - x * k * c) (x * k * c)
    rw [sub_add_cancel, hTk] at this
    linarith
  have b10 : |m - x * c| ≤ ((1 + u) * |q - x * k * c| + u * X) / k + η := by
    have e1 : |q / k - x * c| = |q - x * k * c| / k := by
      rw [show q / k - x * c = (q - x * k * c) / k by field_simp, abs_div, abs_of_pos hkp]
    have e2 : |q / k| = |q| / k := by rw [abs_div, abs_of_pos hkp]
    have e3 := abs_add_le (m - q / k) (q / k - x * c)
    rw [sub_add_sub_cancel, e1] at e3
    rw [e2] at h6
    have e4 : u * (|q| / k) ≤ u * ((X + |q - x * k * c|) / k) :=
      mul_le_mul_of_nonneg_left (div_le_div_of_nonneg_right b9 hkp.le) hu.le
    calc |m - x * c| ≤ u * ((X + |q - x * k * c|) / k) + η + |q - x * k * c| / k := by linarith
      _ = _ := by ring
  have b11 : (1 + u) * |q - x * k * c| + u * X ≤ 4 * t * (X + A) + 4 * E := by
    have e1 : (1 + u) * |q - x * k * c| ≤ 1001 / 1000 * ((P - 1) * (3 + (P - 1)) * (X + A) + 3 * E) :=
      mul_le_mul (by linarith) b8 (abs_nonneg _) (by norm_num)
    have e2 : (P - 1) * (3 + (P - 1)) ≤ 108 / 100 * t * (308 / 100) :=
      mul_le_mul (by linarith) (by linarith) (by linarith) (by linarith)
    have e3 : (P - 1) * (3 + (P - 1)) * (X + A) ≤ 108 / 100 * t * (308 / 100) * (X + A) :=
      mul_le_mul_of_nonneg_right e2 hXA
    have e4 : u * X ≤ t / 3 * (X + A) := mul_le_mul hut (by linarith) hX0 (by linarith)
    have e5 : 0 ≤ t * (X + A) := mul_nonneg (by linarith) hXA
    have e6 : 108 / 100 * t * (308 / 100) * (X + A) = 108 / 100 * (308 / 100) * (t * (X + A)) := by ring
    have e7 : t / 3 * (X + A) = 1 / 3 * (t * (X + A)) := by ring
    rw [e6] at e3
    rw [e7] at e4
    rw [mul_assoc 4 t]
    linarith
  have b12 : ((1 + u) * |q - x * k * c| + u * X) / k ≤ 4 * t * (|x * c| + A / k) + 4 * E := by
    calc ((1 + u) * |q - x * k * c| + u * X) / k ≤ (4 * t * (X + A) + 4 * E) / k :=
          div_le_div_of_nonneg_right b11 hkp.le
      _ = 4 * t * (|x * c| + A / k) + 4 * E / k := by rw [hX]; field_simp
      _ ≤ _ := by
        have : 4 * E / k ≤ 4 * E := div_le_self (by positivity) hk0
        linarith
  linarith

/-- Errors of `((x k) c - ∑ s + ∑ s) / k`, with `k - 1` numbers in the sums. -/
theorem undo_mean_error {x c a1 a2 sS S A r q m : ℝ} {k : Nat} (hk1 : 1 ≤ k) (hk : k + 1 ≤ 2 ^ 20)
    (hSA : |S| ≤ A)
    (h1 : |a1 - x * k| ≤ uu * |x * k| + eta) (h2 : |a2 - a1 * c| ≤ uu * |a1 * c| + eta)
    (h3 : |sS - S| ≤ ((1 + uu) ^ (k - 2) - 1) * A) (h4 : Near uu (a2 - sS) r)
    (h5 : |q - (r + S)| ≤ ((1 + uu) ^ (k - 1) - 1) * (|r| + A))
    (h6 : |m - q / k| ≤ uu * |q / k| + eta) :
    |m - x * c| ≤ 4 * ((k + 2) * uu) * (|x * c| + A / k) + 16 * eta * (1 + |c|) := by
  have hu := uu_pos
  have he := eta_pos
  have hu8 : uu ≤ 1 / 1000 := by unfold uu; norm_num
  have hk0 : (1 : ℝ) ≤ k := by exact_mod_cast hk1
  obtain ⟨hP, ht⟩ := pow_bound hk
  have hkk : ((k + 1 : Nat) : ℝ) + 1 = k + 2 := by push_cast; ring
  rw [hkk] at hP ht
  have hp3 : (1 + uu) ^ 3 ≤ (1 + uu) ^ (k + 1 + 1) := pow_le_pow_right₀ (by linarith) (by omega)
  have hp : (1 + uu) * (1 + uu) ^ (k - 2) ≤ (1 + uu) ^ (k + 1 + 1) := by
    rw [← pow_succ']
    exact pow_le_pow_right₀ (by linarith) (by omega)
  have hp' : (1 + uu) ^ (k - 1) ≤ (1 + uu) ^ (k + 1 + 1) := pow_le_pow_right₀ (by linarith) (by omega)
  have hP1 : 1 ≤ (1 + uu) ^ (k + 1 + 1) := one_le_pow₀ (by linarith)
  have hut : uu ≤ (k + 2) * uu / 3 := by
    have : (3 : ℝ) * uu ≤ (k + 2) * uu := mul_le_mul_of_nonneg_right (by linarith) hu.le
    linarith
  have hkp : (0 : ℝ) < k := by linarith
  have hA0 : 0 ≤ A := (abs_nonneg S).trans hSA
  have hXc : |x * k| * |c| = |x * c| * k := by
    rw [abs_mul, abs_mul, abs_of_pos hkp]; ring
  have hT : |x * k * c| = |x * c| * k := by rw [abs_mul, hXc]
  have hE0 : 0 ≤ 2 * eta * (1 + |c|) := mul_nonneg (by linarith) (by positivity)
  have hX0 : 0 ≤ |x * c| * k := by positivity
  have b3 := scaled_error hu he hu8 hXc h1 h2
  have b6 := raw_error hu hu8 hE0 hX0 hT hA0 hSA hp3 hp b3 h3 h4
  have b8 := redone_error hE0 hX0 hT hA0 hSA (by linarith) (by linarith) hp' b6 h5
  refine (quotient_error hu hu8 hk0 hE0 hA0 (by linarith) hP ht hut b8 h6).trans ?_
  have : 0 ≤ eta * |c| := mul_nonneg he.le (abs_nonneg _)
  have e : 4 * (2 * eta * (1 + |c|)) + eta ≤ 16 * eta * (1 + |c|) := by
    rw [show 4 * (2 * eta * (1 + |c|)) = 8 * eta + 8 * (eta * |c|) by ring,
      show 16 * eta * (1 + |c|) = 16 * eta + 16 * (eta * |c|) by ring]
    linarith
  linarith

variable [NumOps F32]

theorem mul_b32 (hB : Binary32) {a b : F32} (ha : Finite a) (hb : Finite b) (h : |val a * val b| ≤ 2 ^ 127) :
    Finite (NumOps.mul a b) ∧ |val (NumOps.mul a b) - val a * val b| ≤ uu * |val a * val b| + eta := by
  have h1 := mul_result ha hb
  have hlt : |val a * val b| < overflow := lt_of_le_of_lt h overflow_gt
  have hf := h1.fin hlt
  rw [(hB.mul a b).eq hf.not_nan]
  exact ⟨hf, h1.error hlt⟩

theorem div_b32 (hB : Binary32) {a b : F32} (ha : Finite a) (hb : Finite b) (h0 : val b ≠ 0)
    (h : |val a / val b| ≤ 2 ^ 127) :
    Finite (NumOps.div a b) ∧ |val (NumOps.div a b) - val a / val b| ≤ uu * |val a / val b| + eta := by
  have h1 := div_result ha hb h0
  have hlt : |val a / val b| < overflow := lt_of_le_of_lt h overflow_gt
  have hf := h1.fin hlt
  rw [(hB.div a b).eq hf.not_nan]
  exact ⟨hf, h1.error hlt⟩

omit [NumOps F32] in
/-- Numbers with at most 24 significant bits are not changed. -/
theorem exact_shifted {n s k q : Nat} (h : Rnd ((n : ℝ) * 2 ^ s) k q) (hn : n < 2 ^ 24) (hs : 0 < s) :
    (q : ℝ) * 2 ^ k = n * 2 ^ s := by
  have hks : k ≤ s := by
    by_contra hc
    have h1 := h.low (by omega)
    have h2 : (n : ℝ) < 2 ^ 24 := by exact_mod_cast hn
    have h3 : (2 : ℝ) ^ (24 + s) ≤ 2 ^ (23 + k) := pow_le_pow_right₀ (by norm_num) (by omega)
    have h4 : (n : ℝ) * 2 ^ s < 2 ^ 24 * 2 ^ s := mul_lt_mul_of_pos_right h2 (by positivity)
    rw [← pow_add] at h4
    linarith
  obtain ⟨j, rfl⟩ := Nat.exists_eq_add_of_le hks
  have h1 := h.near
  have e : (q : ℝ) * 2 ^ k - n * 2 ^ (k + j) = (q - n * 2 ^ j) * 2 ^ k := by rw [pow_add]; ring
  have hpos : (0 : ℝ) < 2 ^ k := by positivity
  rw [e, abs_mul, abs_of_pos hpos] at h1
  have h2 : |(q : ℝ) - n * 2 ^ j| < 1 := by
    by_contra hc
    have := mul_le_mul_of_nonneg_right (not_lt.mp hc) hpos.le
    linarith
  have h3 : |((q : ℤ) - ((n * 2 ^ j : Nat) : ℤ) : ℤ)| < 1 := by
    have e2 : (((q : ℤ) - ((n * 2 ^ j : Nat) : ℤ) : ℤ) : ℝ) = (q : ℝ) - n * 2 ^ j := by push_cast; rfl
    have : |(((q : ℤ) - ((n * 2 ^ j : Nat) : ℤ) : ℤ) : ℝ)| < 1 := by rw [e2]; exact h2
    exact_mod_cast this
  have h4 := Int.abs_lt_one_iff.mp h3
  have h5 : q = n * 2 ^ j := by omega
  rw [h5, pow_add]
  push_cast
  ring

omit [NumOps F32] in
theorem ofNat_exact {n : Nat} (hn : n < 2 ^ 24) : Finite (B32.ofNat n) ∧ val (B32.ofNat n) = n := by
  have h := round_rnd (n * 2 ^ 149) (den := 1) (by norm_num)
  have e : (((n * 2 ^ 149 : Nat) : ℝ) / (1 : Nat)) = (n : ℝ) * 2 ^ 149 := by
    rw [Nat.cast_mul, Nat.cast_pow, Nat.cast_ofNat, Nat.cast_one, div_one]
  rw [e] at h
  have hlt : (n : ℝ) * 2 ^ 149 < (2 ^ 25 - 1) * 2 ^ 252 := by
    have h2 : (n : ℝ) < 2 ^ 24 := by exact_mod_cast hn
    calc (n : ℝ) * 2 ^ 149 ≤ 2 ^ 24 * 2 ^ 149 := mul_le_mul_of_nonneg_right h2.le (by positivity)
      _ < _ := by norm_num
  obtain ⟨h1, h2⟩ := val_rnd h false hlt
  refine ⟨h1, h2.trans ?_⟩
  rw [exact_shifted h hn (by norm_num)]
  simp only [sg, Bool.false_eq_true, if_false, one_mul]
  field_simp

/-- The number of rows is converted exactly. -/
theorem count_b32 (hB : Binary32) {n : Nat} (hn : n < 2 ^ 24) :
    Finite (NumOps.ofNat n : F32) ∧ val (NumOps.ofNat n : F32) = n := by
  rw [hB.ofNat]
  exact ofNat_exact hn

/-- Means of at most `2²⁰` numbers of at most `2¹⁰⁰`. -/
theorem mean_b32 (hB : Binary32) (xs : List F32) (hne : xs ≠ []) (hf : ∀ x ∈ xs, Finite x)
    (hl : xs.length ≤ 2 ^ 20) (hh : ∀ x ∈ xs, |val x| ≤ 2 ^ 100) :
    Finite (NumOps.div (numSum xs) (NumOps.ofNat xs.length)) ∧
      |val (NumOps.div (numSum xs) (NumOps.ofNat xs.length)) - (xs.map val).sum / xs.length| ≤
        ((1 + uu) ^ xs.length - 1) * ((xs.map fun x => |val x|).sum / xs.length) + eta := by
  have hu := uu_pos
  have hlen : (0 : ℝ) < xs.length := by exact_mod_cast List.length_pos_iff.mpr hne
  have h1 : (1 : ℝ) ≤ xs.length := by exact_mod_cast List.length_pos_iff.mpr hne
  obtain ⟨c1, c2⟩ := count_b32 hB (n := xs.length) (by omega)
  have hA : absSum (xs.map val) ≤ 2 ^ 120 := by
    refine (absSum_le_mul (B := 2 ^ 100) ?_).trans ?_
    · intro y hy
      obtain ⟨x, hx, rfl⟩ := List.mem_map.mp hy
      exact hh x hx
    · rw [List.length_map]
      have : (xs.length : ℝ) ≤ 2 ^ 20 := by exact_mod_cast hl
      calc (xs.length : ℝ) * 2 ^ 100 ≤ 2 ^ 20 * 2 ^ 100 := mul_le_mul_of_nonneg_right this (by positivity)
        _ = 2 ^ 120 := by norm_num
  have hab : absSum (xs.map val) = (xs.map fun x => |val x|).sum := by simp [absSum, Function.comp_def]
  obtain ⟨s1, s2⟩ := sum_b32 hB xs hf (pow_le_two hl) (hA.trans (by norm_num))
  have s3 := rsum_abs_le s2 (by rw [List.length_map]; exact pow_le_two hl)
  have s4 := s2.error hu.le
  have s5 := abs_sum_le (xs.map val)
  rw [List.length_map] at s4
  obtain ⟨d1, d2⟩ := div_b32 hB s1 c1 (by rw [c2]; exact hlen.ne') (by
    rw [c2, abs_div, abs_of_pos hlen]
    refine (div_le_self (abs_nonneg _) h1).trans ?_
    have : (2 : ℝ) * 2 ^ 120 ≤ 2 ^ 127 := by norm_num
    linarith)
  refine ⟨d1, ?_⟩
  rw [c2] at d2
  rw [← hab]
  have hP : (1 + uu) ^ xs.length = (1 + uu) * (1 + uu) ^ (xs.length - 1) := by
    rw [← pow_succ']
    congr 1
    have := List.length_pos_iff.mpr hne
    omega
  rw [hP]
  generalize (1 + uu) ^ (xs.length - 1) = p at *
  generalize absSum (xs.map val) = A at *
  generalize (xs.map val).sum = S at *
  generalize val (numSum xs) = q at *
  generalize (xs.length : ℝ) = k at *
  generalize val (NumOps.div (numSum xs) (NumOps.ofNat xs.length)) = m at *
  generalize uu = u at *
  generalize eta = η at *
  have e1 : |q / k - S / k| = |q - S| / k := by rw [← sub_div, abs_div, abs_of_pos hlen]
  have e2 : |q / k| = |q| / k := by rw [abs_div, abs_of_pos hlen]
  have e3 := abs_add_le (m - q / k) (q / k - S / k)
  rw [sub_add_sub_cancel, e1] at e3
  rw [e2] at d2
  have e4 : |q| ≤ p * A := by
    have := abs_add_le (q - S) S
    rw [sub_add_cancel] at this
    linarith
  have e5 : u * (|q| / k) ≤ u * (p * A / k) :=
    mul_le_mul_of_nonneg_left (div_le_div_of_nonneg_right e4 hlen.le) hu.le
  have e6 : |q - S| / k ≤ (p - 1) * A / k := div_le_div_of_nonneg_right s4 hlen.le
  calc |m - S / k| ≤ u * (p * A / k) + η + (p - 1) * A / k := by linarith
    _ = _ := by ring

/-- What is written for a word, and what it becomes if the rows of the n-grams are added again -/
theorem undone_b32 (hB : Binary32) {x a : F32} {c : ℝ} (ys : List F32) (hx : Finite x)
    (hxb : |val x| ≤ 2 ^ 40) (hcb : |c| ≤ 2 ^ 40) (hf : ∀ y ∈ ys, Finite y) (hl : ys.length < 2 ^ 19)
    (hh : ∀ y ∈ ys, |val y| ≤ 2 ^ 40)
    (ha : (c = 1 ∧ a = NumOps.mul x (NumOps.ofNat (ys.length + 1))) ∨
      ∃ n, Finite n ∧ c = val n ∧ a = NumOps.mul (NumOps.mul x (NumOps.ofNat (ys.length + 1))) n) :
    Finite (NumOps.sub a (numSum ys)) ∧
    Finite (NumOps.div (numSum (NumOps.sub a (numSum ys) :: ys)) (NumOps.ofNat (ys.length + 1))) ∧
      |val (NumOps.div (numSum (NumOps.sub a (numSum ys) :: ys)) (NumOps.ofNat (ys.length + 1))) - val x * c| ≤
        4 * ((ys.length + 3) * uu) * (|val x * c| + (ys.map fun y => |val y|).sum / (ys.length + 1)) +
          16 * eta * (1 + |c|) := by
  have hu := uu_pos
  have he := eta_pos
  have hu8 : uu ≤ 1 / 1000 := by unfold uu; norm_num
  have he8 : eta ≤ 1 := by unfold eta; exact pow_le_one₀ (by norm_num) (by norm_num)
  obtain ⟨c1, c2⟩ := count_b32 hB (n := ys.length + 1) (by omega)
  have hk : ((ys.length + 1 : Nat) : ℝ) ≤ 2 ^ 20 := by exact_mod_cast (by omega : ys.length + 1 ≤ 2 ^ 20)
  have hk0 : (1 : ℝ) ≤ ((ys.length + 1 : Nat) : ℝ) := by exact_mod_cast (by omega : 1 ≤ ys.length + 1)
  have hkp : (0 : ℝ) < ((ys.length + 1 : Nat) : ℝ) := by linarith
  have hA : absSum (ys.map val) ≤ 2 ^ 60 := by
    refine (absSum_le_mul (B := 2 ^ 40) ?_).trans ?_
    · intro y hy
      obtain ⟨x, hx, rfl⟩ := List.mem_map.mp hy
      exact hh x hx
    · rw [List.length_map]
      have : (ys.length : ℝ) ≤ 2 ^ 20 := by exact_mod_cast (by omega : ys.length ≤ 2 ^ 20)
      calc (ys.length : ℝ) * 2 ^ 40 ≤ 2 ^ 20 * 2 ^ 40 := mul_le_mul_of_nonneg_right this (by positivity)
        _ = 2 ^ 60 := by norm_num
  have hab : absSum (ys.map val) = (ys.map fun y => |val y|).sum := by simp [absSum, Function.comp_def]
  have hA0 := absSum_nonneg (ys.map val)
  obtain ⟨s1, s2⟩ := sum_b32 hB ys hf (pow_le_two (by omega)) (hA.trans (by norm_num))
  have s3 := rsum_abs_le s2 (by rw [List.length_map]; exact pow_le_two (by omega))
  have s4 := s2.error hu.le
  have s5 := abs_sum_le (ys.map val)
  rw [List.length_map] at s4
  -- the product
  have hxk : |val x * val (NumOps.ofNat (ys.length + 1) : F32)| ≤ 2 ^ 60 := by
    rw [c2, abs_mul, abs_of_pos hkp]
    calc |val x| * ((ys.length + 1 : Nat) : ℝ) ≤ 2 ^ 40 * 2 ^ 20 := mul_le_mul hxb hk hkp.le (by positivity)
      _ = 2 ^ 60 := by norm_num
  obtain ⟨m1, m2⟩ := mul_b32 hB hx c1 (hxk.trans (by norm_num))
  have m3 : |val (NumOps.mul x (NumOps.ofNat (ys.length + 1)))| ≤ 2 ^ 61 := by
    have := abs_add_le (val (NumOps.mul x (NumOps.ofNat (ys.length + 1))) -
      val x * val (NumOps.ofNat (ys.length + 1) : F32)) (val x * val (NumOps.ofNat (ys.length + 1) : F32))
    rw [sub_add_cancel] at this
    have h2 : uu * |val x * val (NumOps.ofNat (ys.length + 1) : F32)| ≤ 1 / 1000 * 2 ^ 60 :=
      mul_le_mul hu8 hxk (abs_nonneg _) (by norm_num)
    have : (2 : ℝ) ^ 61 = 2 * 2 ^ 60 := by norm_num
    have : (1 : ℝ) ≤ 1 / 1000 * 2 ^ 60 := by norm_num
    linarith
  rw [c2] at m2
  have key : Finite a ∧ |val a| ≤ 2 ^ 103 ∧
      |val a - val (NumOps.mul x (NumOps.ofNat (ys.length + 1))) * c| ≤
        uu * |val (NumOps.mul x (NumOps.ofNat (ys.length + 1))) * c| + eta := by
    rcases ha with ⟨rfl, rfl⟩ | ⟨n, hn, rfl, rfl⟩
    · refine ⟨m1, m3.trans (by norm_num), ?_⟩
      rw [mul_one, sub_self, abs_zero]
      positivity
    · have hb : |val (NumOps.mul x (NumOps.ofNat (ys.length + 1))) * val n| ≤ 2 ^ 101 := by
        rw [abs_mul]
        calc _ ≤ (2 : ℝ) ^ 61 * 2 ^ 40 := mul_le_mul m3 hcb (abs_nonneg _) (by positivity)
          _ = 2 ^ 101 := by norm_num
      obtain ⟨n1, n2⟩ := mul_b32 hB m1 hn (hb.trans (by norm_num))
      refine ⟨n1, ?_, n2⟩
      have := abs_add_le (val (NumOps.mul (NumOps.mul x (NumOps.ofNat (ys.length + 1))) n) -
        val (NumOps.mul x (NumOps.ofNat (ys.length + 1))) * val n)
        (val (NumOps.mul x (NumOps.ofNat (ys.length + 1))) * val n)
      rw [sub_add_cancel] at this
      have h2 : uu * |val (NumOps.mul x (NumOps.ofNat (ys.length + 1))) * val n| ≤ 1 / 1000 * 2 ^ 101 :=
        mul_le_mul hu8 hb (abs_nonneg _) (by norm_num)
      have : (2 : ℝ) ^ 103 = 4 * 2 ^ 101 := by norm_num
      have : (1 : ℝ) ≤ 2 ^ 101 := one_le_pow₀ (by norm_num)
      linarith
  obtain ⟨k1, k2, k3⟩ := key
  -- the difference
  have hd : |val a - val (numSum ys)| ≤ 2 ^ 104 := by
    have := abs_sub (val a) (val (numSum ys))
    have : (2 : ℝ) ^ 104 = 2 * 2 ^ 103 := by norm_num
    have : (2 : ℝ) * 2 ^ 60 ≤ 2 ^ 103 := by norm_num
    linarith
  obtain ⟨r1, r2⟩ := sub_b32 hB k1 s1 (hd.trans (by norm_num))
  have r3 : |val (NumOps.sub a (numSum ys))| ≤ 2 ^ 105 := by
    have h7 : |val (NumOps.sub a (numSum ys)) - (val a - val (numSum ys))| ≤ uu * |val a - val (numSum ys)| := r2
    have := abs_add_le (val (NumOps.sub a (numSum ys)) - (val a - val (numSum ys))) (val a - val (numSum ys))
    rw [sub_add_cancel] at this
    have h2 : uu * |val a - val (numSum ys)| ≤ 1 / 1000 * 2 ^ 104 := mul_le_mul hu8 hd (abs_nonneg _) (by norm_num)
    have : (2 : ℝ) ^ 105 = 2 * 2 ^ 104 := by norm_num
    have : (0 : ℝ) < 2 ^ 104 := by positivity
    linarith
  -- the sum
  have hmap : absSum ((NumOps.sub a (numSum ys) :: ys).map val) =
      |val (NumOps.sub a (numSum ys))| + absSum (ys.map val) := by simp [absSum]
  have hf' : ∀ y ∈ NumOps.sub a (numSum ys) :: ys, Finite y := by
    intro y hy
    rcases List.mem_cons.mp hy with rfl | hy
    · exact r1
    · exact hf y hy
  have hA' : absSum ((NumOps.sub a (numSum ys) :: ys).map val) ≤ 2 ^ 106 := by
    rw [hmap]
    have : (2 : ℝ) ^ 106 = 2 * 2 ^ 105 := by norm_num
    have : (2 : ℝ) ^ 60 ≤ 2 ^ 105 := by norm_num
    linarith
  have hl' : (NumOps.sub a (numSum ys) :: ys).length ≤ 2 ^ 20 := by rw [List.length_cons]; omega
  obtain ⟨q1, q2⟩ := sum_b32 hB _ hf' (pow_le_two hl') (hA'.trans (by norm_num))
  have q3 := rsum_abs_le q2 (by rw [List.length_map]; exact pow_le_two hl')
  have q4 := q2.error hu.le
  rw [List.length_map, List.length_cons, Nat.add_sub_cancel, hmap, List.map_cons, List.sum_cons] at q4
  obtain ⟨d1, d2⟩ := div_b32 hB q1 c1 (by rw [c2]; exact hkp.ne') (by
    rw [c2, abs_div, abs_of_pos hkp]
    refine (div_le_self (abs_nonneg _) hk0).trans ?_
    have : (2 : ℝ) * 2 ^ 106 ≤ 2 ^ 127 := by norm_num
    linarith)
  rw [c2] at d2
  refine ⟨r1, d1, ?_⟩
  have := undo_mean_error (k := ys.length + 1) (by omega) (by omega) s5 m2 k3 s4 r2 q4 d2
  rw [hab] at this
  refine this.trans (le_of_eq ?_)
  push_cast
  ring

end F32

end FF
