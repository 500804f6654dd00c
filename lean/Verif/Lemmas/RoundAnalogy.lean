import Verif.Lemmas.Round
import Verif.Spec.RoundAnalogy
/-! Errors of sums of normalised vectors. -/

namespace FF

theorem exactLen_nonneg' (v : List ℝ) : 0 ≤ exactLen v := Real.sqrt_nonneg _

theorem exactDot_add_right (r x y : List ℝ) (h : x.length = y.length) :
    exactDot r (List.zipWith (· + ·) x y) = exactDot r x + exactDot r y := by
  induction r generalizing x y with
  | nil => simp [exactDot]
  | cons a r ih =>
    match x, y, h with
    | [], [], _ => simp [exactDot]
    | b :: x, c :: y, h =>
      simp only [List.zipWith_cons_cons, exactDot]
      rw [ih x y (by simpa using h)]
      ring

theorem exactDot_sq_add (x y : List ℝ) (h : x.length = y.length) :
    exactDot (List.zipWith (· + ·) x y) (List.zipWith (· + ·) x y) =
      exactDot x x + 2 * exactDot x y + exactDot y y := by
  induction x generalizing y with
  | nil =>
    match y, h with
    | [], _ => simp [exactDot]
  | cons a x ih =>
    match y, h with
    | b :: y, h =>
      simp only [List.zipWith_cons_cons, exactDot]
      rw [ih y (by simpa using h)]
      ring

/-- A small change of a vector changes its length and its cosines by little. -/
theorem len_perturb (x y : List ℝ) (h : x.length = y.length) :
    |exactLen (List.zipWith (· + ·) x y) - exactLen x| ≤ exactLen y := by
  have h1 := exactDot_sq_add x y h
  have h2 := exactDot_abs_le x y
  rw [← exactLen_sq, ← exactLen_sq, ← exactLen_sq] at h1
  have a := exactLen_nonneg' x
  have b := exactLen_nonneg' y
  have c := exactLen_nonneg' (List.zipWith (· + ·) x y)
  generalize exactLen (List.zipWith (· + ·) x y) = D at *
  generalize exactLen x = X at *
  generalize exactLen y = Y at *
  obtain ⟨h3, h4⟩ := abs_le.mp h2
  rw [abs_le]
  constructor
  · nlinarith
  · nlinarith

theorem cos_perturb (r x y : List ℝ) (h : x.length = y.length) (hr : 0 < exactLen r)
    (hx : exactLen y < exactLen x) :
    0 < exactLen (List.zipWith (· + ·) x y) ∧
    |exactCos r (List.zipWith (· + ·) x y) - exactCos r x| ≤ 2 * exactLen y / exactLen x := by
  have h1 := len_perturb x y h
  have h2 := exactDot_abs_le r y
  have h3 := exactDot_abs_le r (List.zipWith (· + ·) x y)
  have hd := exactDot_add_right r x y h
  unfold exactCos
  generalize exactDot r (List.zipWith (· + ·) x y) = p at *
  have b := exactLen_nonneg' y
  generalize exactLen (List.zipWith (· + ·) x y) = D at *
  generalize exactLen r = R at *
  generalize exactLen x = X at *
  generalize exactLen y = Y at *
  have hX : 0 < X := by linarith
  have hD : 0 < D := by
    have := (abs_le.mp h1).1
    linarith
  refine ⟨hD, ?_⟩
  have e : p / (R * D) - exactDot r x / (R * X) = (exactDot r y / R + p / (R * D) * (X - D)) / X := by
    have : exactDot r x = p - exactDot r y := by linarith
    rw [this]
    field_simp
    ring
  rw [e, abs_div, abs_of_pos hX]
  refine div_le_div_of_nonneg_right ?_ hX.le
  have f1 : |exactDot r y / R| ≤ Y := by
    rw [abs_div, abs_of_pos hr, div_le_iff₀ hr]
    linarith
  have f2 : |p / (R * D)| ≤ 1 := by
    rw [abs_div, abs_of_pos (mul_pos hr hD), div_le_one (mul_pos hr hD)]
    exact h3
  calc |exactDot r y / R + p / (R * D) * (X - D)| ≤ |exactDot r y / R| + |p / (R * D) * (X - D)| := abs_add_le _ _
    _ ≤ Y + 1 * Y := by
        refine add_le_add f1 ?_
        rw [abs_mul]
        refine mul_le_mul f2 ?_ (abs_nonneg _) zero_le_one
        rw [abs_sub_comm]
        exact h1
    _ = 2 * Y := by ring

/-- Componentwise errors in terms of three vectors. -/
theorem len_three {k : ℝ} (hk : 0 ≤ k) (x a b c : List ℝ) (ha : a.length = x.length) (hb : b.length = x.length)
    (hc : c.length = x.length)
    (h : ∀ (t : Nat) y p q r, x[t]? = some y → a[t]? = some p → b[t]? = some q → c[t]? = some r →
      |y| ≤ k * (|p| + |q| + |r|)) :
    exactLen x ≤ k * (exactLen a + exactLen b + exactLen c) := by
  have key : exactDot x x ≤ k ^ 2 * (exactDot a a + exactDot b b + exactDot c c +
      2 * absDot a b + 2 * absDot a c + 2 * absDot b c) := by
    induction x generalizing a b c with
    | nil =>
      rw [List.length_nil, List.length_eq_zero_iff] at ha hb hc
      subst ha hb hc
      simp [exactDot, absDot, absSum]
    | cons y x ih =>
      match a, b, c, ha, hb, hc with
      | p :: a, q :: b, r :: c, ha, hb, hc =>
        have h1 := ih a b c (by simpa using ha) (by simpa using hb) (by simpa using hc)
          fun t y p q r e1 e2 e3 e4 => h (t + 1) y p q r e1 e2 e3 e4
        have h0 := h 0 y p q r rfl rfl rfl rfl
        have hy : y * y ≤ k ^ 2 * (|p| + |q| + |r|) ^ 2 := by
          rw [← abs_mul_abs_self y, ← mul_pow]
          nlinarith [abs_nonneg y]
        simp only [exactDot, absDot_cons]
        rw [← abs_mul_abs_self p, ← abs_mul_abs_self q, ← abs_mul_abs_self r]
        nlinarith
  have f1 := absDot_le a b
  have f2 := absDot_le a c
  have f3 := absDot_le b c
  rw [← exactLen_sq, ← exactLen_sq, ← exactLen_sq, ← exactLen_sq] at key
  have a0 := exactLen_nonneg' a
  have b0 := exactLen_nonneg' b
  have c0 := exactLen_nonneg' c
  refine abs_le_of_sq_le_sq' ?_ (by positivity) |>.2
  refine key.trans ?_
  rw [mul_pow]
  refine mul_le_mul_of_nonneg_left ?_ (by positivity)
  nlinarith

theorem exactLen_ones (n : Nat) : exactLen (List.replicate n 1) = Real.sqrt n := by
  unfold exactLen
  congr 1
  induction n with
  | zero => simp [exactDot]
  | succ n ih =>
    rw [List.replicate_succ, exactDot, ih]
    push_cast
    ring

/-- Componentwise errors with a constant part. -/
theorem len_const {h : ℝ} (h0 : 0 ≤ h) (x m : List ℝ) (hl : m.length = x.length)
    (hx : ∀ (t : Nat) y p, x[t]? = some y → m[t]? = some p → |y| ≤ |p| + h) :
    exactLen x ≤ exactLen m + h * Real.sqrt x.length := by
  have key : exactDot x x ≤ exactDot m m + 2 * h * absDot m (List.replicate x.length 1) + x.length * h ^ 2 := by
    induction x generalizing m with
    | nil =>
      rw [List.length_nil, List.length_eq_zero_iff] at hl
      subst hl
      simp [exactDot, absDot, absSum]
    | cons y x ih =>
      match m, hl with
      | p :: m, hl =>
        have h1 := ih m (by simpa using hl) fun t y p e1 e2 => hx (t + 1) y p e1 e2
        have h2 := hx 0 y p rfl rfl
        have hy : y * y ≤ (|p| + h) ^ 2 := by
          rw [← abs_mul_abs_self y]
          nlinarith [abs_nonneg y]
        rw [List.length_cons, List.replicate_succ]
        simp only [exactDot, absDot_cons]
        rw [← abs_mul_abs_self p, abs_one]
        push_cast
        nlinarith
  have f1 := absDot_le m (List.replicate x.length 1)
  rw [exactLen_ones] at f1
  rw [← exactLen_sq, ← exactLen_sq] at key
  have a0 := exactLen_nonneg' m
  have s0 := Real.sqrt_nonneg (x.length : ℝ)
  have s1 : Real.sqrt x.length ^ 2 = x.length := Real.sq_sqrt (by positivity)
  refine abs_le_of_sq_le_sq' ?_ (by positivity) |>.2
  rw [← s1] at key
  nlinarith

theorem len_three_const {k h : ℝ} (hk : 0 ≤ k) (h0 : 0 ≤ h) (x a b c : List ℝ) (ha : a.length = x.length)
    (hb : b.length = x.length) (hc : c.length = x.length)
    (hx : ∀ (t : Nat) y p q r, x[t]? = some y → a[t]? = some p → b[t]? = some q → c[t]? = some r →
      |y| ≤ k * (|p| + |q| + |r|) + h) :
    exactLen x ≤ k * (exactLen a + exactLen b + exactLen c) + h * Real.sqrt x.length := by
  set m := (List.range x.length).map fun t => k * (|a.getD t 0| + |b.getD t 0| + |c.getD t 0|) with hm
  have hml : m.length = x.length := by rw [hm]; simp
  have hget : ∀ (t : Nat) y p q r, m[t]? = some y → a[t]? = some p → b[t]? = some q → c[t]? = some r →
      y = k * (|p| + |q| + |r|) := by
    intro t y p q r e1 e2 e3 e4
    have ht : t < x.length := by
      have := (List.getElem?_eq_some_iff.mp e1).1
      omega
    rw [hm, List.getElem?_map, List.getElem?_range ht] at e1
    have := Option.some.inj e1
    rw [← this]
    simp [List.getD, e2, e3, e4]
  have h1 := len_three hk m a b c (by rw [ha, hml]) (by rw [hb, hml]) (by rw [hc, hml]) (by
    intro t y p q r e1 e2 e3 e4
    rw [hget t y p q r e1 e2 e3 e4, abs_of_nonneg (by positivity)])
  have h2 := len_const h0 x m hml (by
    intro t y y' e1 e2
    have ht := (List.getElem?_eq_some_iff.mp e1).1
    have ea := List.getElem?_eq_getElem (l := a) (i := t) (by omega)
    have eb := List.getElem?_eq_getElem (l := b) (i := t) (by omega)
    have ec := List.getElem?_eq_getElem (l := c) (i := t) (by omega)
    have e3 : |y'| = k * (|a[t]| + |b[t]| + |c[t]|) := by
      rw [hget t y' _ _ _ e2 ea eb ec, abs_of_nonneg (by positivity)]
    rw [e3]
    exact hx t y _ _ _ e1 ea eb ec)
  linarith

theorem exactDot_scale (v : List ℝ) (n : ℝ) : exactDot (v.map (· / n)) (v.map (· / n)) = exactDot v v / n ^ 2 := by
  induction v with
  | nil => simp [exactDot]
  | cons x v ih =>
    simp only [List.map_cons, exactDot]
    rw [ih]
    ring

theorem exactLen_unit {v : List ℝ} (h : ∃ x ∈ v, x ≠ 0) : exactLen (exactUnit v) = 1 := by
  have hp := exactDot_self_pos h
  have h0 : 0 < exactLen v := Real.sqrt_pos.mpr hp
  unfold exactUnit
  rw [exactLen, exactDot_scale, exactLen_sq, div_self hp.ne', Real.sqrt_one]

/-- A component of a normalised vector. -/
theorem unit_component {u P L n x y : ℝ} (hu : 0 ≤ u) (hu1 : u < 1) (hP1 : 1 ≤ P) (h2 : P < 2) (hL : 0 < L)
    (n1 : n ≤ (1 + u) * Real.sqrt P * L) (n2 : (1 - u) * Real.sqrt (2 - P) * L ≤ n)
    (hy : Near u (x / n) y) :
    |y - x / L| ≤ max (1 - (1 - u) / ((1 + u) * Real.sqrt P)) ((1 + u) / ((1 - u) * Real.sqrt (2 - P)) - 1) * |x / L| := by
  have s1 : 0 < Real.sqrt P := Real.sqrt_pos.mpr (by linarith)
  have s2 : 0 < Real.sqrt (2 - P) := Real.sqrt_pos.mpr (by linarith)
  have g1 : 0 < 1 - u := by linarith
  have g2 : 0 < 1 + u := by linarith
  have hn : 0 < n := lt_of_lt_of_le (by positivity) n2
  -- y = (x / L) * f with lo ≤ f ≤ hi
  have hq : x / n = x / L * (L / n) := by field_simp
  have lo : 1 / ((1 + u) * Real.sqrt P) ≤ L / n := by
    rw [div_le_div_iff₀ (by positivity) hn]
    linarith
  have hi : L / n ≤ 1 / ((1 - u) * Real.sqrt (2 - P)) := by
    rw [div_le_div_iff₀ hn (by positivity)]
    linarith
  unfold Near at hy
  rw [hq] at hy
  set z := x / L
  set f := L / n
  have f0 : 0 < f := div_pos hL hn
  have hy' : |y - z * f| ≤ u * (|z| * f) := by rwa [abs_mul, abs_of_pos f0] at hy
  have e1 : (1 - u) / ((1 + u) * Real.sqrt P) = (1 - u) * (1 / ((1 + u) * Real.sqrt P)) := by ring
  have e2 : (1 + u) / ((1 - u) * Real.sqrt (2 - P)) = (1 + u) * (1 / ((1 - u) * Real.sqrt (2 - P))) := by ring
  rw [e1, e2]
  generalize 1 / ((1 + u) * Real.sqrt P) = A at *
  generalize 1 / ((1 - u) * Real.sqrt (2 - P)) = B at *
  set M := max (1 - (1 - u) * A) ((1 + u) * B - 1) with hM
  have m1 : 1 - (1 - u) * f ≤ M := le_trans (by nlinarith) (le_max_left _ _)
  have m2 : (1 + u) * f - 1 ≤ M := le_trans (by nlinarith) (le_max_right _ _)
  have hz := abs_nonneg z
  have : |y - z| ≤ u * (|z| * f) + |z| * |f - 1| := by
    have := abs_add_le (y - z * f) (z * (f - 1))
    rw [abs_mul] at this
    have e : y - z * f + z * (f - 1) = y - z := by ring
    rw [e] at this
    linarith
  refine this.trans ?_
  rw [show u * (|z| * f) + |z| * |f - 1| = (u * f + |f - 1|) * |z| by ring]
  refine mul_le_mul_of_nonneg_right ?_ hz
  rcases abs_cases (f - 1) with ⟨e, _⟩ | ⟨e, _⟩ <;> rw [e] <;> linarith

end FF
