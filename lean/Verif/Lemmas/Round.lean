import Verif.Spec.Round
import Mathlib.Tactic.Linarith
import Mathlib.Tactic.Positivity
import Mathlib.Tactic.FieldSimp
import Mathlib.Tactic.Ring
/-! Error analysis of sums, dot products and norms. -/

namespace FF

theorem Near.self_of_zero {u r : ℝ} (h : Near u 0 r) : r = 0 := by
  unfold Near at h
  simp only [sub_zero, abs_zero, mul_zero] at h
  exact abs_eq_zero.mp (le_antisymm h (abs_nonneg _))

theorem Near.abs_le {u x r : ℝ} (h : Near u x r) : |r| ≤ (1 + u) * |x| := by
  unfold Near at h
  have : |r| ≤ |r - x| + |x| := by
    have := abs_add_le (r - x) x
    simpa using this
  linarith

theorem Near.le_abs {u x r : ℝ} (h : Near u x r) : (1 - u) * |x| ≤ |r| := by
  unfold Near at h
  have : |x| ≤ |x - r| + |r| := by
    have := abs_add_le (x - r) r
    simpa using this
  rw [abs_sub_comm] at this
  linarith

/-- The sum of absolute values. -/
noncomputable def absSum (xs : List ℝ) : ℝ := (xs.map fun x => |x|).sum

theorem absSum_append (xs ys : List ℝ) : absSum (xs ++ ys) = absSum xs + absSum ys := by
  simp [absSum]

theorem absSum_nonneg (xs : List ℝ) : 0 ≤ absSum xs := by
  refine List.sum_nonneg ?_
  intro x hx
  obtain ⟨y, _, rfl⟩ := List.mem_map.mp hx
  exact abs_nonneg _

theorem absSum_perm {xs ys : List ℝ} (h : xs.Perm ys) : absSum xs = absSum ys :=
  (h.map _).sum_eq

theorem abs_sum_le (xs : List ℝ) : |xs.sum| ≤ absSum xs := by
  induction xs with
  | nil => simp [absSum]
  | cons x xs ih =>
    rw [List.sum_cons]
    refine (abs_add_le _ _).trans ?_
    have : absSum (x :: xs) = |x| + absSum xs := by simp [absSum]
    linarith

/-- Every number takes part in at most `n - 1` additions. -/
theorem RSum.error {u : ℝ} (hu : 0 ≤ u) {xs : List ℝ} {r : ℝ} (h : RSum u xs r) :
    |r - xs.sum| ≤ ((1 + u) ^ (xs.length - 1) - 1) * absSum xs := by
  induction h with
  | nil => simp [absSum]
  | one x => simp [absSum]
  | @add xs ys a b r hx hy _ _ hn ihx ihy =>
    have hxl := List.length_pos_iff.mpr hx
    have hyl := List.length_pos_iff.mpr hy
    have h1 : (1 : ℝ) ≤ 1 + u := by linarith
    have hsx := absSum_nonneg xs
    have hsy := absSum_nonneg ys
    have hpx : (1 + u) ^ (xs.length - 1) ≤ (1 + u) ^ (xs.length + ys.length - 2) :=
      pow_le_pow_right₀ h1 (by omega)
    have hpy : (1 + u) ^ (ys.length - 1) ≤ (1 + u) ^ (xs.length + ys.length - 2) :=
      pow_le_pow_right₀ h1 (by omega)
    set P := (1 + u) ^ (xs.length + ys.length - 2) with hP
    have hP1 : 1 ≤ P := one_le_pow₀ h1
    have hPs : (1 + u) ^ ((xs ++ ys).length - 1) = (1 + u) * P := by
      rw [hP, ← pow_succ', List.length_append]
      congr 1
      omega
    have ex : |a - xs.sum| ≤ (P - 1) * absSum xs :=
      ihx.trans (mul_le_mul_of_nonneg_right (by linarith) hsx)
    have ey : |b - ys.sum| ≤ (P - 1) * absSum ys :=
      ihy.trans (mul_le_mul_of_nonneg_right (by linarith) hsy)
    have eab : |a + b - (xs.sum + ys.sum)| ≤ (P - 1) * (absSum xs + absSum ys) := by
      have := abs_add_le (a - xs.sum) (b - ys.sum)
      rw [show a - xs.sum + (b - ys.sum) = a + b - (xs.sum + ys.sum) by ring] at this
      linarith
    have hab : |a + b| ≤ P * (absSum xs + absSum ys) := by
      have h3 := abs_add_le (a + b - (xs.sum + ys.sum)) (xs.sum + ys.sum)
      rw [sub_add_cancel] at h3
      have h4 := abs_add_le xs.sum ys.sum
      have := abs_sum_le xs
      have := abs_sum_le ys
      linarith
    have hr : |r - (a + b)| ≤ u * (P * (absSum xs + absSum ys)) :=
      hn.trans (mul_le_mul_of_nonneg_left hab hu)
    rw [hPs, List.sum_append, absSum_append]
    have h5 := abs_add_le (r - (a + b)) (a + b - (xs.sum + ys.sum))
    rw [sub_add_sub_cancel] at h5
    refine h5.trans ((add_le_add hr eab).trans (le_of_eq ?_))
    ring
  | @perm xs ys r hp _ ih =>
    rw [← hp.sum_eq, ← hp.length_eq, ← absSum_perm hp]
    exact ih

/-- Products summed up. -/
theorem exactDot_eq (xs ys : List ℝ) : exactDot xs ys = (List.zipWith (· * ·) xs ys).sum := by
  induction xs generalizing ys with
  | nil => cases ys <;> rfl
  | cons x xs ih =>
    cases ys with
    | nil => rfl
    | cons y ys => rw [exactDot, ih, List.zipWith_cons_cons, List.sum_cons]

/-- The dot product of the absolute values. -/
noncomputable def absDot (xs ys : List ℝ) : ℝ := absSum (List.zipWith (· * ·) xs ys)

theorem absDot_nonneg (xs ys : List ℝ) : 0 ≤ absDot xs ys := absSum_nonneg _

theorem products_error {u : ℝ} {ps qs : List ℝ} (hl : ps.length = qs.length)
    (h : ∀ (t : Nat) p q, ps[t]? = some p → qs[t]? = some q → Near u q p) :
    |ps.sum - qs.sum| ≤ u * absSum qs ∧ absSum ps ≤ (1 + u) * absSum qs := by
  induction ps generalizing qs with
  | nil =>
    cases qs with
    | nil => simp [absSum]
    | cons q qs => simp at hl
  | cons p ps ih =>
    cases qs with
    | nil => simp at hl
    | cons q qs =>
      obtain ⟨h1, h2⟩ := ih (by simpa using hl) fun t p q hp hq => h (t + 1) p q (by simpa) (by simpa)
      have h0 := h 0 p q rfl rfl
      have h3 := h0.abs_le
      have e1 : absSum (p :: ps) = |p| + absSum ps := by simp [absSum]
      have e2 : absSum (q :: qs) = |q| + absSum qs := by simp [absSum]
      rw [e1, e2, List.sum_cons, List.sum_cons]
      unfold Near at h0
      constructor
      · have := abs_add_le (p - q) (ps.sum - qs.sum)
        rw [show p - q + (ps.sum - qs.sum) = p + ps.sum - (q + qs.sum) by ring] at this
        linarith
      · linarith

/-- A dot product of `n` components is off by at most `(1 + u)ⁿ - 1` relative to the sum of the
absolute values of the products. -/
theorem RDot.error {u : ℝ} (hu : 0 ≤ u) {xs ys : List ℝ} {r : ℝ} (h : RDot u xs ys r) :
    |r - exactDot xs ys| ≤ ((1 + u) ^ min xs.length ys.length - 1) * absDot xs ys := by
  obtain ⟨ps, hl, hs, hp⟩ := h
  have hle : ps.length = (List.zipWith (· * ·) xs ys).length := by rw [hl, List.length_zipWith]
  obtain ⟨h1, h2⟩ := products_error hle (u := u) (by
    intro t p q hpt hqt
    rw [List.getElem?_zipWith] at hqt
    cases hx : xs[t]? with
    | none => simp [hx] at hqt
    | some x =>
      cases hy : ys[t]? with
      | none => simp [hx, hy] at hqt
      | some y =>
        simp only [hx, hy, Option.some.injEq] at hqt
        subst hqt
        exact hp t p x y hpt hx hy)
  have h3 := hs.error hu
  rw [exactDot_eq]
  unfold absDot
  set q := List.zipWith (· * ·) xs ys
  rw [← hl]
  rcases Nat.eq_zero_or_pos ps.length with h0 | h0
  · have e1 : ps = [] := List.eq_nil_of_length_eq_zero h0
    have e2 : q = [] := List.eq_nil_of_length_eq_zero (by rw [← hle]; exact h0)
    rw [e1] at h3
    rw [e1, e2]
    simpa [absSum] using h3
  have hP : (1 + u) ^ ps.length = (1 + u) * (1 + u) ^ (ps.length - 1) := by
    rw [← pow_succ']
    congr 1
    omega
  have hP1 : 1 ≤ (1 + u) ^ (ps.length - 1) := one_le_pow₀ (by linarith)
  set P := (1 + u) ^ (ps.length - 1)
  rw [hP]
  have h4 : (P - 1) * absSum ps ≤ (P - 1) * ((1 + u) * absSum q) :=
    mul_le_mul_of_nonneg_left h2 (by linarith)
  have h5 := abs_add_le (r - ps.sum) (ps.sum - q.sum)
  rw [sub_add_sub_cancel] at h5
  refine h5.trans ((add_le_add (h3.trans h4) h1).trans (le_of_eq ?_))
  ring

theorem absDot_self (v : List ℝ) : absDot v v = exactDot v v := by
  rw [exactDot_eq, absDot]
  unfold absSum
  congr 1
  induction v with
  | nil => rfl
  | cons x v ih =>
    rw [List.zipWith_cons_cons, List.map_cons, ih, abs_mul_self]

theorem exactDot_self_nonneg (v : List ℝ) : 0 ≤ exactDot v v := by
  rw [← absDot_self]; exact absDot_nonneg _ _

theorem exactLen_sq (v : List ℝ) : exactLen v ^ 2 = exactDot v v :=
  Real.sq_sqrt (exactDot_self_nonneg v)

theorem exactDot_self_pos {v : List ℝ} (h : ∃ x ∈ v, x ≠ 0) : 0 < exactDot v v := by
  obtain ⟨x, hx, h0⟩ := h
  induction v with
  | nil => cases hx
  | cons y v ih =>
    rw [exactDot]
    have h2 := exactDot_self_nonneg v
    rcases List.mem_cons.mp hx with rfl | hx
    · have := mul_self_pos.mpr h0
      linarith
    · have := ih hx
      have := mul_self_nonneg y
      linarith

theorem absDot_cons (x y : ℝ) (xs ys : List ℝ) : absDot (x :: xs) (y :: ys) = |x| * |y| + absDot xs ys := by
  unfold absDot absSum
  rw [List.zipWith_cons_cons, List.map_cons, List.sum_cons, abs_mul]

/-- Cauchy-Schwarz, with absolute values. -/
theorem absDot_le (xs ys : List ℝ) : absDot xs ys ≤ exactLen xs * exactLen ys := by
  have h0 : 0 ≤ exactLen xs * exactLen ys := mul_nonneg (Real.sqrt_nonneg _) (Real.sqrt_nonneg _)
  refine abs_le_of_sq_le_sq' ?_ h0 |>.2
  rw [mul_pow, exactLen_sq, exactLen_sq]
  induction xs generalizing ys with
  | nil => simp [absDot, absSum, exactDot]
  | cons x xs ih =>
    cases ys with
    | nil => simp [absDot, absSum, exactDot]
    | cons y ys =>
      rw [absDot_cons, exactDot, exactDot]
      have h := ih ys (mul_nonneg (Real.sqrt_nonneg _) (Real.sqrt_nonneg _))
      have hx := exactDot_self_nonneg xs
      have hy := exactDot_self_nonneg ys
      have hd := absDot_nonneg xs ys
      set A := exactDot xs xs
      set B := exactDot ys ys
      set D := absDot xs ys
      have hxx : x * x = |x| * |x| := (abs_mul_abs_self x).symm
      have hyy : y * y = |y| * |y| := (abs_mul_abs_self y).symm
      rw [hxx, hyy]
      have hax := abs_nonneg x
      have hay := abs_nonneg y
      set a := |x|
      set b := |y|
      -- 2abD ≤ a²B + b²A
      have key : 2 * (a * b * D) ≤ a ^ 2 * B + b ^ 2 * A := by
        have h1 : D ≤ Real.sqrt A * Real.sqrt B := by
          rw [← Real.sqrt_mul hx]
          exact Real.le_sqrt_of_sq_le h
        have h2 := sq_nonneg (a * Real.sqrt B - b * Real.sqrt A)
        have h3 : (a * Real.sqrt B - b * Real.sqrt A) ^ 2 =
            a ^ 2 * B + b ^ 2 * A - 2 * (a * b * (Real.sqrt A * Real.sqrt B)) := by
          have e1 := Real.sq_sqrt hx
          have e2 := Real.sq_sqrt hy
          calc _ = a ^ 2 * Real.sqrt B ^ 2 + b ^ 2 * Real.sqrt A ^ 2 -
                2 * (a * b * (Real.sqrt A * Real.sqrt B)) := by ring
            _ = _ := by rw [e1, e2]
        have h4 : a * b * D ≤ a * b * (Real.sqrt A * Real.sqrt B) :=
          mul_le_mul_of_nonneg_left h1 (mul_nonneg hax hay)
        linarith
      nlinarith [h, key]

theorem exactDot_abs_le (xs ys : List ℝ) : |exactDot xs ys| ≤ exactLen xs * exactLen ys := by
  refine le_trans ?_ (absDot_le xs ys)
  rw [exactDot_eq]
  exact abs_sum_le _

/-- A computed dot product is off by at most `(1 + u)ⁿ - 1` relative to the product of the lengths. -/
theorem RDot.error_len {u : ℝ} (hu : 0 ≤ u) {xs ys : List ℝ} {r : ℝ} (h : RDot u xs ys r) :
    |r - exactDot xs ys| ≤ ((1 + u) ^ min xs.length ys.length - 1) * (exactLen xs * exactLen ys) := by
  refine (h.error hu).trans (mul_le_mul_of_nonneg_left (absDot_le xs ys) ?_)
  have : 1 ≤ (1 + u) ^ min xs.length ys.length := one_le_pow₀ (by linarith)
  linarith

/-- The rounded square root of a number near the squared length. -/
theorem norm_bounds_of {u P : ℝ} (hu : 0 ≤ u) (hu1 : u < 1) {v : List ℝ} {d n : ℝ} (hP : 0 ≤ P)
    (h1 : |d - exactDot v v| ≤ (P - 1) * exactDot v v) (hn : Near u (Real.sqrt d) n) :
    n ≤ (1 + u) * Real.sqrt P * exactLen v ∧ (1 - u) * Real.sqrt (2 - P) * exactLen v ≤ n := by
  have hS := exactDot_self_nonneg v
  obtain ⟨h2, h3⟩ := abs_le.mp h1
  have hup : Real.sqrt d ≤ Real.sqrt P * exactLen v := by
    unfold exactLen
    rw [← Real.sqrt_mul (by positivity)]
    exact Real.sqrt_le_sqrt (by linarith)
  have hlo : Real.sqrt (2 - P) * exactLen v ≤ Real.sqrt d := by
    unfold exactLen
    rw [← Real.sqrt_mul' _ hS]
    exact Real.sqrt_le_sqrt (by linarith)
  have hs := Real.sqrt_nonneg d
  unfold Near at hn
  rw [abs_of_nonneg hs] at hn
  obtain ⟨h4, h5⟩ := abs_le.mp hn
  constructor
  · calc n ≤ (1 + u) * Real.sqrt d := by linarith
      _ ≤ (1 + u) * (Real.sqrt P * exactLen v) :=
        mul_le_mul_of_nonneg_left hup (by linarith)
      _ = _ := by ring
  · calc _ = (1 - u) * (Real.sqrt (2 - P) * exactLen v) := by ring
      _ ≤ (1 - u) * Real.sqrt d := mul_le_mul_of_nonneg_left hlo (by linarith)
      _ ≤ n := by linarith

/-- The computed norm of a vector with `n` components. -/
theorem norm_bounds {u : ℝ} (hu : 0 ≤ u) (hu1 : u < 1) {v : List ℝ} {d n : ℝ} (hd : RDot u v v d)
    (hn : Near u (Real.sqrt d) n) :
    n ≤ (1 + u) * Real.sqrt ((1 + u) ^ v.length) * exactLen v ∧
      (1 - u) * Real.sqrt (2 - (1 + u) ^ v.length) * exactLen v ≤ n := by
  refine norm_bounds_of hu hu1 (by positivity) ?_ hn
  have h1 := hd.error hu
  rwa [min_self, absDot_self] at h1

/-- Length of a vector whose components are those of `v` over `n`, up to rounding. -/
theorem scaled_len {u n : ℝ} (hu : 0 ≤ u) (hu1 : u < 1) (hn : 0 < n) {v w : List ℝ}
    (hl : w.length = v.length)
    (h : ∀ (t : Nat) x y, v[t]? = some x → w[t]? = some y → Near u (x / n) y) :
    (1 - u) * exactLen v / n ≤ exactLen w ∧ exactLen w ≤ (1 + u) * exactLen v / n := by
  have key : (1 - u) ^ 2 * exactDot v v / n ^ 2 ≤ exactDot w w ∧
      exactDot w w ≤ (1 + u) ^ 2 * exactDot v v / n ^ 2 := by
    induction v generalizing w with
    | nil =>
      cases w with
      | nil => simp [exactDot]
      | cons y w => simp at hl
    | cons x v ih =>
      cases w with
      | nil => simp at hl
      | cons y w =>
        obtain ⟨h1, h2⟩ := ih (w := w) (by simpa using hl)
          fun t x y hx hy => h (t + 1) x y (by simpa) (by simpa)
        have h0 := h 0 x y rfl rfl
        have ha := h0.abs_le
        have hb := h0.le_abs
        rw [abs_div, abs_of_pos hn] at ha hb
        rw [exactDot, exactDot]
        have hyy : y * y = |y| ^ 2 := by rw [sq_abs, sq]
        have hxx : x * x = |x| ^ 2 := by rw [sq_abs, sq]
        have hx0 := abs_nonneg x
        have hA : |y| ^ 2 ≤ ((1 + u) * (|x| / n)) ^ 2 := pow_le_pow_left₀ (abs_nonneg y) ha 2
        have hB : ((1 - u) * (|x| / n)) ^ 2 ≤ |y| ^ 2 :=
          pow_le_pow_left₀ (mul_nonneg (by linarith) (by positivity)) hb 2
        rw [hyy, hxx]
        constructor
        · calc _ = ((1 - u) * (|x| / n)) ^ 2 + (1 - u) ^ 2 * exactDot v v / n ^ 2 := by
                field_simp
            _ ≤ _ := by linarith
        · calc _ ≤ ((1 + u) * (|x| / n)) ^ 2 + (1 + u) ^ 2 * exactDot v v / n ^ 2 := by linarith
            _ = _ := by field_simp
  constructor
  · unfold exactLen
    refine Real.le_sqrt_of_sq_le ?_
    rw [div_pow, mul_pow, Real.sq_sqrt (exactDot_self_nonneg v)]
    exact key.1
  · unfold exactLen
    refine Real.sqrt_le_iff.mpr ⟨?_, ?_⟩
    · have := Real.sqrt_nonneg (exactDot v v)
      exact div_nonneg (mul_nonneg (by linarith) this) hn.le
    · rw [div_pow, mul_pow, Real.sq_sqrt (exactDot_self_nonneg v)]
      exact key.2

/-- A vector divided by its computed norm has length one up to rounding, and the norm is positive. -/
theorem unit_len {u : ℝ} (hu : 0 ≤ u) (hu1 : u < 1) {v w : List ℝ} {d n : ℝ}
    (h0 : ∃ x ∈ v, x ≠ 0) (h2 : (1 + u) ^ v.length < 2) (hd : RDot u v v d)
    (hn : Near u (Real.sqrt d) n) (hl : w.length = v.length)
    (h : n ≠ 0 → ∀ (t : Nat) x y, v[t]? = some x → w[t]? = some y → Near u (x / n) y) :
    0 < n ∧ lenLo u v.length ≤ exactLen w ∧ exactLen w ≤ lenHi u v.length := by
  obtain ⟨ha, hb⟩ := norm_bounds hu hu1 hd hn
  have hL : 0 < exactLen v := Real.sqrt_pos.mpr (exactDot_self_pos h0)
  have hQ : 0 < Real.sqrt (2 - (1 + u) ^ v.length) := Real.sqrt_pos.mpr (by linarith)
  have hP : 0 < Real.sqrt ((1 + u) ^ v.length) := Real.sqrt_pos.mpr (by positivity)
  have hu' : 0 < 1 - u := by linarith
  have hpos : 0 < n := lt_of_lt_of_le (by positivity) hb
  obtain ⟨h3, h4⟩ := scaled_len hu hu1 hpos hl (h hpos.ne')
  refine ⟨hpos, le_trans ?_ h3, h4.trans ?_⟩
  · unfold lenLo
    rw [div_le_div_iff₀ (by positivity) hpos]
    calc (1 - u) * n ≤ (1 - u) * ((1 + u) * Real.sqrt ((1 + u) ^ v.length) * exactLen v) :=
          mul_le_mul_of_nonneg_left ha hu'.le
      _ = _ := by ring
  · unfold lenHi
    rw [div_le_div_iff₀ hpos (by positivity)]
    calc (1 + u) * exactLen v * ((1 - u) * Real.sqrt (2 - (1 + u) ^ v.length)) =
          (1 + u) * ((1 - u) * Real.sqrt (2 - (1 + u) ^ v.length) * exactLen v) := by ring
      _ ≤ _ := mul_le_mul_of_nonneg_left hb (by linarith)

/-- Dividing and multiplying again costs two roundings. -/
theorem restore_error {u n x y z : ℝ} (hu : 0 ≤ u) (hn : 0 < n) (hy : Near u (x / n) y)
    (hz : Near u (y * n) z) : |z - x| ≤ ((1 + u) ^ 2 - 1) * |x| := by
  unfold Near at hz
  have h1 := hy.abs_le
  unfold Near at hy
  rw [abs_div, abs_of_pos hn] at h1 hy
  rw [abs_mul, abs_of_pos hn] at hz
  have h2 : |y * n - x| ≤ u * |x| := by
    have : y * n - x = (y - x / n) * n := by field_simp
    rw [this, abs_mul, abs_of_pos hn]
    calc |y - x / n| * n ≤ u * (|x| / n) * n := mul_le_mul_of_nonneg_right hy hn.le
      _ = u * |x| := by field_simp
  have h3 : |y| * n ≤ (1 + u) * |x| := by
    calc |y| * n ≤ (1 + u) * (|x| / n) * n := mul_le_mul_of_nonneg_right h1 hn.le
      _ = _ := by field_simp
  have h4 := abs_add_le (z - y * n) (y * n - x)
  rw [sub_add_sub_cancel] at h4
  have h5 := mul_le_mul_of_nonneg_left h3 hu
  nlinarith

/-- Dot products of scaled and rounded vectors. -/
theorem scaled_dot {u n m : ℝ} (hu : 0 ≤ u) (hn : 0 < n) (hm : 0 < m) {v w r q : List ℝ}
    (hr : r.length = v.length) (hq : q.length = w.length)
    (h1 : ∀ (t : Nat) x y, v[t]? = some x → r[t]? = some y → Near u (x / n) y)
    (h2 : ∀ (t : Nat) x y, w[t]? = some x → q[t]? = some y → Near u (x / m) y) :
    absDot r q ≤ (1 + u) ^ 2 * absDot v w / (n * m) ∧
      |exactDot r q - exactDot v w / (n * m)| ≤ ((1 + u) ^ 2 - 1) * absDot v w / (n * m) := by
  induction v generalizing w r q with
  | nil =>
    have : r = [] := List.eq_nil_of_length_eq_zero hr
    subst this
    simp [absDot, absSum, exactDot]
  | cons x v ih =>
    cases r with
    | nil => simp at hr
    | cons x' r =>
      cases w with
      | nil =>
        have : q = [] := List.eq_nil_of_length_eq_zero hq
        subst this
        simp [absDot, absSum, exactDot]
      | cons y w =>
        cases q with
        | nil => simp at hq
        | cons y' q =>
          obtain ⟨i1, i2⟩ := ih (w := w) (r := r) (q := q) (by simpa using hr) (by simpa using hq)
            (fun t x y hx hy => h1 (t + 1) x y (by simpa) (by simpa))
            (fun t x y hx hy => h2 (t + 1) x y (by simpa) (by simpa))
          have a1 := h1 0 x x' rfl rfl
          have a2 := h2 0 y y' rfl rfl
          have b1 := a1.abs_le
          have b2 := a2.abs_le
          unfold Near at a1 a2
          rw [abs_div, abs_of_pos hn] at b1 a1
          rw [abs_div, abs_of_pos hm] at b2 a2
          rw [absDot_cons, absDot_cons, exactDot, exactDot]
          have hnm := mul_pos hn hm
          have c1 : |x'| * |y'| ≤ (1 + u) ^ 2 * (|x| * |y|) / (n * m) := by
            calc |x'| * |y'| ≤ ((1 + u) * (|x| / n)) * ((1 + u) * (|y| / m)) :=
                  mul_le_mul b1 b2 (abs_nonneg _) (by positivity)
              _ = _ := by field_simp
          have c2 : |x' * y' - x * y / (n * m)| ≤ ((1 + u) ^ 2 - 1) * (|x| * |y|) / (n * m) := by
            have e : x' * y' - x * y / (n * m) = (x' - x / n) * y' + x / n * (y' - y / m) := by
              field_simp
              ring
            rw [e]
            refine (abs_add_le _ _).trans ?_
            rw [abs_mul, abs_mul, abs_div, abs_of_pos hn]
            calc |x' - x / n| * |y'| + |x| / n * |y' - y / m| ≤
                  u * (|x| / n) * ((1 + u) * (|y| / m)) + |x| / n * (u * (|y| / m)) :=
                add_le_add (mul_le_mul a1 b2 (abs_nonneg _) (by positivity))
                  (mul_le_mul_of_nonneg_left a2 (by positivity))
              _ = _ := by
                field_simp
                ring
          constructor
          · calc _ ≤ (1 + u) ^ 2 * (|x| * |y|) / (n * m) + (1 + u) ^ 2 * absDot v w / (n * m) :=
                  add_le_add c1 i1
              _ = _ := by ring
          · have := abs_add_le (x' * y' - x * y / (n * m)) (exactDot r q - exactDot v w / (n * m))
            calc _ = |x' * y' - x * y / (n * m) + (exactDot r q - exactDot v w / (n * m))| := by
                  congr 1
                  ring
              _ ≤ _ := this.trans (add_le_add c2 i2)
              _ = _ := by ring

/-- The arithmetic of `cos_error`. -/
theorem cos_core {u P a b n m D A s z : ℝ} (hu : 0 ≤ u) (hu1 : u < 1) (hP1 : 1 ≤ P) (h2 : P < 2)
    (ha : 0 < a) (hb : 0 < b) (hn : 0 < n) (hm : 0 < m)
    (n1 : n ≤ (1 + u) * Real.sqrt P * a) (n2 : (1 - u) * Real.sqrt (2 - P) * a ≤ n)
    (m1 : m ≤ (1 + u) * Real.sqrt P * b) (m2 : (1 - u) * Real.sqrt (2 - P) * b ≤ m)
    (hA : A ≤ a * b) (hD : |D| ≤ a * b)
    (d2 : |z - D / (n * m)| ≤ ((1 + u) ^ 2 - 1) * A / (n * m))
    (hse : |s - z| ≤ (P - 1) * ((1 + u) ^ 2 * A / (n * m))) :
    |s - D / (a * b)| ≤ ((1 + u) ^ 2 * P - 1) / ((1 - u) ^ 2 * (2 - P)) +
      max (1 / ((1 - u) ^ 2 * (2 - P)) - 1) ((1 + u) ^ 2 * P - 1) := by
  have hsq1 : Real.sqrt P * Real.sqrt P = P := Real.mul_self_sqrt (by linarith)
  have hsq2 : Real.sqrt (2 - P) * Real.sqrt (2 - P) = 2 - P := Real.mul_self_sqrt (by linarith)
  have hu' : 0 < 1 - u := by linarith
  have h2P : 0 < 2 - P := by linarith
  have hs1 := Real.sqrt_nonneg P
  have hs2 := Real.sqrt_nonneg (2 - P)
  have hnm := mul_pos hn hm
  have hab := mul_pos ha hb
  have lo : (1 - u) ^ 2 * (2 - P) * (a * b) ≤ n * m := by
    calc _ = (1 - u) ^ 2 * (Real.sqrt (2 - P) * Real.sqrt (2 - P)) * (a * b) := by rw [hsq2]
      _ = ((1 - u) * Real.sqrt (2 - P) * a) * ((1 - u) * Real.sqrt (2 - P) * b) := by ring
      _ ≤ n * m := mul_le_mul n2 m2 (by positivity) hn.le
  have hi : n * m ≤ (1 + u) ^ 2 * P * (a * b) := by
    calc n * m ≤ ((1 + u) * Real.sqrt P * a) * ((1 + u) * Real.sqrt P * b) :=
          mul_le_mul n1 m1 hm.le (by positivity)
      _ = _ := by
        calc _ = (1 + u) ^ 2 * (Real.sqrt P * Real.sqrt P) * (a * b) := by ring
          _ = _ := by rw [hsq1]
  have hG : a * b / (n * m) ≤ 1 / ((1 - u) ^ 2 * (2 - P)) := by
    rw [div_le_div_iff₀ hnm (by positivity)]
    linarith
  have hg : 1 - ((1 + u) ^ 2 * P - 1) ≤ a * b / (n * m) := by
    have hQ1 : 1 ≤ (1 + u) ^ 2 * P := by
      have : 1 ≤ (1 + u) ^ 2 := one_le_pow₀ (by linarith)
      nlinarith
    rw [le_div_iff₀ hnm]
    rcases le_or_gt (1 - ((1 + u) ^ 2 * P - 1)) 0 with hneg | hpos
    · nlinarith
    · calc (1 - ((1 + u) ^ 2 * P - 1)) * (n * m) ≤
            (1 - ((1 + u) ^ 2 * P - 1)) * ((1 + u) ^ 2 * P * (a * b)) :=
          mul_le_mul_of_nonneg_left hi hpos.le
        _ ≤ a * b := by
          have : (1 - ((1 + u) ^ 2 * P - 1)) * ((1 + u) ^ 2 * P) ≤ 1 := by
            nlinarith [sq_nonneg ((1 + u) ^ 2 * P - 1)]
          nlinarith
  -- computed dot product against the scaled exact one
  have e1 : |s - D / (n * m)| ≤ ((1 + u) ^ 2 * P - 1) * (A / (n * m)) := by
    have t := abs_add_le (s - z) (z - D / (n * m))
    rw [sub_add_sub_cancel] at t
    calc _ ≤ (P - 1) * ((1 + u) ^ 2 * A / (n * m)) + ((1 + u) ^ 2 - 1) * A / (n * m) := by linarith
      _ = _ := by ring
  have e2 : ((1 + u) ^ 2 * P - 1) * (A / (n * m)) ≤
      ((1 + u) ^ 2 * P - 1) / ((1 - u) ^ 2 * (2 - P)) := by
    have h3 : A / (n * m) ≤ 1 / ((1 - u) ^ 2 * (2 - P)) :=
      (div_le_div_of_nonneg_right hA hnm.le).trans hG
    have : 1 ≤ (1 + u) ^ 2 := one_le_pow₀ (by linarith)
    have := mul_le_mul_of_nonneg_left h3 (show 0 ≤ (1 + u) ^ 2 * P - 1 by nlinarith)
    rwa [mul_one_div] at this
  have e3 : |D / (n * m) - D / (a * b)| ≤
      max (1 / ((1 - u) ^ 2 * (2 - P)) - 1) ((1 + u) ^ 2 * P - 1) := by
    have : D / (n * m) - D / (a * b) = D / (a * b) * (a * b / (n * m) - 1) := by
      field_simp
    rw [this, abs_mul]
    have hc : |D / (a * b)| ≤ 1 := by
      rw [abs_div, abs_of_pos hab]
      exact (div_le_one hab).mpr hD
    have hk : |a * b / (n * m) - 1| ≤
        max (1 / ((1 - u) ^ 2 * (2 - P)) - 1) ((1 + u) ^ 2 * P - 1) := by
      refine abs_le.mpr ⟨?_, ?_⟩
      · have := le_max_right (1 / ((1 - u) ^ 2 * (2 - P)) - 1) ((1 + u) ^ 2 * P - 1)
        linarith
      · have := le_max_left (1 / ((1 - u) ^ 2 * (2 - P)) - 1) ((1 + u) ^ 2 * P - 1)
        linarith
    calc _ ≤ 1 * |a * b / (n * m) - 1| := mul_le_mul_of_nonneg_right hc (abs_nonneg _)
      _ ≤ _ := by rw [one_mul]; exact hk
  have t := abs_add_le (s - D / (n * m)) (D / (n * m) - D / (a * b))
  rw [sub_add_sub_cancel] at t
  linarith

/-- The computed dot product of two vectors divided by their computed norms is their cosine, up to
rounding. -/
theorem cos_error {u : ℝ} (hu : 0 ≤ u) (hu1 : u < 1) {v w r q : List ℝ} {dv dw n m s : ℝ}
    (hlen : w.length = v.length) (hr : r.length = v.length) (hq : q.length = w.length)
    (h2 : (1 + u) ^ v.length < 2) (hv : ∃ x ∈ v, x ≠ 0) (hw : ∃ x ∈ w, x ≠ 0)
    (hdv : RDot u v v dv) (hnv : Near u (Real.sqrt dv) n)
    (hdw : RDot u w w dw) (hnw : Near u (Real.sqrt dw) m)
    (hrv : n ≠ 0 → ∀ (t : Nat) x y, v[t]? = some x → r[t]? = some y → Near u (x / n) y)
    (hqw : m ≠ 0 → ∀ (t : Nat) x y, w[t]? = some x → q[t]? = some y → Near u (x / m) y)
    (hs : RDot u r q s) : |s - exactCos v w| ≤ cosErr u v.length := by
  have hn := (unit_len hu hu1 hv h2 hdv hnv hr hrv).1
  have hm := (unit_len hu hu1 hw (by rw [hlen]; exact h2) hdw hnw hq hqw).1
  obtain ⟨n1, n2⟩ := norm_bounds hu hu1 hdv hnv
  obtain ⟨m1, m2⟩ := norm_bounds hu hu1 hdw hnw
  rw [hlen] at m1 m2
  obtain ⟨d1, d2⟩ := scaled_dot hu hn hm hr hq (hrv hn.ne') (hqw hm.ne')
  have hse := hs.error hu
  rw [hr, hq, hlen, min_self] at hse
  have ha : 0 < exactLen v := Real.sqrt_pos.mpr (exactDot_self_pos hv)
  have hb : 0 < exactLen w := Real.sqrt_pos.mpr (exactDot_self_pos hw)
  have hA := absDot_le v w
  have hA0 := absDot_nonneg v w
  have hD := exactDot_abs_le v w
  have hP1 : 1 ≤ (1 + u) ^ v.length := one_le_pow₀ (by linarith)
  have hQ : (1 + u) ^ (v.length + 2) = (1 + u) ^ 2 * (1 + u) ^ v.length := by ring
  unfold cosErr exactCos
  rw [hQ]
  exact cos_core hu hu1 hP1 h2 ha hb hn hm n1 n2 m1 m2 hA hD d2
    (hse.trans (mul_le_mul_of_nonneg_left d1 (by linarith)))

theorem pow_mul_le {u : ℝ} (hu : 0 ≤ u) (m : Nat) : (1 + u) ^ m * (1 - m * u) ≤ 1 := by
  induction m with
  | zero => simp
  | succ m ih =>
    have h0 : 0 ≤ (1 + u) ^ m := by positivity
    have : (1 + u) * (1 - ((m + 1 : Nat) : ℝ) * u) ≤ 1 - m * u := by
      push_cast
      nlinarith [mul_nonneg (Nat.cast_nonneg (α := ℝ) m) (sq_nonneg u), sq_nonneg u]
    calc (1 + u) ^ (m + 1) * (1 - ((m + 1 : Nat) : ℝ) * u) =
          (1 + u) ^ m * ((1 + u) * (1 - ((m + 1 : Nat) : ℝ) * u)) := by ring
      _ ≤ (1 + u) ^ m * (1 - m * u) := mul_le_mul_of_nonneg_left this h0
      _ ≤ 1 := ih

end FF
