import Verif.Lemmas.Float32Ops
/-!
# Sums, dot products and norms in binary32
-/

namespace FF

open B32

namespace F32

/-- Exact dot product of the pairs, and with absolute values -/
noncomputable def prods (ps : List (F32 × F32)) : List ℝ := ps.map fun p => val p.1 * val p.2

theorem prods_append (ps qs : List (F32 × F32)) : prods (ps ++ qs) = prods ps ++ prods qs := by simp [prods]

/-- Rounding unit and half of the smallest positive number -/
noncomputable def uu : ℝ := (2 : ℝ)⁻¹ ^ 24

noncomputable def eta : ℝ := (2 : ℝ)⁻¹ ^ 150

theorem uu_pos : 0 < uu := by unfold uu; positivity

theorem eta_pos : 0 < eta := by unfold eta; positivity

theorem overflow_gt : (2 : ℝ) ^ 127 < overflow := by unfold overflow; norm_num

/-- A number that can be represented is not changed. -/
theorem RoundsTo.exact {b c : F32} (hb : Finite b) (h : RoundsTo (val b) c) (hx : |val b| < overflow) :
    Finite c ∧ val c = val b := by
  rcases h with ⟨_, h1, h2⟩ | ⟨h, _⟩ | ⟨h, _⟩
  · have := (h2 b hb).1
    simp only [sub_self, abs_zero] at this
    exact ⟨h1, by linarith [abs_eq_zero.mp (le_antisymm this (abs_nonneg _))]⟩
  · linarith [le_abs_self (val b)]
  · linarith [neg_abs_le (val b)]

theorem length_le_of_pow {m : Nat} (h : (1 + uu) ^ m ≤ 2) : (m : ℝ) ≤ 2 ^ 24 := by
  have h1 := one_add_mul_le_pow (a := uu) (by linarith [uu_pos]) m
  have h2 : (m : ℝ) * uu ≤ 1 := by linarith
  unfold uu at h2
  rw [inv_pow, ← div_eq_mul_inv, div_le_one (by positivity)] at h2
  exact h2

/-- Computed dot products: relative error of the additions, absolute error of products that underflow. -/
theorem Dot.error {ps : List (F32 × F32)} {a : F32} (h : Dot ps a)
    (hf : ∀ p ∈ ps, Finite p.1 ∧ Finite p.2) (hm : (1 + uu) ^ ps.length ≤ 2)
    (hA : absSum (prods ps) ≤ 2 ^ 125) :
    Finite a ∧ |val a - (prods ps).sum| ≤
      ((1 + uu) ^ ps.length - 1) * absSum (prods ps) + ps.length * (1 + uu) ^ ps.length * eta := by
  have hu := uu_pos
  have he := eta_pos
  have bound : ∀ {m : Nat} {A S x : ℝ}, (1 + uu) ^ m ≤ 2 → A ≤ 2 ^ 125 → 0 ≤ A → |S| ≤ A →
      |x - S| ≤ ((1 + uu) ^ m - 1) * A + m * (1 + uu) ^ m * eta → |x| ≤ 2 * A + 1 := by
    intro m A S x h1 h2 h0 h3 h4
    have h5 := length_le_of_pow h1
    have h6 : (m : ℝ) * (1 + uu) ^ m * eta ≤ 1 := by
      calc (m : ℝ) * (1 + uu) ^ m * eta ≤ 2 ^ 24 * 2 * eta :=
          mul_le_mul_of_nonneg_right (mul_le_mul h5 h1 (by positivity) (by positivity)) he.le
        _ ≤ 1 := by unfold eta; norm_num
    have h7 : ((1 + uu) ^ m - 1) * A ≤ 1 * A := mul_le_mul_of_nonneg_right (by linarith) h0
    have := abs_add_le (x - S) S
    rw [sub_add_cancel] at this
    linarith
  have hov := overflow_gt
  have big : (2 : ℝ) ^ 127 = 4 * 2 ^ 125 := by rw [show (127 : Nat) = 125 + 2 by rfl, pow_add]; ring
  have one_lt : (1 : ℝ) * 4 ≤ 2 ^ 125 := by norm_num
  induction h with
  | nil =>
    refine ⟨by unfold Finite; decide, ?_⟩
    have : val 0 = 0 := val_zero_iff.mpr rfl
    simp [prods, this, absSum]
  | mul x y =>
    obtain ⟨hx, hy⟩ := hf _ (List.mem_singleton.mpr rfl)
    have hr := mul_result hx hy
    simp only [prods, absSum, List.map_cons, List.map_nil, List.sum_cons, List.sum_nil, add_zero,
      List.length_cons, List.length_nil, zero_add, pow_one] at hA ⊢
    have hlt : |val x * val y| < overflow := by linarith
    refine ⟨hr.fin hlt, (hr.error hlt).trans ?_⟩
    have : (2 : ℝ)⁻¹ ^ 150 = eta := rfl
    have : (2 : ℝ)⁻¹ ^ 24 = uu := rfl
    simp only [*]
    push_cast
    nlinarith
  | @fma x y ps a h ih =>
    obtain ⟨hx, hy⟩ := hf _ (List.mem_cons_self)
    simp only [prods, absSum, List.map_cons, List.sum_cons, List.length_cons] at hA ⊢
    have hA0 : 0 ≤ absSum (prods ps) := absSum_nonneg _
    have hxy := abs_nonneg (val x * val y)
    have hA' : |val x * val y| + absSum (prods ps) ≤ 2 ^ 125 := hA
    have hm1 : (1 + uu) ^ ps.length ≤ 2 :=
      le_trans (pow_le_pow_right₀ (by linarith) (by simp)) hm
    obtain ⟨hfa, hea⟩ := ih (fun p hp => hf p (List.mem_cons_of_mem _ hp)) hm1 (by linarith)
    have hS := abs_sum_le (prods ps)
    have hb := bound hm1 (by linarith) hA0 hS hea
    have hr := fma_result hx hy hfa
    have hlt : |val x * val y + val a| < overflow := by
      have := abs_add_le (val x * val y) (val a)
      linarith
    refine ⟨hr.fin hlt, ?_⟩
    have h1 := hr.error hlt
    change |val (B32.fma x y a) - (val x * val y + val a)| ≤ uu * |val x * val y + val a| + eta at h1
    change |val (B32.fma x y a) - (val x * val y + (prods ps).sum)| ≤
      ((1 + uu) ^ (ps.length + 1) - 1) * (|val x * val y| + absSum (prods ps)) +
        ((ps.length + 1 : Nat) : ℝ) * (1 + uu) ^ (ps.length + 1) * eta
    have hP1 : 1 ≤ (1 + uu) ^ ps.length := one_le_pow₀ (by linarith)
    rw [pow_succ]
    push_cast
    have h2 : |val x * val y + val a| ≤
        |val x * val y| + absSum (prods ps) + |val a - (prods ps).sum| := by
      have e : val x * val y + val a = val x * val y + ((prods ps).sum + (val a - (prods ps).sum)) := by ring
      rw [e]
      refine (abs_add_le _ _).trans ?_
      have := abs_add_le (prods ps).sum (val a - (prods ps).sum)
      linarith
    have h3 : |val (B32.fma x y a) - (val x * val y + (prods ps).sum)| ≤
        |val (B32.fma x y a) - (val x * val y + val a)| + |val a - (prods ps).sum| := by
      have e : val (B32.fma x y a) - (val x * val y + (prods ps).sum) =
        (val (B32.fma x y a) - (val x * val y + val a)) + (val a - (prods ps).sum) := by ring
      rw [e]
      exact abs_add_le _ _
    generalize |val a - (prods ps).sum| = E at *
    generalize (1 + uu) ^ ps.length = P at *
    generalize absSum (prods ps) = A at *
    generalize |val x * val y| = B at *
    have hn0 : (0 : ℝ) ≤ ps.length := by positivity
    generalize (ps.length : ℝ) = m at *
    have h4 : (1 + uu) * E ≤ (1 + uu) * ((P - 1) * A + m * P * eta) :=
      mul_le_mul_of_nonneg_left hea (by linarith)
    have h6 : uu * |val x * val y + val a| ≤ uu * (B + A + E) := mul_le_mul_of_nonneg_left h2 hu.le
    have h7 : 0 ≤ (P - 1) * B := mul_nonneg (by linarith) hxy
    have h8 : eta ≤ P * (1 + uu) * eta := by
      have : 1 ≤ P * (1 + uu) := by nlinarith
      nlinarith
    have h9 : 0 ≤ (P - 1) * (uu * B) := mul_nonneg (by linarith) (by positivity)
    nlinarith
  | @add ps qs a b ha hb iha ihb =>
    rw [prods_append] at hA ⊢
    rw [absSum_append] at hA ⊢
    rw [List.sum_append]
    rw [List.length_append] at hm ⊢
    have hA0 : 0 ≤ absSum (prods ps) := absSum_nonneg _
    have hB0 : 0 ≤ absSum (prods qs) := absSum_nonneg _
    have hm1 : (1 + uu) ^ ps.length ≤ 2 :=
      le_trans (pow_le_pow_right₀ (by linarith) (by omega)) hm
    have hm2 : (1 + uu) ^ qs.length ≤ 2 :=
      le_trans (pow_le_pow_right₀ (by linarith) (by omega)) hm
    obtain ⟨hfa, hea⟩ := iha (fun p hp => hf p (List.mem_append_left _ hp)) hm1 (by linarith)
    obtain ⟨hfb, heb⟩ := ihb (fun p hp => hf p (List.mem_append_right _ hp)) hm2 (by linarith)
    have hSa := abs_sum_le (prods ps)
    have hSb := abs_sum_le (prods qs)
    have hba := bound hm1 (by linarith) hA0 hSa hea
    have hbb := bound hm2 (by linarith) hB0 hSb heb
    obtain ⟨hr, hnr⟩ := add_result hfa hfb
    have hlt : |val a + val b| < overflow := by
      have := abs_add_le (val a) (val b)
      linarith
    refine ⟨hr.fin hlt, ?_⟩
    by_cases hps : ps = []
    · subst hps
      have h0 : val a = 0 := by
        simp [prods, absSum] at hea
        exact hea
      have hrr := hr.rounds
      rw [h0, zero_add] at hrr hlt
      have := (hrr.exact hfb hlt).2
      rw [this]
      simpa [prods, absSum] using heb
    by_cases hqs : qs = []
    · subst hqs
      have h0 : val b = 0 := by
        simp [prods, absSum] at heb
        exact heb
      have hrr := hr.rounds
      rw [h0, add_zero] at hrr hlt
      have := (hrr.exact hfa hlt).2
      rw [this]
      simpa [prods, absSum] using hea
    have hl1 := List.length_pos_iff.mpr hps
    have hl2 := List.length_pos_iff.mpr hqs
    have h1 := hnr hlt
    change |val (B32.add a b) - (val a + val b)| ≤ uu * |val a + val b| at h1
    have hP1 : (1 + uu) * (1 + uu) ^ ps.length ≤ (1 + uu) ^ (ps.length + qs.length) := by
      rw [← pow_succ']
      exact pow_le_pow_right₀ (by linarith) (by omega)
    have hQ1 : (1 + uu) * (1 + uu) ^ qs.length ≤ (1 + uu) ^ (ps.length + qs.length) := by
      rw [← pow_succ']
      exact pow_le_pow_right₀ (by linarith) (by omega)
    have hn1 : (0 : ℝ) ≤ ps.length := by positivity
    have hn2 : (0 : ℝ) ≤ qs.length := by positivity
    have h2 : |val a + val b| ≤ absSum (prods ps) + absSum (prods qs) +
        |val a - (prods ps).sum| + |val b - (prods qs).sum| := by
      have e : val a + val b = ((prods ps).sum + (val a - (prods ps).sum)) +
        ((prods qs).sum + (val b - (prods qs).sum)) := by ring
      rw [e]
      refine (abs_add_le _ _).trans ?_
      have t1 := abs_add_le (prods ps).sum (val a - (prods ps).sum)
      have t2 := abs_add_le (prods qs).sum (val b - (prods qs).sum)
      linarith
    have h3 : |val (B32.add a b) - ((prods ps).sum + (prods qs).sum)| ≤
        |val (B32.add a b) - (val a + val b)| + |val a - (prods ps).sum| + |val b - (prods qs).sum| := by
      have e : val (B32.add a b) - ((prods ps).sum + (prods qs).sum) =
        (val (B32.add a b) - (val a + val b)) + (val a - (prods ps).sum) + (val b - (prods qs).sum) := by ring
      rw [e]
      refine (abs_add_le _ _).trans ?_
      have := abs_add_le (val (B32.add a b) - (val a + val b)) (val a - (prods ps).sum)
      linarith
    push_cast
    generalize |val a - (prods ps).sum| = E at *
    generalize |val b - (prods qs).sum| = F at *
    generalize (1 + uu) ^ ps.length = P at *
    generalize (1 + uu) ^ qs.length = Q at *
    generalize (1 + uu) ^ (ps.length + qs.length) = R at *
    generalize absSum (prods ps) = A at *
    generalize absSum (prods qs) = B at *
    generalize (ps.length : ℝ) = m at *
    generalize (qs.length : ℝ) = n at *
    have h4 : (1 + uu) * E ≤ (1 + uu) * ((P - 1) * A + m * P * eta) :=
      mul_le_mul_of_nonneg_left hea (by linarith)
    have h5 : (1 + uu) * F ≤ (1 + uu) * ((Q - 1) * B + n * Q * eta) :=
      mul_le_mul_of_nonneg_left heb (by linarith)
    have h6 : uu * |val a + val b| ≤ uu * (A + B + E + F) := mul_le_mul_of_nonneg_left h2 hu.le
    have h7 : (1 + uu) * P * A ≤ R * A := mul_le_mul_of_nonneg_right hP1 hA0
    have h8 : (1 + uu) * Q * B ≤ R * B := mul_le_mul_of_nonneg_right hQ1 hB0
    have h9 : (1 + uu) * P * (m * eta) ≤ R * (m * eta) := mul_le_mul_of_nonneg_right hP1 (by positivity)
    have h10 : (1 + uu) * Q * (n * eta) ≤ R * (n * eta) := mul_le_mul_of_nonneg_right hQ1 (by positivity)
    linarith
  | @perm ps qs a hp h ih =>
    have hpp : (prods ps).Perm (prods qs) := hp.map _
    rw [← hp.length_eq] at hm ⊢
    rw [← hpp.sum_eq, ← absSum_perm hpp]
    rw [← absSum_perm hpp] at hA
    exact ih (fun p h => hf p (hp.mem_iff.mp h)) hm hA

/-! ### Overflow -/

theorem finite_zero : Finite 0 := by unfold Finite; decide

theorem val_zero : val 0 = 0 := val_zero_iff.mpr rfl

theorem posInf_not_finite : ¬ Finite posInf := by unfold Finite; decide

theorem posInf_not_nan : ¬ NaN posInf := by unfold NaN; decide

theorem negInf_not_nan : ¬ NaN negInf := by unfold NaN; decide

theorem Finite.not_nan {b : F32} (h : Finite b) : ¬ NaN b := fun hn => h hn.1

theorem Same.eq {a b : F32} (h : Same a b) (hb : ¬ NaN b) : a = b := by
  rcases h with h | ⟨_, h⟩
  · exact h
  · exact absurd h hb

theorem Same.nan {a b : F32} (h : Same a b) (hb : NaN b) : NaN a := by
  rcases h with h | ⟨h, _⟩
  · exact h ▸ hb
  · exact h

theorem RoundsTo.nonneg {x : ℝ} {b : F32} (h : RoundsTo x b) (hx : 0 ≤ x) :
    (Finite b ∧ 0 ≤ val b ∧ x < overflow) ∨ b = posInf := by
  rcases h with ⟨h1, h2, h3⟩ | ⟨_, h⟩ | ⟨h, _⟩
  · have := (h3 0 finite_zero).1
    rw [val_zero, zero_sub, abs_neg, abs_of_nonneg hx] at this
    rw [abs_of_nonneg hx] at h1
    exact Or.inl ⟨h2, by linarith [(abs_le.mp this).1], h1⟩
  · exact Or.inr h
  · have : 0 < overflow := lt_trans (by positivity) overflow_gt
    linarith

theorem add_posInf {b : F32} (h : Finite b ∨ b = posInf) : B32.add posInf b = posInf ∧ B32.add b posInf = posInf := by
  have i : isInf posInf = true := by decide
  have n : isNaN posInf = false := by decide
  rcases h with h | rfl
  · obtain ⟨h1, h2⟩ := not_nan_inf h
    unfold B32.add
    simp [h1, h2, i, n]
  · decide

theorem fma_posInf {x : F32} (h : Finite x) : B32.fma x x posInf = posInf := by
  obtain ⟨h1, h2⟩ := not_nan_inf h
  have i : isInf posInf = true := by decide
  have n : isNaN posInf = false := by decide
  unfold B32.fma
  simp [h1, h2, i, n]

/-- A component of `2⁶⁴` or more makes every sum of squares infinite. -/
theorem Dot.overflow {ps : List (F32 × F32)} {a : F32} (h : Dot ps a)
    (hf : ∀ p ∈ ps, Finite p.1 ∧ p.2 = p.1) :
    (Finite a ∧ 0 ≤ val a ∧ ∀ p ∈ ps, |val p.1| < 2 ^ 64) ∨ a = posInf := by
  have sq_lt : ∀ {x : F32}, val x * val x < F32.overflow → |val x| < 2 ^ 64 := by
    intro x hx
    by_contra hc
    have h1 : (2 : ℝ) ^ 64 * 2 ^ 64 ≤ |val x| * |val x| :=
      mul_le_mul (not_lt.mp hc) (not_lt.mp hc) (by positivity) (abs_nonneg _)
    rw [abs_mul_abs_self] at h1
    unfold F32.overflow at hx
    norm_num at hx h1
    linarith
  induction h with
  | nil => exact Or.inl ⟨finite_zero, val_zero.ge, by simp⟩
  | mul x y =>
    obtain ⟨hx, he⟩ := hf _ (List.mem_singleton.mpr rfl)
    simp only at hx he
    subst he
    rcases (mul_result hx hx).rounds.nonneg (mul_self_nonneg _) with ⟨h1, h2, h3⟩ | h
    · refine Or.inl ⟨h1, h2, fun p hp => ?_⟩
      rw [List.mem_singleton] at hp
      subst hp
      exact sq_lt h3
    · exact Or.inr h
  | @fma x y ps a h ih =>
    obtain ⟨hx, he⟩ := hf _ List.mem_cons_self
    simp only at hx he
    subst he
    rcases ih fun p hp => hf p (List.mem_cons_of_mem _ hp) with ⟨h1, h2, h3⟩ | rfl
    · rcases (fma_result hx hx h1).rounds.nonneg (add_nonneg (mul_self_nonneg _) h2) with ⟨h4, h5, h6⟩ | h
      · refine Or.inl ⟨h4, h5, fun p hp => ?_⟩
        rcases List.mem_cons.mp hp with rfl | hp
        · exact sq_lt (by linarith)
        · exact h3 p hp
      · exact Or.inr h
    · exact Or.inr (fma_posInf hx)
  | @add ps qs a b _ _ iha ihb =>
    rcases iha fun p hp => hf p (List.mem_append_left _ hp) with ⟨h1, h2, h3⟩ | rfl
    · rcases ihb fun p hp => hf p (List.mem_append_right _ hp) with ⟨g1, g2, g3⟩ | rfl
      · rcases (add_result h1 g1).1.rounds.nonneg (add_nonneg h2 g2) with ⟨h4, h5, _⟩ | h
        · refine Or.inl ⟨h4, h5, fun p hp => ?_⟩
          rcases List.mem_append.mp hp with hp | hp
          · exact h3 p hp
          · exact g3 p hp
        · exact Or.inr h
      · exact Or.inr (add_posInf (Or.inl h1)).2
    · rcases ihb fun p hp => hf p (List.mem_append_right _ hp) with ⟨g1, _, _⟩ | rfl
      · exact Or.inr (add_posInf (Or.inl g1)).1
      · exact Or.inr (add_posInf (Or.inr rfl)).1
  | perm hp _ ih =>
    rcases ih fun p h => hf p (hp.mem_iff.mp h) with ⟨h1, h2, h3⟩ | h
    · exact Or.inl ⟨h1, h2, fun p h => h3 p (hp.mem_iff.mpr h)⟩
    · exact Or.inr h

/-- A sum of squares that is finite: relative error of the additions, absolute error of squares that underflow. -/
theorem Dot.error_sq {ps : List (F32 × F32)} {a : F32} (h : Dot ps a)
    (hf : ∀ p ∈ ps, Finite p.1 ∧ p.2 = p.1) (ha : Finite a) :
    0 ≤ val a ∧ |val a - (prods ps).sum| ≤
      ((1 + uu) ^ ps.length - 1) * (prods ps).sum + ps.length * (1 + uu) ^ ps.length * eta := by
  have hu := uu_pos
  have he := eta_pos
  have nonneg : ∀ {ps : List (F32 × F32)}, (∀ p ∈ ps, Finite p.1 ∧ p.2 = p.1) → 0 ≤ (prods ps).sum := by
    intro ps hp
    refine List.sum_nonneg fun x hx => ?_
    obtain ⟨p, h1, rfl⟩ := List.mem_map.mp hx
    rw [(hp p h1).2]
    exact mul_self_nonneg _
  have inf : ∀ {x : ℝ} {b : F32}, RoundsTo x b → 0 ≤ x → Finite b → |x| < F32.overflow := by
    intro x b h hx hb
    rcases h.nonneg hx with ⟨_, _, h⟩ | rfl
    · rwa [abs_of_nonneg hx]
    · exact absurd hb posInf_not_finite
  refine ⟨?_, ?_⟩
  · rcases h.overflow hf with ⟨_, h, _⟩ | rfl
    · exact h
    · exact absurd ha posInf_not_finite
  induction h with
  | nil => simp [prods, val_zero]
  | mul x y =>
    obtain ⟨hx, e⟩ := hf _ (List.mem_singleton.mpr rfl)
    simp only at hx e
    subst e
    have hr := mul_result hx hx
    have h0 := mul_self_nonneg (val y)
    have hlt := inf hr.rounds h0 ha
    simp only [prods, List.map_cons, List.map_nil, List.sum_cons, List.sum_nil, add_zero,
      List.length_cons, List.length_nil, zero_add, pow_one]
    have h1 := hr.error hlt
    change _ ≤ uu * _ + eta at h1
    rw [abs_of_nonneg h0] at h1
    push_cast
    nlinarith
  | @fma x y ps a h ih =>
    obtain ⟨hx, e⟩ := hf _ List.mem_cons_self
    simp only at hx e
    subst e
    have hf' := fun p hp => hf p (List.mem_cons_of_mem _ hp)
    rcases h.overflow hf' with ⟨h1, h2, _⟩ | rfl
    swap
    · rw [fma_posInf hx] at ha
      exact absurd ha posInf_not_finite
    have hea := ih hf' h1
    have hS := nonneg hf'
    have hr := fma_result hx hx h1
    have hB := mul_self_nonneg (val y)
    have hlt := inf hr.rounds (add_nonneg hB h2) ha
    have h3 := hr.error hlt
    change _ ≤ uu * _ + eta at h3
    rw [abs_of_nonneg (add_nonneg hB h2)] at h3
    simp only [prods, List.map_cons, List.sum_cons, List.length_cons]
    change |val (B32.fma y y a) - (val y * val y + (prods ps).sum)| ≤
      ((1 + uu) ^ (ps.length + 1) - 1) * (val y * val y + (prods ps).sum) +
        ((ps.length + 1 : Nat) : ℝ) * (1 + uu) ^ (ps.length + 1) * eta
    have hP1 : 1 ≤ (1 + uu) ^ ps.length := one_le_pow₀ (by linarith)
    rw [pow_succ]
    push_cast
    have h4 : |val (B32.fma y y a) - (val y * val y + (prods ps).sum)| ≤
        |val (B32.fma y y a) - (val y * val y + val a)| + |val a - (prods ps).sum| := by
      have e : val (B32.fma y y a) - (val y * val y + (prods ps).sum) =
        (val (B32.fma y y a) - (val y * val y + val a)) + (val a - (prods ps).sum) := by ring
      rw [e]
      exact abs_add_le _ _
    have h5 : val a ≤ (prods ps).sum + |val a - (prods ps).sum| := by
      linarith [le_abs_self (val a - (prods ps).sum)]
    generalize |val a - (prods ps).sum| = E at *
    generalize (1 + uu) ^ ps.length = P at *
    generalize (prods ps).sum = A at *
    generalize val y * val y = B at *
    have hn0 : (0 : ℝ) ≤ ps.length := by positivity
    generalize (ps.length : ℝ) = m at *
    have h6 : (1 + uu) * E ≤ (1 + uu) * ((P - 1) * A + m * P * eta) :=
      mul_le_mul_of_nonneg_left hea (by linarith)
    have h7 : 0 ≤ (P - 1) * B := mul_nonneg (by linarith) hB
    have h8 : eta ≤ P * (1 + uu) * eta := by
      have : 1 ≤ P * (1 + uu) := by nlinarith
      nlinarith
    have h9 : 0 ≤ (P - 1) * (uu * B) := mul_nonneg (by linarith) (by positivity)
    have h10 : uu * val a ≤ uu * (A + E) := mul_le_mul_of_nonneg_left h5 hu.le
    nlinarith
  | @add ps qs a b h1 h2 iha ihb =>
    have hfp := fun p hp => hf p (List.mem_append_left _ hp)
    have hfq := fun p hp => hf p (List.mem_append_right _ hp)
    rcases h1.overflow hfp with ⟨a1, a2, _⟩ | rfl
    swap
    · have : B32.add posInf b = posInf := by
        rcases h2.overflow hfq with ⟨b1, _, _⟩ | rfl
        · exact (add_posInf (Or.inl b1)).1
        · exact (add_posInf (Or.inr rfl)).1
      rw [this] at ha
      exact absurd ha posInf_not_finite
    rcases h2.overflow hfq with ⟨b1, b2, _⟩ | rfl
    swap
    · rw [(add_posInf (Or.inl a1)).2] at ha
      exact absurd ha posInf_not_finite
    have hea := iha hfp a1
    have heb := ihb hfq b1
    have hA0 := nonneg hfp
    have hB0 := nonneg hfq
    rw [prods_append, List.sum_append, List.length_append]
    obtain ⟨hr, hnr⟩ := add_result a1 b1
    have hlt := inf hr.rounds (add_nonneg a2 b2) ha
    by_cases hps : ps = []
    · subst hps
      have h0 : val a = 0 := by
        simp [prods] at hea
        exact hea
      have hrr := hr.rounds
      rw [h0, zero_add] at hrr hlt
      have := (hrr.exact b1 hlt).2
      rw [this]
      simpa [prods] using heb
    by_cases hqs : qs = []
    · subst hqs
      have h0 : val b = 0 := by
        simp [prods] at heb
        exact heb
      have hrr := hr.rounds
      rw [h0, add_zero] at hrr hlt
      have := (hrr.exact a1 hlt).2
      rw [this]
      simpa [prods] using hea
    have hl1 := List.length_pos_iff.mpr hps
    have hl2 := List.length_pos_iff.mpr hqs
    have h3 := hnr hlt
    change |val (B32.add a b) - (val a + val b)| ≤ uu * |val a + val b| at h3
    rw [abs_of_nonneg (add_nonneg a2 b2)] at h3
    have hP1 : (1 + uu) * (1 + uu) ^ ps.length ≤ (1 + uu) ^ (ps.length + qs.length) := by
      rw [← pow_succ']
      exact pow_le_pow_right₀ (by linarith) (by omega)
    have hQ1 : (1 + uu) * (1 + uu) ^ qs.length ≤ (1 + uu) ^ (ps.length + qs.length) := by
      rw [← pow_succ']
      exact pow_le_pow_right₀ (by linarith) (by omega)
    have hn1 : (0 : ℝ) ≤ ps.length := by positivity
    have hn2 : (0 : ℝ) ≤ qs.length := by positivity
    have h4 : |val (B32.add a b) - ((prods ps).sum + (prods qs).sum)| ≤
        |val (B32.add a b) - (val a + val b)| + |val a - (prods ps).sum| + |val b - (prods qs).sum| := by
      have e : val (B32.add a b) - ((prods ps).sum + (prods qs).sum) =
        (val (B32.add a b) - (val a + val b)) + (val a - (prods ps).sum) + (val b - (prods qs).sum) := by ring
      rw [e]
      refine (abs_add_le _ _).trans ?_
      have := abs_add_le (val (B32.add a b) - (val a + val b)) (val a - (prods ps).sum)
      linarith
    have h5 : val a ≤ (prods ps).sum + |val a - (prods ps).sum| := by
      linarith [le_abs_self (val a - (prods ps).sum)]
    have h6 : val b ≤ (prods qs).sum + |val b - (prods qs).sum| := by
      linarith [le_abs_self (val b - (prods qs).sum)]
    push_cast
    generalize |val a - (prods ps).sum| = E at *
    generalize |val b - (prods qs).sum| = F at *
    generalize (1 + uu) ^ ps.length = P at *
    generalize (1 + uu) ^ qs.length = Q at *
    generalize (1 + uu) ^ (ps.length + qs.length) = R at *
    generalize (prods ps).sum = A at *
    generalize (prods qs).sum = B at *
    generalize (ps.length : ℝ) = m at *
    generalize (qs.length : ℝ) = n at *
    have h7 : (1 + uu) * E ≤ (1 + uu) * ((P - 1) * A + m * P * eta) :=
      mul_le_mul_of_nonneg_left hea (by linarith)
    have h8 : (1 + uu) * F ≤ (1 + uu) * ((Q - 1) * B + n * Q * eta) :=
      mul_le_mul_of_nonneg_left heb (by linarith)
    have h9 : uu * (val a + val b) ≤ uu * (A + E + (B + F)) :=
      mul_le_mul_of_nonneg_left (by linarith) hu.le
    have h10 : (1 + uu) * P * A ≤ R * A := mul_le_mul_of_nonneg_right hP1 hA0
    have h11 : (1 + uu) * Q * B ≤ R * B := mul_le_mul_of_nonneg_right hQ1 hB0
    have h12 : (1 + uu) * P * (m * eta) ≤ R * (m * eta) := mul_le_mul_of_nonneg_right hP1 (by positivity)
    have h13 : (1 + uu) * Q * (n * eta) ≤ R * (n * eta) := mul_le_mul_of_nonneg_right hQ1 (by positivity)
    linarith
  | @perm ps qs a hp h ih =>
    have hpp : (prods ps).Perm (prods qs) := hp.map _
    rw [← hp.length_eq, ← hpp.sum_eq]
    exact ih (fun p h => hf p (hp.mem_iff.mp h)) ha

theorem sqrt_posInf : B32.sqrt posInf = posInf := by decide

/-! ### Norms -/

theorem prods_zip (v : List F32) : prods (v.zip v) = (v.map val).map fun x => x * x := by
  unfold prods
  induction v with
  | nil => rfl
  | cons x v ih => simpa using ih

theorem prods_sum (v : List F32) : (prods (v.zip v)).sum = exactDot (v.map val) (v.map val) := by
  rw [prods_zip, exactDot_eq]
  congr 1
  generalize v.map val = w
  induction w with
  | nil => rfl
  | cons x w ih => simp

theorem prods_absSum (v : List F32) : absSum (prods (v.zip v)) = exactDot (v.map val) (v.map val) := by
  rw [← prods_sum]
  unfold absSum
  congr 1
  rw [prods_zip, List.map_map]
  refine List.map_congr_left fun x _ => ?_
  exact abs_mul_self x

theorem exactDot_le {v : List ℝ} {c : ℝ} (h : ∀ x ∈ v, |x| ≤ c) : exactDot v v ≤ v.length * c ^ 2 := by
  induction v with
  | nil => simp [exactDot]
  | cons x v ih =>
    rw [exactDot, List.length_cons]
    have h1 := ih fun y hy => h y (List.mem_cons_of_mem _ hy)
    have h2 : x * x ≤ c ^ 2 := by
      have := h x List.mem_cons_self
      rw [← sq, ← sq_abs]
      exact pow_le_pow_left₀ (abs_nonneg _) this 2
    push_cast
    linarith

theorem le_exactDot {v : List ℝ} {x : ℝ} (h : x ∈ v) : x ^ 2 ≤ exactDot v v := by
  induction v with
  | nil => cases h
  | cons y v ih =>
    rw [exactDot]
    have h0 := exactDot_self_nonneg v
    rcases List.mem_cons.mp h with rfl | h
    · nlinarith
    · have := ih h
      nlinarith [mul_self_nonneg y]

theorem mem_zip_self {v : List F32} {p : F32 × F32} (h : p ∈ v.zip v) : p.1 ∈ v ∧ p.2 ∈ v :=
  List.of_mem_zip h

/-- Bounds of `(1 + u) ^ n`. -/
theorem pow_bound {n : Nat} (h : n ≤ 2 ^ 20) : (1 + uu) ^ (n + 1) ≤ 1 + 108 / 100 * ((n + 1 : ℝ) * uu) ∧
    (n + 1 : ℝ) * uu ≤ 1 / 15 := by
  have hu := uu_pos
  have hn : (n : ℝ) ≤ 2 ^ 20 := by exact_mod_cast h
  have ht : (n + 1 : ℝ) * uu ≤ 1 / 15 := by
    calc (n + 1 : ℝ) * uu ≤ (2 ^ 20 + 1) * uu := mul_le_mul_of_nonneg_right (by linarith) hu.le
      _ ≤ 1 / 15 := by unfold uu; norm_num
  refine ⟨?_, ht⟩
  have h1 := pow_mul_le hu.le (n + 1)
  push_cast at h1
  have ht0 : 0 ≤ (n + 1 : ℝ) * uu := by positivity
  generalize (n + 1 : ℝ) * uu = t at *
  by_contra hc
  have h2 : 1 + 108 / 100 * t < (1 + uu) ^ (n + 1) := not_le.mp hc
  have h3 : (1 + 108 / 100 * t) * (1 - t) ≤ (1 + uu) ^ (n + 1) * (1 - t) :=
    mul_le_mul_of_nonneg_right h2.le (by linarith)
  rcases eq_or_lt_of_le ht0 with h0 | h0
  · rw [← h0] at h1 h2
    linarith
  · nlinarith

/-- The sum of the squares of `v` is computed as `d`, and neither too large nor too small. -/
structure Ranged (v : List F32) (d : F32) : Prop where
  fin : ∀ x ∈ v, Finite x
  length : v.length ≤ 2 ^ 20
  sum : Dot (v.zip v) d
  finite : Finite d
  low : (2 : ℝ)⁻¹ ^ 121 ≤ val d

theorem mem_zip_eq {v : List F32} (hf : ∀ x ∈ v, Finite x) : ∀ p ∈ v.zip v, Finite p.1 ∧ p.2 = p.1 := by
  intro p hp
  refine ⟨hf _ (mem_zip_self hp).1, ?_⟩
  obtain ⟨j, hj, rfl⟩ := List.getElem_of_mem hp
  simp

/-- Finite numbers -/
theorem Finite.lt {b : F32} (h : Finite b) : |val b| < 2 ^ 128 := by
  rw [abs_val, div_lt_iff₀ (by positivity)]
  have h1 : mag (mant b) < 2 ^ 277 := by
    have h2 : ex b < 255 := by
      have : ex b < 256 := Nat.mod_lt _ (by norm_num)
      unfold Finite at h
      omega
    have h3 : mant b / 2 ^ 23 = ex b := by
      unfold mant ex
      omega
    unfold mag
    have h4 := Nat.mod_lt (mant b) (show 0 < 2 ^ 23 by norm_num)
    split
    · calc mant b < 2 ^ 31 := Nat.mod_lt _ (by norm_num)
        _ ≤ 2 ^ 277 := Nat.pow_le_pow_right (by norm_num) (by norm_num)
    · rw [h3]
      calc (2 ^ 23 + mant b % 2 ^ 23) * 2 ^ (ex b - 1) < 2 ^ 24 * 2 ^ (ex b - 1) :=
            Nat.mul_lt_mul_of_pos_right (by omega) (by positivity)
        _ ≤ 2 ^ 24 * 2 ^ 253 := Nat.mul_le_mul_left _ (Nat.pow_le_pow_right (by norm_num) (by omega))
        _ = 2 ^ 277 := by rw [← pow_add]
  calc ((mag (mant b) : Nat) : ℝ) < ((2 ^ 277 : Nat) : ℝ) := by exact_mod_cast h1
    _ = 2 ^ 128 * 2 ^ 149 := by rw [Nat.cast_pow, ← pow_add, Nat.cast_ofNat]

/-- The computed sum of the squares -/
theorem sum_ranged {v : List F32} {d : F32} (hv : Ranged v d) :
    |val d - exactDot (v.map val) (v.map val)| ≤
      (115 / 100 * ((v.length + 1 : ℝ) * uu)) * exactDot (v.map val) (v.map val) := by
  have hu := uu_pos
  have he := eta_pos
  obtain ⟨hp, ht⟩ := pow_bound hv.length
  have hn0 : (0 : ℝ) ≤ v.length := by positivity
  have hP1 : (1 + uu) ^ v.length ≤ (1 + uu) ^ (v.length + 1) := pow_le_pow_right₀ (by linarith) (by omega)
  have hlz : (v.zip v).length = v.length := by simp
  obtain ⟨_, hed⟩ := hv.sum.error_sq (mem_zip_eq hv.fin) hv.finite
  rw [prods_sum, hlz] at hed
  have hS0 := exactDot_self_nonneg (v.map val)
  have hlow := hv.low
  have hk : (1 + uu) ^ v.length * eta ≤ 1 / 20 * uu * val d := by
    calc (1 + uu) ^ v.length * eta ≤ 11 / 10 * eta := mul_le_mul_of_nonneg_right (by linarith) he.le
      _ ≤ 1 / 20 * uu * (2 : ℝ)⁻¹ ^ 121 := by unfold eta uu; norm_num
      _ ≤ _ := mul_le_mul_of_nonneg_left hlow (by positivity)
  have hm : (v.length : ℝ) * (1 + uu) ^ v.length * eta ≤ 1 / 20 * ((v.length + 1 : ℝ) * uu) * val d := by
    calc (v.length : ℝ) * (1 + uu) ^ v.length * eta = v.length * ((1 + uu) ^ v.length * eta) := by ring
      _ ≤ v.length * (1 / 20 * uu * val d) := mul_le_mul_of_nonneg_left hk hn0
      _ ≤ 1 / 20 * ((v.length + 1 : ℝ) * uu) * val d := by
        have : 0 ≤ 1 / 20 * uu * val d := by
          have : 0 < val d := lt_of_lt_of_le (by positivity) hlow
          positivity
        nlinarith
  have hd0 : 0 < val d := lt_of_lt_of_le (by positivity) hlow
  have ht0 : 0 ≤ (v.length + 1 : ℝ) * uu := by positivity
  generalize exactDot (v.map val) (v.map val) = S at *
  generalize (1 + uu) ^ v.length = P at *
  generalize (v.length : ℝ) * P * eta = z at *
  generalize (v.length + 1 : ℝ) * uu = t at *
  have h1 : (P - 1) * S ≤ 108 / 100 * t * S := mul_le_mul_of_nonneg_right (by linarith) hS0
  obtain ⟨h2, h3⟩ := abs_le.mp hed
  have h4 : val d ≤ 12 / 10 * S := by nlinarith
  have h5 : 1 / 20 * t * val d ≤ 1 / 20 * t * (12 / 10 * S) :=
    mul_le_mul_of_nonneg_left h4 (by linarith)
  refine hed.trans ?_
  nlinarith

/-- The computed norm of such a vector -/
theorem norm_ranged {v : List F32} {d : F32} (hv : Ranged v d) :
    Finite (B32.sqrt d) ∧ 0 < exactLen (v.map val) ∧
      (2 : ℝ)⁻¹ ^ 62 ≤ val (B32.sqrt d) ∧ val (B32.sqrt d) ≤ 2 ^ 65 ∧
      |val (B32.sqrt d) - exactLen (v.map val)| ≤
        (6 / 10 * ((v.length + 1 : ℝ) * uu) + 11 / 10 * uu) * exactLen (v.map val) := by
  have hu := uu_pos
  obtain ⟨_, ht⟩ := pow_bound hv.length
  have h3 := sum_ranged hv
  have hS0 := exactDot_self_nonneg (v.map val)
  have hdlo := hv.low
  have hdhi : val d ≤ 2 ^ 128 := (le_abs_self _).trans hv.finite.lt.le
  have ht0 : 0 ≤ (v.length + 1 : ℝ) * uu := by positivity
  generalize (v.length + 1 : ℝ) * uu = t at *
  have hSpos : 0 < exactDot (v.map val) (v.map val) := by
    rcases eq_or_lt_of_le hS0 with h | h
    · rw [← h, mul_zero, sub_zero] at h3
      have : 0 < val d := lt_of_lt_of_le (by positivity) hdlo
      linarith [le_abs_self (val d)]
    · exact h
  have hLpos : 0 < exactLen (v.map val) := Real.sqrt_pos.mpr hSpos
  have hd0 : 0 ≤ val d := le_trans (by positivity) hdlo
  have hr := sqrt_result hv.finite hd0
  have hs0 := Real.sqrt_nonneg (val d)
  have hshi : Real.sqrt (val d) ≤ 2 ^ 64 := by
    rw [Real.sqrt_le_iff]
    exact ⟨by positivity, hdhi.trans (le_of_eq (by rw [← pow_mul]))⟩
  have hslo : (2 : ℝ)⁻¹ ^ 61 ≤ Real.sqrt (val d) := by
    refine Real.le_sqrt_of_sq_le (le_trans ?_ hdlo)
    rw [← pow_mul]
    exact pow_le_pow_of_le_one (by norm_num) (by norm_num) (by norm_num)
  have hlt : |Real.sqrt (val d)| < overflow := by
    rw [abs_of_nonneg hs0]
    refine lt_of_le_of_lt hshi (lt_trans ?_ overflow_gt)
    exact pow_lt_pow_right₀ (by norm_num) (by norm_num)
  have hnear := hr.near hlt (by
    rw [abs_of_nonneg hs0]
    refine le_trans ?_ hslo
    exact pow_le_pow_of_le_one (by norm_num) (by norm_num) (by norm_num))
  change Near uu _ _ at hnear
  have hu1 : uu < 1 := by unfold uu; norm_num
  have hu2 : uu ≤ 1 / 1000 := by unfold uu; norm_num
  obtain ⟨h6, h7⟩ := norm_bounds_of (P := 1 + 115 / 100 * t) hu.le hu1 (by linarith) (by
    rw [add_sub_cancel_left]; exact h3) hnear
  have hsP : Real.sqrt (1 + 115 / 100 * t) ≤ 1 + 575 / 1000 * t := by
    rw [Real.sqrt_le_iff]
    exact ⟨by linarith, by nlinarith⟩
  have hsQ : 1 - 6 / 10 * t ≤ Real.sqrt (2 - (1 + 115 / 100 * t)) := by
    refine Real.le_sqrt_of_sq_le ?_
    nlinarith
  have hup : val (B32.sqrt d) ≤ (1 + (6 / 10 * t + 11 / 10 * uu)) * exactLen (v.map val) := by
    refine h6.trans (mul_le_mul_of_nonneg_right ?_ hLpos.le)
    have := mul_le_mul_of_nonneg_left hsP (show 0 ≤ 1 + uu by linarith)
    nlinarith
  have hdown : (1 - (6 / 10 * t + 11 / 10 * uu)) * exactLen (v.map val) ≤ val (B32.sqrt d) := by
    refine le_trans (mul_le_mul_of_nonneg_right ?_ hLpos.le) h7
    have := mul_le_mul_of_nonneg_left hsQ (show 0 ≤ 1 - uu by linarith)
    nlinarith
  have hN : |val (B32.sqrt d) - Real.sqrt (val d)| ≤ uu * |Real.sqrt (val d)| := hnear
  rw [abs_of_nonneg hs0] at hN
  obtain ⟨n1, n2⟩ := abs_le.mp hN
  refine ⟨hr.fin hlt, hLpos, ?_, ?_, ?_⟩
  · have e : (2 : ℝ)⁻¹ ^ 61 = 2 * 2⁻¹ ^ 62 := by norm_num
    nlinarith
  · have e : (2 : ℝ) ^ 65 = 2 * 2 ^ 64 := by norm_num
    nlinarith
  · rw [abs_le]
    constructor <;> linarith

/-- Finite numbers of moderate length -/
theorem ranged_moderate {v : List F32} (hv : Moderate v) {d : F32} (hd : Dot (v.zip v) d) : Ranged v d := by
  have hu := uu_pos
  have he := eta_pos
  obtain ⟨hp, ht⟩ := pow_bound hv.length
  have hn : (v.length : ℝ) ≤ 2 ^ 20 := by exact_mod_cast hv.length
  have hS := exactLen_sq (v.map val)
  have hSlo : (2 : ℝ)⁻¹ ^ 118 ≤ exactDot (v.map val) (v.map val) := by
    rw [← hS, show (2 : ℝ)⁻¹ ^ 118 = (2⁻¹ ^ 59) ^ 2 by rw [← pow_mul]]
    exact pow_le_pow_left₀ (by positivity) hv.low 2
  have hShi : exactDot (v.map val) (v.map val) ≤ 2 ^ 124 := by
    rw [← hS, show (2 : ℝ) ^ 124 = (2 ^ 62) ^ 2 by rw [← pow_mul]]
    exact pow_le_pow_left₀ (Real.sqrt_nonneg _) hv.high 2
  have hP1 : (1 + uu) ^ v.length ≤ (1 + uu) ^ (v.length + 1) := pow_le_pow_right₀ (by linarith) (by omega)
  have hlz : (v.zip v).length = v.length := by simp
  have h2 : (1 + uu) ^ (v.zip v).length ≤ 2 := by rw [hlz]; linarith
  obtain ⟨hfd, hed⟩ := hd.error (fun p hp => ⟨hv.fin _ (mem_zip_self hp).1, hv.fin _ (mem_zip_self hp).2⟩) h2
    (by rw [prods_absSum]; refine hShi.trans ?_; norm_num)
  rw [prods_absSum, prods_sum, hlz] at hed
  rw [hlz] at h2
  refine ⟨hv.fin, hv.length, hd, hfd, ?_⟩
  have h3 : ((1 + uu) ^ v.length - 1) * exactDot (v.map val) (v.map val) ≤
      1 / 10 * exactDot (v.map val) (v.map val) :=
    mul_le_mul_of_nonneg_right (by linarith) (exactDot_self_nonneg _)
  have h4 : (v.length : ℝ) * (1 + uu) ^ v.length * eta ≤ 1 / 10 * exactDot (v.map val) (v.map val) := by
    calc (v.length : ℝ) * (1 + uu) ^ v.length * eta ≤ 2 ^ 20 * 2 * eta :=
          mul_le_mul_of_nonneg_right (mul_le_mul hn h2 (by positivity) (by positivity)) he.le
      _ ≤ 1 / 10 * (2 : ℝ)⁻¹ ^ 118 := by unfold eta; norm_num
      _ ≤ _ := mul_le_mul_of_nonneg_left hSlo (by norm_num)
  have h5 := (abs_le.mp hed).1
  calc (2 : ℝ)⁻¹ ^ 121 ≤ 8 / 10 * 2⁻¹ ^ 118 := by norm_num
    _ ≤ 8 / 10 * exactDot (v.map val) (v.map val) := mul_le_mul_of_nonneg_left hSlo (by norm_num)
    _ ≤ val d := by linarith

/-- Finite sums that are small belong to short vectors. -/
theorem sum_small {v : List F32} {d : F32} (hf : ∀ x ∈ v, Finite x) (hl : v.length ≤ 2 ^ 20) (hd : Dot (v.zip v) d)
    (hfd : Finite d) (hlo : val d < (2 : ℝ)⁻¹ ^ 119) : exactLen (v.map val) < 2⁻¹ ^ 59 := by
  by_contra hc
  have hu := uu_pos
  have he := eta_pos
  obtain ⟨hp, ht⟩ := pow_bound hl
  have hn : (v.length : ℝ) ≤ 2 ^ 20 := by exact_mod_cast hl
  have hS := exactLen_sq (v.map val)
  have hSlo : (2 : ℝ)⁻¹ ^ 118 ≤ exactDot (v.map val) (v.map val) := by
    rw [← hS, show (2 : ℝ)⁻¹ ^ 118 = (2⁻¹ ^ 59) ^ 2 by rw [← pow_mul]]
    exact pow_le_pow_left₀ (by positivity) (not_lt.mp hc) 2
  have hP1 : (1 + uu) ^ v.length ≤ (1 + uu) ^ (v.length + 1) := pow_le_pow_right₀ (by linarith) (by omega)
  have hlz : (v.zip v).length = v.length := by simp
  have h2 : (1 + uu) ^ v.length ≤ 2 := by linarith
  obtain ⟨_, hed⟩ := hd.error_sq (mem_zip_eq hf) hfd
  rw [prods_sum, hlz] at hed
  have h3 : ((1 + uu) ^ v.length - 1) * exactDot (v.map val) (v.map val) ≤
      1 / 10 * exactDot (v.map val) (v.map val) :=
    mul_le_mul_of_nonneg_right (by linarith) (exactDot_self_nonneg _)
  have h4 : (v.length : ℝ) * (1 + uu) ^ v.length * eta ≤ 1 / 10 * exactDot (v.map val) (v.map val) := by
    calc (v.length : ℝ) * (1 + uu) ^ v.length * eta ≤ 2 ^ 20 * 2 * eta :=
          mul_le_mul_of_nonneg_right (mul_le_mul hn h2 (by positivity) (by positivity)) he.le
      _ ≤ 1 / 10 * (2 : ℝ)⁻¹ ^ 118 := by unfold eta; norm_num
      _ ≤ _ := mul_le_mul_of_nonneg_left hSlo (by norm_num)
  have h5 := (abs_le.mp hed).1
  have : (2 : ℝ)⁻¹ ^ 119 ≤ val d := by
    calc (2 : ℝ)⁻¹ ^ 119 ≤ 8 / 10 * 2⁻¹ ^ 118 := by norm_num
      _ ≤ 8 / 10 * exactDot (v.map val) (v.map val) := mul_le_mul_of_nonneg_left hSlo (by norm_num)
      _ ≤ val d := by linarith
  linarith

/-- Finite sums belong to vectors that are not too long. -/
theorem sum_large {v : List F32} {d : F32} (hf : ∀ x ∈ v, Finite x) (hl : v.length ≤ 2 ^ 20) (hd : Dot (v.zip v) d)
    (hfd : Finite d) : exactLen (v.map val) < 2 ^ 65 := by
  by_contra hc
  have hu := uu_pos
  have he := eta_pos
  obtain ⟨hp, ht⟩ := pow_bound hl
  have hn : (v.length : ℝ) ≤ 2 ^ 20 := by exact_mod_cast hl
  have hS := exactLen_sq (v.map val)
  have hSlo : (2 : ℝ) ^ 130 ≤ exactDot (v.map val) (v.map val) := by
    rw [← hS, show (2 : ℝ) ^ 130 = (2 ^ 65) ^ 2 by rw [← pow_mul]]
    exact pow_le_pow_left₀ (by positivity) (not_lt.mp hc) 2
  have hP1 : (1 + uu) ^ v.length ≤ (1 + uu) ^ (v.length + 1) := pow_le_pow_right₀ (by linarith) (by omega)
  have hlz : (v.zip v).length = v.length := by simp
  have h2 : (1 + uu) ^ v.length ≤ 2 := by linarith
  obtain ⟨_, hed⟩ := hd.error_sq (mem_zip_eq hf) hfd
  rw [prods_sum, hlz] at hed
  have h3 : ((1 + uu) ^ v.length - 1) * exactDot (v.map val) (v.map val) ≤
      1 / 10 * exactDot (v.map val) (v.map val) :=
    mul_le_mul_of_nonneg_right (by linarith) (exactDot_self_nonneg _)
  have h4 : (v.length : ℝ) * (1 + uu) ^ v.length * eta ≤ 1 / 10 * exactDot (v.map val) (v.map val) := by
    calc (v.length : ℝ) * (1 + uu) ^ v.length * eta ≤ 2 ^ 20 * 2 * eta :=
          mul_le_mul_of_nonneg_right (mul_le_mul hn h2 (by positivity) (by positivity)) he.le
      _ ≤ 1 / 10 * (2 : ℝ) ^ 130 := by unfold eta; norm_num
      _ ≤ _ := mul_le_mul_of_nonneg_left hSlo (by norm_num)
  have h5 := (abs_le.mp hed).1
  have h6 := (le_abs_self _).trans_lt hfd.lt
  have : (2 : ℝ) ^ 128 ≤ val d := by
    calc (2 : ℝ) ^ 128 ≤ 8 / 10 * 2 ^ 130 := by norm_num
      _ ≤ 8 / 10 * exactDot (v.map val) (v.map val) := mul_le_mul_of_nonneg_left hSlo (by norm_num)
      _ ≤ val d := by linarith
  linarith

/-- The square root of a finite sum of squares -/
theorem sqrt_sum {d : F32} (hfd : Finite d) (h0 : 0 ≤ val d) : Finite (B32.sqrt d) ∧ 0 ≤ val (B32.sqrt d) ∧
    |val (B32.sqrt d) - Real.sqrt (val d)| ≤ uu * Real.sqrt (val d) + eta := by
  have hr := sqrt_result hfd h0
  have hs0 := Real.sqrt_nonneg (val d)
  have hshi : Real.sqrt (val d) ≤ 2 ^ 64 := by
    rw [Real.sqrt_le_iff]
    exact ⟨by positivity, ((le_abs_self _).trans hfd.lt.le).trans (le_of_eq (by rw [← pow_mul]))⟩
  have hlt : |Real.sqrt (val d)| < overflow := by
    rw [abs_of_nonneg hs0]
    refine lt_of_le_of_lt hshi (lt_trans ?_ overflow_gt)
    exact pow_lt_pow_right₀ (by norm_num) (by norm_num)
  have h1 := hr.error hlt
  rw [abs_of_nonneg hs0] at h1
  refine ⟨hr.fin hlt, ?_, h1⟩
  rcases hr.rounds.nonneg hs0 with ⟨_, h, _⟩ | h
  · exact h
  · have := hr.fin hlt
    rw [h] at this
    exact absurd this posInf_not_finite

/-- If the norm is in range, so is the sum of the squares. -/
theorem ranged_inRange {v : List F32} {n d : F32} (hv : NormInRange v n) (hd : Dot (v.zip v) d)
    (hn : Same n (B32.sqrt d)) : Ranged v d ∧ n = B32.sqrt d := by
  have he : n = B32.sqrt d := by
    rcases hn with h | ⟨h, _⟩
    · exact h
    · exact absurd h hv.finite.not_nan
  have hfin := hv.finite
  have hlow := hv.low
  rw [he] at hfin hlow
  rcases hd.overflow (mem_zip_eq hv.fin) with ⟨h1, h2, _⟩ | rfl
  swap
  · rw [sqrt_posInf] at hfin
    exact absurd hfin posInf_not_finite
  refine ⟨⟨hv.fin, hv.length, hd, h1, ?_⟩, he⟩
  by_contra hc
  obtain ⟨_, _, h3⟩ := sqrt_sum h1 h2
  have h4 : Real.sqrt (val d) ≤ 3 / 4 * 2⁻¹ ^ 60 := by
    rw [Real.sqrt_le_iff]
    refine ⟨by positivity, (not_le.mp hc).le.trans ?_⟩
    norm_num
  have h5 := (abs_le.mp h3).2
  have hs0 := Real.sqrt_nonneg (val d)
  have h6 : uu * Real.sqrt (val d) ≤ 1 / 10 * Real.sqrt (val d) :=
    mul_le_mul_of_nonneg_right (by unfold uu; norm_num) hs0
  have h7 : eta ≤ 1 / 100 * 2⁻¹ ^ 60 := by unfold eta; norm_num
  have h8 : (0 : ℝ) < 2⁻¹ ^ 60 := by positivity
  linarith

/-- It is enough to look at the components. -/
theorem Moderate.of_components {v : List F32} (fin : ∀ x ∈ v, Finite x) (high : ∀ x ∈ v, |val x| ≤ 2 ^ 52)
    (low : (2 : ℝ)⁻¹ ^ 59 ≤ exactLen (v.map val)) (length : v.length ≤ 2 ^ 20) : Moderate v := by
  refine ⟨fin, low, ?_, length⟩
  have hn : (v.length : ℝ) ≤ 2 ^ 20 := by exact_mod_cast length
  have := exactDot_le (v := v.map val) (c := 2 ^ 52) (by
    intro x hx
    obtain ⟨y, hy, rfl⟩ := List.mem_map.mp hx
    exact high y hy)
  unfold exactLen
  rw [Real.sqrt_le_iff]
  refine ⟨by positivity, this.trans ?_⟩
  rw [List.length_map]
  calc (v.length : ℝ) * (2 ^ 52) ^ 2 ≤ 2 ^ 20 * (2 ^ 52) ^ 2 := mul_le_mul_of_nonneg_right hn (by positivity)
    _ = (2 ^ 62) ^ 2 := by rw [← pow_mul, ← pow_mul, ← pow_add]

theorem abs_le_exactLen {v : List ℝ} {x : ℝ} (h : x ∈ v) : |x| ≤ exactLen v := by
  unfold exactLen
  refine Real.le_sqrt_of_sq_le ?_
  rw [sq_abs]
  exact le_exactDot h

/-- Exact and computed norm of a moderate vector. -/
theorem ratio_ranged {v : List F32} {d : F32} (hv : Ranged v d) :
    0 < exactLen (v.map val) / val (B32.sqrt d) ∧
      exactLen (v.map val) / val (B32.sqrt d) ≤ 1 + 7 / 10 * (v.length * uu) + 3 * uu ∧
      1 - 7 / 10 * (v.length * uu) - 3 * uu ≤ exactLen (v.map val) / val (B32.sqrt d) := by
  obtain ⟨hfn, hL, hlo, hhi, hN⟩ := norm_ranged hv
  obtain ⟨_, ht⟩ := pow_bound hv.length
  have hu := uu_pos
  have hpos : 0 < val (B32.sqrt d) := lt_of_lt_of_le (by positivity) hlo
  have hu2 : uu ≤ 1 / 1000000 := by unfold uu; norm_num
  have htu : (v.length + 1 : ℝ) * uu = v.length * uu + uu := by ring
  rw [htu] at hN ht
  have hnu : 0 ≤ (v.length : ℝ) * uu := by positivity
  refine ⟨div_pos hL hpos, ?_, ?_⟩
  · rw [div_le_iff₀ hpos]
    have h1 := (abs_le.mp hN).1
    generalize exactLen (v.map val) = L at *
    generalize val (B32.sqrt d) = N at *
    generalize (v.length : ℝ) * uu = t at *
    generalize uu = u at *
    have h2 : (1 - (6 / 10 * (t + u) + 11 / 10 * u)) * L ≤ N := by linarith
    have h3 : 1 ≤ (1 + 7 / 10 * t + 3 * u) * (1 - (6 / 10 * (t + u) + 11 / 10 * u)) := by nlinarith
    calc L = 1 * L := by ring
      _ ≤ (1 + 7 / 10 * t + 3 * u) * (1 - (6 / 10 * (t + u) + 11 / 10 * u)) * L :=
        mul_le_mul_of_nonneg_right h3 hL.le
      _ = (1 + 7 / 10 * t + 3 * u) * ((1 - (6 / 10 * (t + u) + 11 / 10 * u)) * L) := by ring
      _ ≤ _ := mul_le_mul_of_nonneg_left h2 (by linarith)
  · rw [le_div_iff₀ hpos]
    have h1 := (abs_le.mp hN).2
    generalize exactLen (v.map val) = L at *
    generalize val (B32.sqrt d) = N at *
    generalize (v.length : ℝ) * uu = t at *
    generalize uu = u at *
    have h2 : N ≤ (1 + (6 / 10 * (t + u) + 11 / 10 * u)) * L := by linarith
    have h3 : (1 - 7 / 10 * t - 3 * u) * (1 + (6 / 10 * (t + u) + 11 / 10 * u)) ≤ 1 := by nlinarith
    calc (1 - 7 / 10 * t - 3 * u) * N ≤ (1 - 7 / 10 * t - 3 * u) * ((1 + (6 / 10 * (t + u) + 11 / 10 * u)) * L) :=
          mul_le_mul_of_nonneg_left h2 (by linarith)
      _ = (1 - 7 / 10 * t - 3 * u) * (1 + (6 / 10 * (t + u) + 11 / 10 * u)) * L := by ring
      _ ≤ 1 * L := mul_le_mul_of_nonneg_right h3 hL.le
      _ = L := one_mul L

theorem abs_ratio_ranged {v : List F32} {d : F32} (hv : Ranged v d) {x : F32} (hx : x ∈ v) :
    |val x / val (B32.sqrt d)| ≤ 2 := by
  obtain ⟨_, _, hlo, _, _⟩ := norm_ranged hv
  obtain ⟨_, h, _⟩ := ratio_ranged hv
  obtain ⟨_, ht⟩ := pow_bound hv.length
  have hu := uu_pos
  have hpos : 0 < val (B32.sqrt d) := lt_of_lt_of_le (by positivity) hlo
  rw [abs_div, abs_of_pos hpos]
  refine (div_le_div_of_nonneg_right (abs_le_exactLen (List.mem_map_of_mem hx)) hpos.le).trans (h.trans ?_)
  have hu2 : uu ≤ 1 / 1000000 := by unfold uu; norm_num
  have htu : (v.length + 1 : ℝ) * uu = v.length * uu + uu := by ring
  rw [htu] at ht
  linarith

/-- Squares of numbers that are near. -/
theorem sq_near {a w : ℝ} (h : |w - a| ≤ uu * |a| + eta) :
    |w * w - a * a| ≤ 4 * uu * (a * a) + (2 : ℝ)⁻¹ ^ 250 := by
  have hu := uu_pos
  have he := eta_pos
  have hu2 : uu ≤ 1 / 1000 := by unfold uu; norm_num
  have h1 : |w + a| ≤ 2 * |a| + (uu * |a| + eta) := by
    have e : w + a = 2 * a + (w - a) := by ring
    rw [e]
    refine (abs_add_le _ _).trans ?_
    rw [abs_mul, abs_two]
    linarith
  have h2 : |w * w - a * a| = |w - a| * |w + a| := by
    rw [← abs_mul]; congr 1; ring
  have ha := abs_nonneg a
  have haa : a * a = |a| * |a| := (abs_mul_abs_self a).symm
  rw [h2, haa]
  have h3 : |w - a| * |w + a| ≤ (uu * |a| + eta) * (2 * |a| + (uu * |a| + eta)) :=
    mul_le_mul h h1 (abs_nonneg _) (by positivity)
  refine h3.trans ?_
  have hk : eta * eta * (2 * 2 ^ 24 + 1) ≤ (2 : ℝ)⁻¹ ^ 250 := by unfold eta; norm_num
  have hz : eta = uu * (eta * 2 ^ 24) := by unfold uu; ring
  have h4 : 2 * (|a| * eta) * (1 + uu) ≤ (3 / 2 * uu) * (|a| * |a|) + 2 * (eta * eta * 2 ^ 24) := by
    have h5 : 0 ≤ uu * (|a| - eta * 2 ^ 24) ^ 2 := by positivity
    have h6 : uu * (2 * |a| * (eta * 2 ^ 24)) = 2 * (|a| * eta) := by
      rw [show uu * (2 * |a| * (eta * 2 ^ 24)) = 2 * |a| * (uu * (eta * 2 ^ 24)) by ring, ← hz]; ring
    have h7 : uu * (eta * 2 ^ 24) ^ 2 = eta * eta * 2 ^ 24 := by
      rw [show uu * (eta * 2 ^ 24) ^ 2 = (uu * (eta * 2 ^ 24)) * (eta * 2 ^ 24) by ring, ← hz]; ring
    have h8 : 2 * (|a| * eta) ≤ uu * (|a| * |a|) + eta * eta * 2 ^ 24 := by nlinarith
    have h9 : 0 ≤ |a| * eta := by positivity
    have h10 : 0 ≤ uu * (|a| * |a|) := by positivity
    have h11 : 0 ≤ eta * eta * 2 ^ 24 := by positivity
    have h12 : 2 * (|a| * eta) * (1 + uu) ≤ (uu * (|a| * |a|) + eta * eta * 2 ^ 24) * (1 + 1 / 1000) :=
      mul_le_mul h8 (by linarith) (by linarith) (by linarith)
    linarith
  have h13 : 0 ≤ uu * (|a| * |a|) := by positivity
  have h14 : uu * uu * (|a| * |a|) ≤ 1 / 1000 * (uu * (|a| * |a|)) := by
    have := mul_le_mul_of_nonneg_right hu2 h13
    linarith
  nlinarith

theorem sum_sq_near {v w : List ℝ} {n : ℝ} (hl : w.length = v.length)
    (h : ∀ (t : Nat) x y, v[t]? = some x → w[t]? = some y → |y - x / n| ≤ uu * |x / n| + eta) :
    |exactDot w w - exactDot v v / n ^ 2| ≤ 4 * uu * (exactDot v v / n ^ 2) + v.length * (2 : ℝ)⁻¹ ^ 250 := by
  induction v generalizing w with
  | nil =>
    cases w with
    | nil => simp [exactDot]
    | cons y w => simp at hl
  | cons x v ih =>
    cases w with
    | nil => simp at hl
    | cons y w =>
      have h1 := ih (w := w) (by simpa using hl) fun t x y hx hy => h (t + 1) x y (by simpa) (by simpa)
      have h2 := sq_near (h 0 x y rfl rfl)
      rw [exactDot, exactDot, List.length_cons]
      have e : (x * x + exactDot v v) / n ^ 2 = x / n * (x / n) + exactDot v v / n ^ 2 := by
        rw [add_div]; congr 1; rw [div_mul_div_comm, sq]
      rw [e]
      push_cast
      have h3 := abs_add_le (y * y - x / n * (x / n)) (exactDot w w - exactDot v v / n ^ 2)
      rw [show y * y - x / n * (x / n) + (exactDot w w - exactDot v v / n ^ 2) =
        y * y + exactDot w w - (x / n * (x / n) + exactDot v v / n ^ 2) by ring] at h3
      linarith

/-- A moderate vector over its computed norm has length one up to rounding. -/
theorem unit_ranged {v : List F32} {d : F32} (hv : Ranged v d) {w : List F32}
    (hw : List.Forall₂ (fun x y => y = B32.div x (B32.sqrt d)) v w) :
    (∀ y ∈ w, Finite y) ∧
      (∀ (t : Nat) x y, v[t]? = some x → w[t]? = some y →
        |val y - val x / val (B32.sqrt d)| ≤ uu * |val x / val (B32.sqrt d)| + eta) ∧
      |exactLen (w.map val) - 1| ≤ (v.length + 8) * uu := by
  obtain ⟨hfn, hL, hlo, hhi, hN⟩ := norm_ranged hv
  obtain ⟨_, ht⟩ := pow_bound hv.length
  have hu := uu_pos
  have he := eta_pos
  have hpos : 0 < val (B32.sqrt d) := lt_of_lt_of_le (by positivity) hlo
  have hdiv : ∀ x ∈ v, Finite (B32.div x (B32.sqrt d)) ∧
      |val (B32.div x (B32.sqrt d)) - val x / val (B32.sqrt d)| ≤ uu * |val x / val (B32.sqrt d)| + eta := by
    intro x hx
    have hr := div_result (hv.fin x hx) hfn hpos.ne'
    have hlt : |val x / val (B32.sqrt d)| < overflow := by
      refine lt_of_le_of_lt ?_ overflow_gt
      refine (abs_ratio_ranged hv hx).trans ?_
      norm_num
    exact ⟨hr.fin hlt, hr.error hlt⟩
  have hall : ∀ (t : Nat) x y, v[t]? = some x → w[t]? = some y →
      |val y - val x / val (B32.sqrt d)| ≤ uu * |val x / val (B32.sqrt d)| + eta := by
    intro t x y hx hy
    obtain ⟨h1, rfl⟩ := List.getElem?_eq_some_iff.mp hx
    obtain ⟨h2, rfl⟩ := List.getElem?_eq_some_iff.mp hy
    have := (List.forall₂_iff_get.mp hw).2 t h1 h2
    simp only [List.get_eq_getElem] at this
    rw [this]
    exact (hdiv _ (List.getElem_mem h1)).2
  refine ⟨?_, hall, ?_⟩
  · intro y hy
    obtain ⟨t, ht, rfl⟩ := List.getElem_of_mem hy
    have h1 : t < v.length := by rw [hw.length_eq]; exact ht
    have := (List.forall₂_iff_get.mp hw).2 t h1 ht
    simp only [List.get_eq_getElem] at this
    rw [this]
    exact (hdiv _ (List.getElem_mem h1)).1
  have hs := sum_sq_near (v := v.map val) (w := w.map val) (n := val (B32.sqrt d))
    (by simp [hw.length_eq]) (by
      intro t x y hx hy
      rw [List.getElem?_map] at hx hy
      obtain ⟨a, ha, rfl⟩ := Option.map_eq_some_iff.mp hx
      obtain ⟨b, hb, rfl⟩ := Option.map_eq_some_iff.mp hy
      exact hall t a b ha hb)
  rw [List.length_map, ← exactLen_sq, ← exactLen_sq (v.map val), ← div_pow] at hs
  have hn : (v.length : ℝ) ≤ 2 ^ 20 := by exact_mod_cast hv.length
  have hw0 : 0 ≤ exactLen (w.map val) := Real.sqrt_nonneg _
  have hu2 : uu ≤ 1 / 1000000 := by unfold uu; norm_num
  have htu : (v.length + 1 : ℝ) * uu = v.length * uu + uu := by ring
  rw [htu] at hN ht
  have hgoal : (v.length + 8 : ℝ) * uu = v.length * uu + 8 * uu := by ring
  rw [hgoal]
  have hnu : 0 ≤ (v.length : ℝ) * uu := by positivity
  have habs : (v.length : ℝ) * (2 : ℝ)⁻¹ ^ 250 ≤ 1 / 10 * uu := by
    calc (v.length : ℝ) * (2 : ℝ)⁻¹ ^ 250 ≤ 2 ^ 20 * (2 : ℝ)⁻¹ ^ 250 :=
          mul_le_mul_of_nonneg_right hn (by positivity)
      _ ≤ 1 / 10 * uu := by unfold uu; norm_num
  obtain ⟨hr, hr1, hr2⟩ := ratio_ranged hv
  generalize exactLen (w.map val) = W at *
  generalize (v.length : ℝ) * uu = t at *
  generalize (v.length : ℝ) * (2 : ℝ)⁻¹ ^ 250 = z at *
  generalize uu = u at *
  generalize exactLen (v.map val) / val (B32.sqrt d) = r at *
  obtain ⟨h8, h9⟩ := abs_le.mp hs
  rw [abs_le]
  constructor
  · by_contra hc
    have h10 : W < 1 - t - 8 * u := by linarith
    have h11 : W ^ 2 < (1 - t - 8 * u) ^ 2 := pow_lt_pow_left₀ h10 hw0 (by norm_num)
    have h12 : (1 - 7 / 10 * t - 3 * u) ^ 2 ≤ r ^ 2 := pow_le_pow_left₀ (by linarith) hr2 2
    have h13 : (1 - 4 * u) * r ^ 2 - 1 / 10 * u ≤ W ^ 2 := by linarith
    have h14 : (1 - 4 * u) * (1 - 7 / 10 * t - 3 * u) ^ 2 ≤ (1 - 4 * u) * r ^ 2 :=
      mul_le_mul_of_nonneg_left h12 (by linarith)
    have h15 : 1 - 2 * (7 / 10 * t + 3 * u) ≤ (1 - 7 / 10 * t - 3 * u) ^ 2 := by
      have := sq_nonneg (7 / 10 * t + 3 * u)
      linarith
    have h16 := mul_le_mul_of_nonneg_left h15 (show 0 ≤ 1 - 4 * u by linarith)
    have h17 : 0 ≤ u * (7 / 10 * t + 3 * u) := mul_nonneg hu.le (by linarith)
    have h18 : (t + 8 * u) * (t + 8 * u) ≤ 7 / 100 * (t + 8 * u) :=
      mul_le_mul_of_nonneg_right (by linarith) (by linarith)
    linarith
  · by_contra hc
    have h10 : 1 + t + 8 * u < W := by linarith
    have h11 : (1 + t + 8 * u) ^ 2 < W ^ 2 := pow_lt_pow_left₀ h10 (by linarith) (by norm_num)
    have h12 : r ^ 2 ≤ (1 + 7 / 10 * t + 3 * u) ^ 2 := pow_le_pow_left₀ hr.le hr1 2
    have h13 : W ^ 2 ≤ (1 + 4 * u) * r ^ 2 + 1 / 10 * u := by linarith
    have h14 : (1 + 4 * u) * r ^ 2 ≤ (1 + 4 * u) * (1 + 7 / 10 * t + 3 * u) ^ 2 :=
      mul_le_mul_of_nonneg_left h12 (by linarith)
    have h15 : (7 / 10 * t + 3 * u) * (7 / 10 * t + 3 * u) ≤ 5 / 100 * (7 / 10 * t + 3 * u) :=
      mul_le_mul_of_nonneg_right (by linarith) (by linarith)
    have h16 : (1 + 7 / 10 * t + 3 * u) ^ 2 ≤ 1 + 205 / 100 * (7 / 10 * t + 3 * u) := by linarith
    have h17 := mul_le_mul_of_nonneg_left h16 (show 0 ≤ 1 + 4 * u by linarith)
    have h18 : u * (7 / 10 * t + 3 * u) ≤ u * (5 / 100) := mul_le_mul_of_nonneg_left (by linarith) hu.le
    have h19 := sq_nonneg (t + 8 * u)
    linarith

/-- Dividing by a number and multiplying by it again. -/
theorem restore_b32 {x n : F32} (hx : Finite x) (hn : Finite n) (hpos : 0 < val n)
    (hn2 : val n ≤ 2 ^ 65) (hh : |val x / val n| ≤ 2) :
    Finite (B32.mul (B32.div x n) n) ∧
      |val (B32.mul (B32.div x n) n) - val x| ≤ 3 * uu * |val x| + 2 * eta * (1 + val n) := by
  have hu := uu_pos
  have he := eta_pos
  have hr := div_result hx hn hpos.ne'
  have hov := overflow_gt
  have hlt : |val x / val n| < overflow := by
    exact lt_of_le_of_lt (hh.trans (by norm_num)) hov
  have hh : |val x| ≤ 2 ^ 66 := by
    rw [abs_div, abs_of_pos hpos, div_le_iff₀ hpos] at hh
    refine hh.trans ?_
    rw [pow_succ]
    linarith
  have h1 := hr.error hlt
  change _ ≤ uu * _ + eta at h1
  rw [abs_div, abs_of_pos hpos] at h1
  have h2 : |val (B32.div x n) * val n - val x| ≤ uu * |val x| + eta * val n := by
    have e : val (B32.div x n) * val n - val x = (val (B32.div x n) - val x / val n) * val n := by
      rw [sub_mul, div_mul_cancel₀ _ hpos.ne']
    rw [e, abs_mul, abs_of_pos hpos]
    calc _ ≤ (uu * (|val x| / val n) + eta) * val n := mul_le_mul_of_nonneg_right h1 hpos.le
      _ = _ := by rw [add_mul, mul_assoc, div_mul_cancel₀ _ hpos.ne']
  have h3 : |val (B32.div x n) * val n| ≤ |val x| + (uu * |val x| + eta * val n) := by
    have := abs_add_le (val x) (val (B32.div x n) * val n - val x)
    rw [add_sub_cancel] at this
    linarith
  have hu1 : uu ≤ 1 / 2 := by unfold uu; norm_num
  have hx0 := abs_nonneg (val x)
  have hm := mul_result (hr.fin hlt) hn
  have hlt2 : |val (B32.div x n) * val n| < overflow := by
    refine lt_of_le_of_lt (h3.trans ?_) hov
    have a1 : uu * |val x| ≤ 1 / 2 * 2 ^ 66 := mul_le_mul hu1 hh hx0 (by norm_num)
    have a2 : eta * val n ≤ 1 * 2 ^ 65 := mul_le_mul (by unfold eta; norm_num) hn2 hpos.le (by norm_num)
    calc _ ≤ (2 : ℝ) ^ 66 + (1 / 2 * 2 ^ 66 + 1 * 2 ^ 65) := by linarith
      _ ≤ 2 ^ 127 := by norm_num
  refine ⟨hm.fin hlt2, ?_⟩
  have h4 := hm.error hlt2
  change _ ≤ uu * _ + eta at h4
  have h5 := abs_add_le (val (B32.mul (B32.div x n) n) - val (B32.div x n) * val n)
    (val (B32.div x n) * val n - val x)
  rw [sub_add_sub_cancel] at h5
  have h6 : uu * |val (B32.div x n) * val n| ≤ uu * (|val x| + (uu * |val x| + eta * val n)) :=
    mul_le_mul_of_nonneg_left h3 hu.le
  have h7 : uu * (uu * |val x|) ≤ 1 / 2 * (uu * |val x|) := mul_le_mul_of_nonneg_right hu1 (by positivity)
  have h8 : uu * (eta * val n) ≤ 1 / 2 * (eta * val n) := mul_le_mul_of_nonneg_right hu1 (mul_nonneg he.le hpos.le)
  have h9 : 0 ≤ uu * |val x| := by positivity
  have h10 : 0 ≤ eta * val n := mul_nonneg he.le hpos.le
  linarith

/-! ### Similarities -/

theorem prods_zip₂ (v w : List F32) : prods (v.zip w) = List.zipWith (· * ·) (v.map val) (w.map val) := by
  unfold prods
  induction v generalizing w with
  | nil => rfl
  | cons x v ih =>
    cases w with
    | nil => rfl
    | cons y w => simpa using ih w

/-- Products of quotients. -/
theorem scaled_dot_eta {n m : ℝ} {v w r q : List ℝ} (hn : 0 < n) (hm : 0 < m)
    (hr : r.length = v.length) (hq : q.length = w.length)
    (hv : ∀ x ∈ v, |x / n| ≤ 2) (hw : ∀ x ∈ w, |x / m| ≤ 2)
    (h1 : ∀ (t : Nat) x y, v[t]? = some x → r[t]? = some y → |y - x / n| ≤ uu * |x / n| + eta)
    (h2 : ∀ (t : Nat) x y, w[t]? = some x → q[t]? = some y → |y - x / m| ≤ uu * |x / m| + eta) :
    |exactDot r q - exactDot v w / (n * m)| ≤ 3 * uu * (absDot v w / (n * m)) + v.length * (10 * eta) := by
  have hu := uu_pos
  have he := eta_pos
  have hu1 : uu ≤ 1 / 2 := by unfold uu; norm_num
  have he1 : eta ≤ 1 := by unfold eta; norm_num
  induction v generalizing w r q with
  | nil =>
    cases r with
    | nil => simp [exactDot, absDot, absSum]
    | cons y r => simp at hr
  | cons x v ih =>
    cases r with
    | nil => simp at hr
    | cons y r =>
    cases w with
    | nil =>
      cases q with
      | nil =>
        simp only [exactDot, zero_div, sub_self, abs_zero]
        have : 0 ≤ absDot (x :: v) [] := absDot_nonneg _ _
        positivity
      | cons z q => simp at hq
    | cons z w =>
    cases q with
    | nil => simp at hq
    | cons c q =>
      have hi := ih (w := w) (r := r) (q := q) (by simpa using hr) (by simpa using hq)
        (fun x hx => hv x (List.mem_cons_of_mem _ hx)) (fun x hx => hw x (List.mem_cons_of_mem _ hx))
        (fun t x y hx hy => h1 (t + 1) x y (by simpa) (by simpa))
        (fun t x y hx hy => h2 (t + 1) x y (by simpa) (by simpa))
      have a1 := h1 0 x y rfl rfl
      have a2 := h2 0 z c rfl rfl
      have b1 := hv x List.mem_cons_self
      have b2 := hw z List.mem_cons_self
      rw [exactDot, exactDot, absDot_cons, List.length_cons]
      have e1 : (x * z + exactDot v w) / (n * m) = x / n * (z / m) + exactDot v w / (n * m) := by
        rw [add_div]; congr 1; rw [div_mul_div_comm]
      have e2 : (|x| * |z| + absDot v w) / (n * m) = |x / n| * |z / m| + absDot v w / (n * m) := by
        rw [add_div]; congr 1; rw [abs_div, abs_div, abs_of_pos hn, abs_of_pos hm, div_mul_div_comm]
      rw [e1, e2]
      push_cast
      have h3 := abs_add_le (y * c - x / n * (z / m)) (exactDot r q - exactDot v w / (n * m))
      rw [show y * c - x / n * (z / m) + (exactDot r q - exactDot v w / (n * m)) =
        y * c + exactDot r q - (x / n * (z / m) + exactDot v w / (n * m)) by ring] at h3
      generalize x / n = a at *
      generalize z / m = b at *
      have ha := abs_nonneg a
      have hb := abs_nonneg b
      have h4 : |y * c - a * b| ≤ |y - a| * |c| + |a| * |c - b| := by
        rw [← abs_mul, ← abs_mul]
        have : y * c - a * b = (y - a) * c + a * (c - b) := by ring
        rw [this]
        exact abs_add_le _ _
      have h5 : |c| ≤ |b| + (uu * |b| + eta) := by
        have := abs_add_le b (c - b)
        rw [add_sub_cancel] at this
        linarith
      have h6 : |y - a| * |c| ≤ (uu * |a| + eta) * (|b| + (uu * |b| + eta)) :=
        mul_le_mul a1 h5 (abs_nonneg _) (by positivity)
      have h7 : |a| * |c - b| ≤ |a| * (uu * |b| + eta) := mul_le_mul_of_nonneg_left a2 ha
      have h8 : uu * (uu * (|a| * |b|)) ≤ 1 / 2 * (uu * (|a| * |b|)) :=
        mul_le_mul_of_nonneg_right hu1 (by positivity)
      have h9 : eta * |b| ≤ eta * 2 := mul_le_mul_of_nonneg_left b2 he.le
      have h10 : eta * |a| ≤ eta * 2 := mul_le_mul_of_nonneg_left b1 he.le
      have h11 : uu * (eta * |a|) ≤ 1 / 2 * (eta * |a|) := mul_le_mul_of_nonneg_right hu1 (mul_nonneg he.le ha)
      have h12 : uu * (eta * |b|) ≤ 1 / 2 * (eta * |b|) := mul_le_mul_of_nonneg_right hu1 (mul_nonneg he.le hb)
      have h13 : eta * eta ≤ 1 * eta := mul_le_mul_of_nonneg_right he1 he.le
      have h14 : 0 ≤ uu * (|a| * |b|) := by positivity
      linarith

/-- The score of two normalised vectors is the cosine of the originals. -/
theorem score_ranged {v w r q : List F32} (hlen : w.length = v.length) {dv dw s : F32} (hv : Ranged v dv)
    (hw : Ranged w dw)
    (hr : List.Forall₂ (fun x y => y = B32.div x (B32.sqrt dv)) v r)
    (hq : List.Forall₂ (fun x y => y = B32.div x (B32.sqrt dw)) w q) (hs : Dot (r.zip q) s) :
    Finite s ∧ |val s - exactCos (v.map val) (w.map val)| ≤ (3 * v.length + 16) * uu := by
  obtain ⟨f1, c1, l1⟩ := unit_ranged hv hr
  obtain ⟨f2, c2, l2⟩ := unit_ranged hw hq
  obtain ⟨_, L1, lo1, _, _⟩ := norm_ranged hv
  obtain ⟨_, L2, lo2, _, _⟩ := norm_ranged hw
  obtain ⟨p1, u1, d1⟩ := ratio_ranged hv
  obtain ⟨p2, u2, d2⟩ := ratio_ranged hw
  obtain ⟨hp, ht⟩ := pow_bound hv.length
  have hu := uu_pos
  have he := eta_pos
  have hN : 0 < val (B32.sqrt dv) := lt_of_lt_of_le (by positivity) lo1
  have hM : 0 < val (B32.sqrt dw) := lt_of_lt_of_le (by positivity) lo2
  rw [hlen] at l2 u2 d2
  have hn : (v.length : ℝ) ≤ 2 ^ 20 := by exact_mod_cast hv.length
  have hu2 : uu ≤ 1 / 1000000 := by unfold uu; norm_num
  have htu : (v.length + 1 : ℝ) * uu = v.length * uu + uu := by ring
  rw [htu] at hp ht
  have h8 : (v.length + 8 : ℝ) * uu = v.length * uu + 8 * uu := by ring
  rw [h8] at l1 l2
  have hgoal : (3 * v.length + 16 : ℝ) * uu = 3 * (v.length * uu) + 16 * uu := by ring
  rw [hgoal]
  have hnu : 0 ≤ (v.length : ℝ) * uu := by positivity
  have hlr : (r.zip q).length = v.length := by
    rw [List.length_zip, ← hr.length_eq, ← hq.length_eq, hlen, min_self]
  have hw1 : exactLen (r.map val) ≤ 107 / 100 := by linarith [(abs_le.mp l1).2]
  have hw2 : exactLen (q.map val) ≤ 107 / 100 := by linarith [(abs_le.mp l2).2]
  have hw0 : 0 ≤ exactLen (q.map val) := Real.sqrt_nonneg _
  have hA : absDot (r.map val) (q.map val) ≤ 1145 / 1000 :=
    (absDot_le _ _).trans ((mul_le_mul hw1 hw2 hw0 (by norm_num)).trans (by norm_num))
  have hA0 := absDot_nonneg (r.map val) (q.map val)
  have hP1 : (1 + uu) ^ v.length ≤ (1 + uu) ^ (v.length + 1) := pow_le_pow_right₀ (by linarith) (by omega)
  have hP0 : 1 ≤ (1 + uu) ^ v.length := one_le_pow₀ (by linarith)
  obtain ⟨hfs, hes⟩ := hs.error (fun p hp => by
      obtain ⟨a, b⟩ := List.of_mem_zip (a := p.1) (b := p.2) hp
      exact ⟨f1 _ a, f2 _ b⟩)
    (by rw [hlr]; linarith) (by
      rw [prods_zip₂]
      refine le_trans hA ?_
      norm_num)
  rw [hlr, prods_zip₂, ← exactDot_eq] at hes
  change _ ≤ ((1 + uu) ^ v.length - 1) * absDot (r.map val) (q.map val) + _ at hes
  have hz := scaled_dot_eta (v := v.map val) (w := w.map val) (r := r.map val) (q := q.map val) hN hM
    (by simp [hr.length_eq]) (by simp [hq.length_eq])
    (fun x hx => by
      rw [abs_div, abs_of_pos hN]
      refine (div_le_div_of_nonneg_right (abs_le_exactLen hx) hN.le).trans ?_
      linarith)
    (fun x hx => by
      rw [abs_div, abs_of_pos hM]
      refine (div_le_div_of_nonneg_right (abs_le_exactLen hx) hM.le).trans ?_
      linarith)
    (fun t x y hx hy => by
      rw [List.getElem?_map] at hx hy
      obtain ⟨a, ha, rfl⟩ := Option.map_eq_some_iff.mp hx
      obtain ⟨b, hb, rfl⟩ := Option.map_eq_some_iff.mp hy
      exact c1 t a b ha hb)
    (fun t x y hx hy => by
      rw [List.getElem?_map] at hx hy
      obtain ⟨a, ha, rfl⟩ := Option.map_eq_some_iff.mp hx
      obtain ⟨b, hb, rfl⟩ := Option.map_eq_some_iff.mp hy
      exact c2 t a b ha hb)
  rw [List.length_map] at hz
  refine ⟨hfs, ?_⟩
  have hcs := absDot_le (v.map val) (w.map val)
  have hcd := exactDot_abs_le (v.map val) (w.map val)
  unfold exactCos
  -- small numbers
  have habs1 : (v.length : ℝ) * (1 + uu) ^ v.length * eta ≤ 1 / 100 * uu := by
    calc (v.length : ℝ) * (1 + uu) ^ v.length * eta ≤ 2 ^ 20 * 2 * eta :=
          mul_le_mul_of_nonneg_right (mul_le_mul hn (by linarith) (by positivity) (by positivity)) he.le
      _ ≤ 1 / 100 * uu := by unfold eta uu; norm_num
  have habs2 : (v.length : ℝ) * (10 * eta) ≤ 1 / 100 * uu := by
    calc (v.length : ℝ) * (10 * eta) ≤ 2 ^ 20 * (10 * eta) := mul_le_mul_of_nonneg_right hn (by linarith)
      _ ≤ 1 / 100 * uu := by unfold eta uu; norm_num
  have hd1 : ((1 + uu) ^ v.length - 1) * absDot (r.map val) (q.map val) ≤
      108 / 100 * (v.length * uu + uu) * (1145 / 1000) :=
    mul_le_mul (by linarith) hA hA0 (by linarith)
  -- the ratio of the norms
  have hrho : exactDot (v.map val) (w.map val) / (val (B32.sqrt dv) * val (B32.sqrt dw)) =
      exactDot (v.map val) (w.map val) / (exactLen (v.map val) * exactLen (w.map val)) *
        (exactLen (v.map val) / val (B32.sqrt dv) * (exactLen (w.map val) / val (B32.sqrt dw))) := by
    have := hN.ne'; have := hM.ne'; have := L1.ne'; have := L2.ne'
    field_simp
  have hab : absDot (v.map val) (w.map val) / (val (B32.sqrt dv) * val (B32.sqrt dw)) ≤
      exactLen (v.map val) / val (B32.sqrt dv) * (exactLen (w.map val) / val (B32.sqrt dw)) := by
    rw [div_mul_div_comm]
    exact div_le_div_of_nonneg_right hcs (by positivity)
  have hc1 : |exactDot (v.map val) (w.map val) / (exactLen (v.map val) * exactLen (w.map val))| ≤ 1 := by
    rw [abs_div, abs_of_pos (mul_pos L1 L2), div_le_one (mul_pos L1 L2)]
    exact hcd
  rw [hrho] at hz
  generalize exactDot (v.map val) (w.map val) / (exactLen (v.map val) * exactLen (w.map val)) = C at *
  generalize absDot (v.map val) (w.map val) / (val (B32.sqrt dv) * val (B32.sqrt dw)) = B at *
  generalize exactLen (v.map val) / val (B32.sqrt dv) = a at *
  generalize exactLen (w.map val) / val (B32.sqrt dw) = b at *
  generalize ((1 + uu) ^ v.length - 1) * absDot (r.map val) (q.map val) = E1 at *
  generalize (v.length : ℝ) * (1 + uu) ^ v.length * eta = E2 at *
  generalize (v.length : ℝ) * (10 * eta) = E3 at *
  generalize (v.length : ℝ) * uu = t at *
  generalize uu = u at *
  generalize exactDot (r.map val) (q.map val) = Z at *
  have hκ0 : 0 ≤ 7 / 10 * t + 3 * u := by linarith
  have hκ1 : 7 / 10 * t + 3 * u ≤ 5 / 100 := by linarith
  have r1 : a * b ≤ (1 + 7 / 10 * t + 3 * u) * (1 + 7 / 10 * t + 3 * u) :=
    mul_le_mul u1 u2 p2.le (by linarith)
  have r2 : (1 - 7 / 10 * t - 3 * u) * (1 - 7 / 10 * t - 3 * u) ≤ a * b :=
    mul_le_mul d1 d2 (by linarith) p1.le
  have r3 : (7 / 10 * t + 3 * u) * (7 / 10 * t + 3 * u) ≤ 5 / 100 * (7 / 10 * t + 3 * u) :=
    mul_le_mul_of_nonneg_right hκ1 hκ0
  have r4 := mul_self_nonneg (7 / 10 * t + 3 * u)
  have hab1 : |a * b - 1| ≤ 205 / 100 * (7 / 10 * t + 3 * u) := by
    rw [abs_le]
    constructor <;> linarith
  have hCab : |C * (a * b) - C| ≤ 205 / 100 * (7 / 10 * t + 3 * u) := by
    have e : C * (a * b) - C = C * (a * b - 1) := by ring
    rw [e, abs_mul]
    calc |C| * |a * b - 1| ≤ 1 * (205 / 100 * (7 / 10 * t + 3 * u)) :=
          mul_le_mul hc1 hab1 (abs_nonneg _) (by norm_num)
      _ = _ := one_mul _
  have hB : 3 * u * B ≤ 3 * u * (12 / 10) := by
    refine mul_le_mul_of_nonneg_left (hab.trans ?_) (by linarith)
    linarith [(abs_le.mp hab1).2]
  have t1 := abs_add_le (val s - Z) (Z - C * (a * b))
  have t2 := abs_add_le (val s - C * (a * b)) (C * (a * b) - C)
  rw [sub_add_sub_cancel] at t1 t2
  linarith

/-! ### Underflow -/

/-- Numbers up to half of the smallest positive one are rounded to zero. -/
theorem RoundsTo.tiny {x : ℝ} {b : F32} (h : RoundsTo x b) (hx : |x| ≤ (2 : ℝ)⁻¹ ^ 150) :
    Finite b ∧ val b = 0 := by
  have hov : (2 : ℝ)⁻¹ ^ 150 < overflow := lt_trans (by norm_num) overflow_gt
  rcases h with ⟨_, h2, h3⟩ | ⟨h, _⟩ | ⟨h, _⟩
  · refine ⟨h2, ?_⟩
    by_contra hne
    obtain ⟨h4, h5⟩ := h3 0 finite_zero
    rw [val_zero, zero_sub, abs_neg] at h4 h5
    have h6 : |val b| ≤ 2 * |x| := by
      have := abs_add_le (val b - x) x
      rw [sub_add_cancel] at this
      linarith
    have hb := abs_val b
    have hm : mag (mant b) ≠ 0 := fun h => hne (val_zero_iff.mpr (mag_zero_iff.mp h))
    have hm1 : (1 : ℝ) ≤ mag (mant b) := by exact_mod_cast Nat.pos_of_ne_zero hm
    have e : (2 : ℝ)⁻¹ ^ 150 * 2 = 1 / 2 ^ 149 := by
      rw [inv_pow, show (150 : Nat) = 149 + 1 by rfl, pow_succ]
      field_simp
    have h7 : 1 / (2 : ℝ) ^ 149 ≤ |val b| := by
      rw [hb]
      exact div_le_div_of_nonneg_right hm1 (by positivity)
    have h8 : |val b| = 1 / 2 ^ 149 := by linarith
    have h9 : |val b - x| = |x| := by
      have := abs_sub_abs_le_abs_sub (val b) x
      linarith
    rcases h5 h9 with h | h
    · exact hne h
    · rw [hb, div_left_inj' (by positivity)] at h8
      have h10 : mag (mant b) = 1 := by exact_mod_cast h8
      have h11 : mant b = 1 := by
        unfold mag at h10
        split at h10
        · exact h10
        · have := Nat.le_mul_of_pos_right (2 ^ 23 + mant b % 2 ^ 23) (Nat.two_pow_pos (mant b / 2 ^ 23 - 1))
          omega
      unfold fr at h
      unfold mant at h11
      omega
  · linarith [le_abs_self x]
  · linarith [neg_abs_le x]

/-- Components of `2⁻⁷⁵` or less make every sum of squares zero. -/
theorem Dot.underflow {ps : List (F32 × F32)} {a : F32} (h : Dot ps a)
    (hf : ∀ p ∈ ps, Finite p.1 ∧ p.2 = p.1 ∧ |val p.1| ≤ (2 : ℝ)⁻¹ ^ 75) : Finite a ∧ val a = 0 := by
  have sq_le : ∀ {x : F32}, |val x| ≤ (2 : ℝ)⁻¹ ^ 75 → |val x * val x| ≤ (2 : ℝ)⁻¹ ^ 150 := by
    intro x hx
    rw [abs_mul, show (2 : ℝ)⁻¹ ^ 150 = 2⁻¹ ^ 75 * 2⁻¹ ^ 75 by rw [← pow_add]]
    exact mul_le_mul hx hx (abs_nonneg _) (by positivity)
  induction h with
  | nil => exact ⟨finite_zero, val_zero⟩
  | mul x y =>
    obtain ⟨hx, he, hs⟩ := hf _ (List.mem_singleton.mpr rfl)
    simp only at hx he hs
    subst he
    exact (mul_result hx hx).rounds.tiny (sq_le hs)
  | @fma x y ps a h ih =>
    obtain ⟨hx, he, hs⟩ := hf _ List.mem_cons_self
    simp only at hx he hs
    subst he
    obtain ⟨h1, h2⟩ := ih fun p hp => hf p (List.mem_cons_of_mem _ hp)
    exact (fma_result hx hx h1).rounds.tiny (by rw [h2, add_zero]; exact sq_le hs)
  | @add ps qs a b _ _ iha ihb =>
    obtain ⟨h1, h2⟩ := iha fun p hp => hf p (List.mem_append_left _ hp)
    obtain ⟨g1, g2⟩ := ihb fun p hp => hf p (List.mem_append_right _ hp)
    exact (add_result h1 g1).1.rounds.tiny (by rw [h2, g2, add_zero, abs_zero]; positivity)
  | perm hp _ ih => exact ih fun p h => hf p (hp.mem_iff.mp h)

theorem nan_nan : NaN B32.nan := by unfold NaN; decide

theorem div_posInf {x : F32} (h : Finite x) : Finite (B32.div x posInf) ∧ val (B32.div x posInf) = 0 := by
  obtain ⟨h1, h2⟩ := not_nan_inf h
  have i : isInf posInf = true := by decide
  have n : isNaN posInf = false := by decide
  have : B32.div x posInf = mk (sign x != sign posInf) 0 := by
    unfold B32.div
    simp [h1, h2, i, n]
  rw [this]
  refine ⟨finite_mk _ (by decide), ?_⟩
  rw [val_zero_iff, mant_mk _ (by decide)]

theorem zero_mul_posInf {x : F32} (h : Finite x) (h0 : val x = 0) : NaN (B32.mul x posInf) := by
  obtain ⟨h1, h2⟩ := not_nan_inf h
  have i : isInf posInf = true := by decide
  have n : isNaN posInf = false := by decide
  have : B32.mul x posInf = B32.nan := by
    unfold B32.mul
    simp [h1, h2, i, n, val_zero_iff.mp h0]
  rw [this]
  exact nan_nan

theorem div_zero_b32 {x n : F32} (h : Finite x) (hn : Finite n) (h0 : val n = 0) :
    (val x ≠ 0 → B32.div x n = posInf ∨ B32.div x n = negInf) ∧ (val x = 0 → NaN (B32.div x n)) := by
  obtain ⟨h1, h2⟩ := not_nan_inf h
  obtain ⟨h3, h4⟩ := not_nan_inf hn
  have hm := val_zero_iff.mp h0
  constructor
  · intro hx
    have hmx : mant x ≠ 0 := fun h => hx (val_zero_iff.mpr h)
    have : B32.div x n = mk (sign x != sign n) B32.inf := by
      unfold B32.div
      simp [h1, h2, h3, h4, hm, hmx]
    rw [this]
    cases (sign x != sign n)
    · exact Or.inl mk_posInf
    · exact Or.inr mk_negInf
  · intro hx
    have : B32.div x n = B32.nan := by
      unfold B32.div
      simp [h1, h2, h3, h4, hm, val_zero_iff.mp hx]
    rw [this]
    exact nan_nan

theorem inf_mul_zero {y n : F32} (hn : Finite n) (h0 : val n = 0) (hy : y = posInf ∨ y = negInf ∨ NaN y) :
    NaN (B32.mul y n) := by
  obtain ⟨h3, h4⟩ := not_nan_inf hn
  have hm := val_zero_iff.mp h0
  have : B32.mul y n = B32.nan := by
    unfold B32.mul
    rcases hy with rfl | rfl | hy
    · have i : isInf posInf = true := by decide
      have n : isNaN posInf = false := by decide
      simp [h3, h4, hm, i, n]
    · have i : isInf negInf = true := by decide
      have n : isNaN negInf = false := by decide
      simp [h3, h4, hm, i, n]
    · simp [isNaN_iff.mpr hy]
  rw [this]
  exact nan_nan

theorem sqrt_zero_b32 {d : F32} (hd : Finite d) (h0 : val d = 0) : B32.sqrt d = d := by
  obtain ⟨h3, h4⟩ := not_nan_inf hd
  unfold B32.sqrt
  simp [h3, val_zero_iff.mp h0]

end F32

end FF
