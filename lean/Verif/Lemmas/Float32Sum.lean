import Verif.Lemmas.Float32Vec
import Verif.Spec.FastText
/-! Sums of rows and analogies in binary32. -/

namespace FF

open B32

namespace F32

variable [NumOps F32]

/-- `numpy` additions that do not overflow. -/
theorem add_b32 (hB : Binary32) {a b : F32} (ha : Finite a) (hb : Finite b) (h : |val a + val b| ≤ 2 ^ 127) :
    Finite (NumOps.add a b) ∧ Near uu (val a + val b) (val (NumOps.add a b)) := by
  obtain ⟨h1, h2⟩ := add_result ha hb
  have hlt : |val a + val b| < overflow := lt_of_le_of_lt h overflow_gt
  have hf := h1.fin hlt
  rw [(hB.add a b).eq hf.not_nan]
  exact ⟨hf, h2 hlt⟩

theorem sub_b32 (hB : Binary32) {a b : F32} (ha : Finite a) (hb : Finite b) (h : |val a - val b| ≤ 2 ^ 127) :
    Finite (NumOps.sub a b) ∧ Near uu (val a - val b) (val (NumOps.sub a b)) := by
  obtain ⟨h1, h2⟩ := sub_result ha hb
  have hlt : |val a - val b| < overflow := lt_of_le_of_lt h overflow_gt
  have hf := h1.fin hlt
  rw [(hB.sub a b).eq hf.not_nan]
  exact ⟨hf, h2 hlt⟩

omit [NumOps F32] in
/-- Computed sums of few numbers are at most twice the sum of the absolute values. -/
theorem rsum_abs_le {as : List ℝ} {r : ℝ} (h : RSum uu as r) (hm : (1 + uu) ^ as.length ≤ 2) :
    |r| ≤ 2 * absSum as := by
  have hu := uu_pos
  have h1 := h.error hu.le
  have h2 := abs_sum_le as
  have h3 := absSum_nonneg as
  have h4 : (1 + uu) ^ (as.length - 1) ≤ 2 :=
    le_trans (pow_le_pow_right₀ (by linarith) (by omega)) hm
  have h5 : ((1 + uu) ^ (as.length - 1) - 1) * absSum as ≤ 1 * absSum as :=
    mul_le_mul_of_nonneg_right (by linarith) h3
  have := abs_add_le (r - as.sum) as.sum
  rw [sub_add_cancel] at this
  linarith

theorem foldl_b32 (hB : Binary32) (xs : List F32) (a : F32) (as : List ℝ) (hne : as ≠ []) (ha : Finite a)
    (h : RSum uu as (val a)) (hf : ∀ x ∈ xs, Finite x) (hm : (1 + uu) ^ (as.length + xs.length) ≤ 2)
    (hA : absSum (as ++ xs.map val) ≤ 2 ^ 125) :
    Finite (xs.foldl NumOps.add a) ∧ RSum uu (as ++ xs.map val) (val (xs.foldl NumOps.add a)) := by
  induction xs generalizing a as with
  | nil => simpa using ⟨ha, h⟩
  | cons x xs ih =>
    have hu := uu_pos
    have hx := hf x List.mem_cons_self
    have h1 := rsum_abs_le h (le_trans (pow_le_pow_right₀ (by linarith) (by omega)) hm)
    have hA' : absSum as + (|val x| + absSum (xs.map val)) ≤ 2 ^ 125 := by
      rw [absSum_append] at hA
      have : absSum ((x :: xs).map val) = |val x| + absSum (xs.map val) := by simp [absSum]
      rwa [this] at hA
    have h2 := absSum_nonneg (xs.map val)
    have h3 := absSum_nonneg as
    have h4 := abs_nonneg (val x)
    obtain ⟨h5, h6⟩ := add_b32 hB ha hx (by
      refine (abs_add_le _ _).trans ?_
      rw [show (2 : ℝ) ^ 127 = 4 * 2 ^ 125 by rw [show (127 : Nat) = 125 + 2 by rfl, pow_add]; ring]
      linarith)
    have := ih (NumOps.add a x) (as ++ [val x]) (by simp) h5 (.add hne (by simp) h (.one _) h6)
      (fun y hy => hf y (List.mem_cons_of_mem _ hy)) (by
        refine le_of_eq_of_le ?_ hm
        congr 1
        simp only [List.length_append, List.length_cons, List.length_nil]
        omega) (by simpa using hA)
    simpa using this

/-- Sums from left to right of finite numbers: nothing overflows, and every addition is rounded. -/
theorem sum_b32 (hB : Binary32) (xs : List F32) (hf : ∀ x ∈ xs, Finite x) (hm : (1 + uu) ^ xs.length ≤ 2)
    (hA : absSum (xs.map val) ≤ 2 ^ 125) :
    Finite (numSum xs) ∧ RSum uu (xs.map val) (val (numSum xs)) := by
  cases xs with
  | nil =>
    have : (numSum ([] : List F32)) = 0 := hB.zero
    rw [this, val_zero]
    exact ⟨finite_zero, .nil⟩
  | cons x xs =>
    refine foldl_b32 hB xs x [val x] (by simp) (hf x List.mem_cons_self) (.one _)
      (fun y hy => hf y (List.mem_cons_of_mem _ hy)) ?_ hA
    refine le_of_eq_of_le ?_ hm
    congr 1
    simp only [List.length_cons, List.length_nil]
    omega

omit [NumOps F32] in
theorem absSum_le_mul {xs : List ℝ} {B : ℝ} (h : ∀ x ∈ xs, |x| ≤ B) : absSum xs ≤ xs.length * B := by
  induction xs with
  | nil => simp [absSum]
  | cons x xs ih =>
    have h1 := h x List.mem_cons_self
    have h2 := ih fun y hy => h y (List.mem_cons_of_mem _ hy)
    have : absSum (x :: xs) = |x| + absSum xs := by simp [absSum]
    rw [this, List.length_cons]
    push_cast
    linarith

omit [NumOps F32] in
theorem pow_le_two {n : Nat} (h : n ≤ 2 ^ 20) : (1 + uu) ^ n ≤ 2 := by
  have hu := uu_pos
  obtain ⟨h1, h2⟩ := pow_bound h
  have h3 : (1 + uu) ^ n ≤ (1 + uu) ^ (n + 1) := pow_le_pow_right₀ (by linarith) (by omega)
  linarith

/-- Sums of at most `2²⁰` numbers of at most `2³¹`. -/
theorem sum_moderate (hB : Binary32) (xs : List F32) (hf : ∀ x ∈ xs, Finite x) (hl : xs.length ≤ 2 ^ 20)
    (hh : ∀ x ∈ xs, |val x| ≤ 2 ^ 31) :
    Finite (numSum xs) ∧ |val (numSum xs)| ≤ 2 ^ 52 ∧
      |val (numSum xs) - (xs.map val).sum| ≤
        ((1 + uu) ^ (xs.length - 1) - 1) * (xs.map fun x => |val x|).sum := by
  have hu := uu_pos
  have hA : absSum (xs.map val) ≤ 2 ^ 51 := by
    refine (absSum_le_mul (B := 2 ^ 31) ?_).trans ?_
    · intro y hy
      obtain ⟨x, hx, rfl⟩ := List.mem_map.mp hy
      exact hh x hx
    · rw [List.length_map]
      have : (xs.length : ℝ) ≤ 2 ^ 20 := by exact_mod_cast hl
      calc (xs.length : ℝ) * 2 ^ 31 ≤ 2 ^ 20 * 2 ^ 31 := mul_le_mul_of_nonneg_right this (by positivity)
        _ = 2 ^ 51 := by norm_num
  have hm := pow_le_two hl
  obtain ⟨h1, h2⟩ := sum_b32 hB xs hf hm (hA.trans (by norm_num))
  refine ⟨h1, ?_, ?_⟩
  · have := rsum_abs_le h2 (by rw [List.length_map]; exact hm)
    refine this.trans ?_
    calc 2 * absSum (xs.map val) ≤ 2 * 2 ^ 51 := by linarith
      _ = 2 ^ 52 := by norm_num
  · have := h2.error hu.le
    rw [List.length_map] at this
    simpa [absSum, Function.comp_def] using this

/-- `z + (y - x)` -/
theorem offset_b32 (hB : Binary32) {x y z : F32} (hx : Finite x) (hy : Finite y) (hz : Finite z)
    (bx : |val x| ≤ 2 ^ 50) (bz : |val z| ≤ 2 ^ 50) (bY : |val y| ≤ 2 ^ 50) :
    Finite (NumOps.add z (NumOps.sub y x)) ∧ |val (NumOps.add z (NumOps.sub y x))| ≤ 2 ^ 52 ∧
      |val (NumOps.add z (NumOps.sub y x)) - (val z + (val y - val x))| ≤
        uu * |val y - val x| + uu * (|val z| + (1 + uu) * |val y - val x|) := by
  have hu := uu_pos
  have hu1 : uu ≤ 1 / 1000 := by unfold uu; norm_num
  have big : (4 : ℝ) * 2 ^ 50 ≤ 2 ^ 127 := by norm_num
  have h50 : (0 : ℝ) ≤ 2 ^ 50 := by positivity
  have e1 : |val y - val x| ≤ 2 * 2 ^ 50 := by
    have := abs_sub (val y) (val x)
    linarith
  obtain ⟨f1, n1⟩ := sub_b32 hB hy hx (by linarith)
  have a1 := n1.abs_le
  have a2 : (1 + uu) * |val y - val x| ≤ (1 + 1 / 1000) * (2 * 2 ^ 50) :=
    mul_le_mul (by linarith) e1 (abs_nonneg _) (by norm_num)
  have e2 := abs_add_le (val z) (val (NumOps.sub y x))
  obtain ⟨f2, n2⟩ := add_b32 hB hz f1 (by linarith)
  have a3 := n2.abs_le
  refine ⟨f2, ?_, ?_⟩
  · refine a3.trans ?_
    calc (1 + uu) * |val z + val (NumOps.sub y x)| ≤ (1 + 1 / 1000) * (2 ^ 50 + (1 + 1 / 1000) * (2 * 2 ^ 50)) :=
          mul_le_mul (by linarith) (by linarith) (abs_nonneg _) (by norm_num)
      _ ≤ 2 ^ 52 := by norm_num
  · unfold Near at n1 n2
    have : val (NumOps.add z (NumOps.sub y x)) - (val z + (val y - val x)) =
        (val (NumOps.add z (NumOps.sub y x)) - (val z + val (NumOps.sub y x))) +
          (val (NumOps.sub y x) - (val y - val x)) := by ring
    rw [this]
    refine (abs_add_le _ _).trans ?_
    have : uu * |val z + val (NumOps.sub y x)| ≤ uu * (|val z| + (1 + uu) * |val y - val x|) :=
      mul_le_mul_of_nonneg_left (by linarith) hu.le
    linarith

/-- Moderate vectors have norms in range. -/
theorem inRange_moderate {v : List F32} (hv : Moderate v) {n d : F32} (hd : Dot (v.zip v) d)
    (hn : Same n (B32.sqrt d)) : NormInRange v n := by
  have hr := ranged_moderate hv hd
  obtain ⟨h1, h2, _, _, h5⟩ := norm_ranged hr
  rw [hn.eq h1.not_nan]
  refine ⟨hv.fin, hv.length, h1, ?_⟩
  obtain ⟨_, ht⟩ := pow_bound hv.length
  have hu2 : uu ≤ 1 / 1000000 := by unfold uu; norm_num
  have h6 := (abs_le.mp h5).1
  have hlow := hv.low
  generalize (v.length + 1 : ℝ) * uu = t at *
  have h7 : (1 : ℝ) / 2 * exactLen (v.map val) ≤ (1 - (6 / 10 * t + 11 / 10 * uu)) * exactLen (v.map val) :=
    mul_le_mul_of_nonneg_right (by linarith) h2.le
  have e : (2 : ℝ)⁻¹ ^ 60 = 1 / 2 * 2⁻¹ ^ 59 := by norm_num
  rw [e]
  linarith

theorem norm_b32 (hB : Binary32) {v : List F32} (hv : NormInRange v (NumOps.norm v)) :
    ∃ d, Ranged v d ∧ NumOps.norm v = B32.sqrt d := by
  obtain ⟨d, hd, h⟩ := hB.norm v
  exact ⟨d, ranged_inRange hv hd h⟩

theorem normAxis_b32 (hB : Binary32) {v : List F32} (hv : NormInRange v (NumOps.normAxis v)) :
    ∃ d, Ranged v d ∧ NumOps.normAxis v = B32.sqrt d := by
  obtain ⟨d, hd, h⟩ := hB.normAxis v
  exact ⟨d, ranged_inRange hv hd h⟩

end F32

end FF
