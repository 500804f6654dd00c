import Verif.Lemmas.Float32FastText
import Verif.Lemmas.Quant
import Verif.Lemmas.StorageRows
import Verif.Spec.QuantFloat
/-!
# Rounding errors of quantized vectors
-/

namespace FF

open F32

theorem concat_mem {K : Type} {pq : PQ K} {codes : List UInt8} {u : List K} (h : IsConcat pq codes u) :
    ∀ x ∈ u, ∃ m ∈ pq.quantizers, ∃ r ∈ m, x ∈ r := by
  intro x hx
  obtain ⟨t, ht, rfl⟩ := List.getElem_of_mem hx
  have hl := h.1
  have hsub : 0 < pq.sub := by
    rcases Nat.eq_zero_or_pos pq.sub with h0 | h0
    · rw [h0, Nat.mul_zero] at hl; omega
    · exact h0
  have hj : t / pq.sub < pq.quantizers.length := Nat.div_lt_of_lt_mul (by rw [Nat.mul_comm, ← hl]; exact ht)
  obtain ⟨c, cent, h1, h2, h3⟩ := h.2 _ _ (List.getElem?_eq_getElem hj)
  have := h3 _ (Nat.mod_lt t hsub)
  rw [Nat.mul_comm, Nat.div_add_mod, List.getElem?_eq_getElem ht] at this
  exact ⟨_, List.getElem_mem hj, cent, List.mem_of_getElem? h2, List.mem_of_getElem? this.symm⟩

/-- The sum of the products of two mild vectors -/
theorem mild_dot {u p : List F32} (hu : ∀ x ∈ u, Mild x) (hp : ∀ x ∈ p, Mild x) (hl : u.length ≤ 2 ^ 20) {d : F32}
    (hd : Dot (u.zip p) d) :
    Finite d ∧ |val d| ≤ 2 ^ 82 ∧ |val d - exactDot (u.map val) (p.map val)| ≤
      ((1 + uu) ^ u.length - 1) * (exactLen (u.map val) * exactLen (p.map val)) +
        u.length * (1 + uu) ^ u.length * eta := by
  have hU := uu_pos
  have hE := eta_pos
  have hlen : (u.zip p).length ≤ u.length := by rw [List.length_zip]; exact min_le_left _ _
  have hmem : ∀ q ∈ u.zip p, Mild q.1 ∧ Mild q.2 := fun q hq => ⟨hu _ (List.of_mem_zip hq).1, hp _ (List.of_mem_zip hq).2⟩
  have hpow : (1 + uu) ^ (u.zip p).length ≤ (1 + uu) ^ u.length := pow_le_pow_right₀ (by linarith) hlen
  have hpow2 := pow_le_two hl
  have hone : (1 : ℝ) ≤ (1 + uu) ^ (u.zip p).length := one_le_pow₀ (by linarith)
  have hA : absSum (prods (u.zip p)) ≤ 2 ^ 80 := by
    have h1 : absSum (prods (u.zip p)) ≤ (prods (u.zip p)).length * ((2 : ℝ) ^ 60) := by
      refine absSum_le_mul fun x hx => ?_
      obtain ⟨q, hq, rfl⟩ := List.mem_map.mp hx
      obtain ⟨a, b⟩ := hmem q hq
      rw [abs_mul, show (2 : ℝ) ^ 60 = 2 ^ 30 * 2 ^ 30 by rw [← pow_add]]
      exact mul_le_mul a.2 b.2 (abs_nonneg _) (by positivity)
    have h2 : ((prods (u.zip p)).length : ℝ) ≤ 2 ^ 20 := by
      have : (prods (u.zip p)).length ≤ 2 ^ 20 := by unfold prods; rw [List.length_map]; omega
      exact_mod_cast this
    refine h1.trans ((mul_le_mul_of_nonneg_right h2 (by positivity)).trans (le_of_eq ?_))
    rw [← pow_add]
  have hCS : absSum (prods (u.zip p)) ≤ exactLen (u.map val) * exactLen (p.map val) := by
    rw [prods_zip₂]
    exact absDot_le _ _
  have hA0 := absSum_nonneg (prods (u.zip p))
  have hsum : (prods (u.zip p)).sum = exactDot (u.map val) (p.map val) := by rw [prods_zip₂, exactDot_eq]
  obtain ⟨h1, h2⟩ := hd.error (fun q hq => ⟨(hmem q hq).1.1, (hmem q hq).2.1⟩) (hpow.trans hpow2)
    (hA.trans (by norm_num))
  have hlenr : ((u.zip p).length : ℝ) ≤ u.length := by exact_mod_cast hlen
  have hur : (u.length : ℝ) ≤ 2 ^ 20 := by exact_mod_cast hl
  have hd0 := abs_sum_le (prods (u.zip p))
  have hmul : ((u.zip p).length : ℝ) * (1 + uu) ^ (u.zip p).length ≤ u.length * (1 + uu) ^ u.length :=
    mul_le_mul hlenr hpow (by positivity) (by positivity)
  refine ⟨h1, ?_, ?_⟩
  · have e : val d = (prods (u.zip p)).sum + (val d - (prods (u.zip p)).sum) := by ring
    rw [e]
    refine (abs_add_le _ _).trans ((add_le_add hd0 h2).trans ?_)
    have b1 : ((1 + uu) ^ (u.zip p).length - 1) * absSum (prods (u.zip p)) ≤ 1 * 2 ^ 80 :=
      mul_le_mul (by linarith) hA hA0 (by norm_num)
    have b2 : ((u.zip p).length : ℝ) * (1 + uu) ^ (u.zip p).length * eta ≤ 2 ^ 21 * 1 := by
      refine mul_le_mul ?_ (by unfold eta; norm_num) hE.le (by positivity)
      refine (mul_le_mul (hlenr.trans hur) (hpow.trans hpow2) (by positivity) (by positivity)).trans (le_of_eq (by norm_num))
    linarith
  · rw [← hsum]
    refine h2.trans (add_le_add ?_ ?_)
    · exact mul_le_mul (by linarith) hCS hA0 (by linarith)
    · exact mul_le_mul_of_nonneg_right hmul hE.le

theorem scale_err {n d D A e t : ℝ} {u y h : ℝ} (hu : 0 ≤ u) (h1 : |d - D| ≤ e * A + t) (hD : |D| ≤ A)
    (h2 : |y - n * d| ≤ u * |n * d| + h) :
    |y - n * D| ≤ |n| * (((1 + u) * (1 + e) - 1) * A + (1 + u) * t) + h := by
  have a1 : |d| ≤ A + (e * A + t) := by
    have : d = D + (d - D) := by ring
    rw [this]
    exact (abs_add_le _ _).trans (add_le_add hD h1)
  have a2 : y - n * D = (y - n * d) + n * (d - D) := by ring
  rw [a2]
  refine (abs_add_le _ _).trans ?_
  rw [abs_mul] at h2 ⊢
  have a3 : |n| * |d - D| ≤ |n| * (e * A + t) := mul_le_mul_of_nonneg_left h1 (abs_nonneg n)
  have a4 : u * (|n| * |d|) ≤ u * (|n| * (A + (e * A + t))) :=
    mul_le_mul_of_nonneg_left (mul_le_mul_of_nonneg_left a1 (abs_nonneg n)) hu
  nlinarith

theorem scale_total {m : Nat} (hm : m ≤ 2 ^ 20) {n A : ℝ} (hA : 0 ≤ A) :
    |n| * (((1 + uu) * (1 + ((1 + uu) ^ m - 1)) - 1) * A + (1 + uu) * (m * (1 + uu) ^ m * eta)) + eta ≤
      2 * (m + 1) * (2⁻¹ ^ 24 * (|n| * A) + 2⁻¹ ^ 149 * (|n| + 1)) := by
  have hU := uu_pos
  have hE := eta_pos
  obtain ⟨h1, h2⟩ := pow_bound hm
  have e1 : (1 + uu) * (1 + ((1 + uu) ^ m - 1)) = (1 + uu) ^ (m + 1) := by ring
  have e2 : (1 + uu) * (m * (1 + uu) ^ m * eta) = m * eta * (1 + uu) ^ (m + 1) := by ring
  have e3 : (2 : ℝ)⁻¹ ^ 149 = 2 * eta := by unfold eta; norm_num
  rw [e1, e2, e3]
  change _ ≤ 2 * ((m : ℝ) + 1) * (uu * (|n| * A) + 2 * eta * (|n| + 1))
  generalize (1 + uu) ^ (m + 1) = P at *
  have hn := abs_nonneg n
  have hm0 : (0 : ℝ) ≤ m := by positivity
  have a1 : |n| * ((P - 1) * A) ≤ |n| * ((2 * ((m + 1 : ℝ) * uu)) * A) := by
    refine mul_le_mul_of_nonneg_left (mul_le_mul_of_nonneg_right ?_ hA) hn
    nlinarith
  have a2 : |n| * (m * eta * P) ≤ |n| * (m * eta * 2) := by
    refine mul_le_mul_of_nonneg_left (mul_le_mul_of_nonneg_left (by linarith) (by positivity)) hn
  have a3 : 0 ≤ |n| * (m * eta) := by positivity
  have a4 : 0 ≤ |n| * eta := by positivity
  have a5 : 0 ≤ m * eta := by positivity
  nlinarith

/-- The product with the norm -/
theorem mild_scaled [NumOps F32] (hB : Binary32) {u p : List F32} (hu : ∀ x ∈ u, Mild x) (hp : ∀ x ∈ p, Mild x)
    (hl : u.length ≤ 2 ^ 20) {n d : F32} (hn : Mild n) (hd : Dot (u.zip p) d) :
    Finite (NumOps.mul n d) ∧ |val (NumOps.mul n d) - val n * exactDot (u.map val) (p.map val)| ≤
      projErr u.length (val n) (u.map val) (p.map val) := by
  obtain ⟨h1, h2, h3⟩ := mild_dot hu hp hl hd
  have hnd : |val n * val d| ≤ 2 ^ 127 := by
    rw [abs_mul]
    refine (mul_le_mul hn.2 h2 (abs_nonneg _) (by positivity)).trans ?_
    rw [← pow_add]
    exact pow_le_pow_right₀ (by norm_num) (by norm_num)
  obtain ⟨h4, h5⟩ := mul_b32 hB hn.1 h1 hnd
  refine ⟨h4, ?_⟩
  have hD : |exactDot (u.map val) (p.map val)| ≤ exactLen (u.map val) * exactLen (p.map val) := by
    rw [exactDot_eq]
    exact (abs_sum_le _).trans (absDot_le _ _)
  refine (scale_err uu_pos.le h3 hD h5).trans ?_
  exact scale_total hl (mul_nonneg (Real.sqrt_nonneg _) (Real.sqrt_nonneg _))

/-- Without norms -/
theorem mild_unscaled {u p : List F32} (hu : ∀ x ∈ u, Mild x) (hp : ∀ x ∈ p, Mild x)
    (hl : u.length ≤ 2 ^ 20) {d : F32} (hd : Dot (u.zip p) d) :
    Finite d ∧ |val d - 1 * exactDot (u.map val) (p.map val)| ≤ projErr u.length 1 (u.map val) (p.map val) := by
  obtain ⟨h1, h2, h3⟩ := mild_dot hu hp hl hd
  refine ⟨h1, ?_⟩
  have hD : |exactDot (u.map val) (p.map val)| ≤ exactLen (u.map val) * exactLen (p.map val) := by
    rw [exactDot_eq]
    exact (abs_sum_le _).trans (absDot_le _ _)
  refine (scale_err (n := 1) (y := val d) (h := eta) uu_pos.le h3 hD ?_).trans
    (scale_total hl (mul_nonneg (Real.sqrt_nonneg _) (Real.sqrt_nonneg _)))
  rw [one_mul, sub_self, abs_zero]
  exact add_nonneg (mul_nonneg uu_pos.le (abs_nonneg _)) eta_pos.le

section
variable [NumOps F32] {q : QArr F32} {i : Nat} {u v : List F32}

omit [NumOps F32] in
theorem concat_mild {codes : List UInt8} (hm : QMild q) (h : IsConcat q.pq codes u) : ∀ x ∈ u, Mild x := by
  intro x hx
  obtain ⟨m, hm1, r, hr, hx⟩ := concat_mem h x hx
  exact hm.cents m hm1 r hr x hx

/-- Multiplication with a norm -/
theorem mild_mul (hB : Binary32) {n x : F32} (hn : Mild n) (hx : Mild x) :
    NumOps.mul n x = B32.mul n x ∧ Finite (B32.mul n x) ∧ RoundsTo (val n * val x) (B32.mul n x) := by
  have hb : |val n * val x| ≤ 2 ^ 127 := by
    rw [abs_mul]
    refine (mul_le_mul hn.2 hx.2 (abs_nonneg _) (by positivity)).trans ?_
    rw [← pow_add]
    exact pow_le_pow_right₀ (by norm_num) (by norm_num)
  have hf := (mul_b32 hB hn.1 hx.1 hb).1
  have : NumOps.mul n x = B32.mul n x := by
    rcases hB.mul n x with h | ⟨h, _⟩
    · exact h
    · exact absurd h hf.not_nan
  rw [this] at hf
  exact ⟨this, hf, (mul_result hn.1 hx.1).rounds⟩

theorem scaled_plain (hB : Binary32) (hm : QMild q) {ns : List F32} (hn : q.norms = some ns) (hu : ∀ x ∈ u, Mild x)
    (h : IsScaled (some ns) i u v) : ∃ n, ns[i]? = some n ∧ Mild n ∧ v = u.map (B32.mul n) := by
  obtain ⟨n, h5, h6, h7⟩ := h
  have hn1 := hm.norms ns hn n (List.mem_of_getElem? h5)
  refine ⟨n, h5, hn1, List.ext_getElem? fun t => ?_⟩
  rw [List.getElem?_map]
  cases hx : u[t]? with
  | none => rw [List.getElem?_eq_none (by rw [h6]; exact List.getElem?_eq_none_iff.mp hx)]; rfl
  | some x =>
    rw [h7 t x hx, (mild_mul hB hn1 (hu x (List.mem_of_getElem? hx))).1]
    rfl

/-- The scalar products -/
theorem dot_mild (hB : Binary32) (hm : QMild q) {p : Mat F32} (hp : q.pq.projection = some p) (hu : ∀ x ∈ u, Mild x)
    (hul : u.length ≤ 2 ^ 20) : ∀ r ∈ p.rows, Dot (u.zip r) (NumOps.dot u r) := by
  intro r hr
  obtain ⟨d, hd, hs⟩ := hB.dot u r
  have := (mild_dot hu (hm.proj p hp r hr) hul hd).1
  rw [hs.eq this.not_nan]
  exact hd

end

end FF
