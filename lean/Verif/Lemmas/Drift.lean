import Verif.Lemmas.Float32Vec
import Verif.Props.C67
/-! Small relative changes of vectors, one after the other, and what the text formats do to numbers. -/

namespace FF

open F32

/-! ### Lengths of vectors that are close -/

theorem exactDot_le {c d : ℝ} {xs ys : List ℝ} (h : List.Forall₂ (fun x y => |y| ≤ c * |x| + d) xs ys) :
    exactDot ys ys ≤ 2 * c ^ 2 * exactDot xs xs + 2 * xs.length * d ^ 2 := by
  induction h with
  | nil => simp [exactDot]
  | @cons x y xs ys hxy _ ih =>
    simp only [exactDot, List.length_cons, Nat.cast_add, Nat.cast_one]
    have h0 : 0 ≤ |y| := abs_nonneg y
    have h1 : y * y ≤ (c * |x| + d) ^ 2 := by
      rw [← abs_mul_abs_self y, ← sq]
      exact pow_le_pow_left₀ h0 hxy 2
    have h2 : (c * |x| + d) ^ 2 ≤ 2 * c ^ 2 * (x * x) + 2 * d ^ 2 := by
      rw [← abs_mul_abs_self x]
      nlinarith [sq_nonneg (c * |x| - d)]
    nlinarith

theorem forall₂_swap {α β : Type} {R : α → β → Prop} {xs : List α} {ys : List β} (h : List.Forall₂ R xs ys) :
    List.Forall₂ (fun y x => R x y) ys xs := by
  induction h with
  | nil => exact .nil
  | cons h _ ih => exact .cons h ih

/-- A vector that changes by no more than a sixteenth is at least half and at most twice as long. -/
theorem close_len {xs ys : List ℝ} (hn : xs.length ≤ 2 ^ 20)
    (h : List.Forall₂ (fun x y => |y - x| ≤ 1 / 16 * |x| + 2⁻¹ ^ 60 * exactLen xs) xs ys) :
    exactLen xs ≤ 2 * exactLen ys ∧ exactLen ys ≤ 2 * exactLen xs := by
  have hL0 : 0 ≤ exactLen xs := Real.sqrt_nonneg _
  have hM0 : 0 ≤ exactLen ys := Real.sqrt_nonneg _
  have hlen : ys.length = xs.length := h.length_eq.symm
  have hn' : (xs.length : ℝ) ≤ 2 ^ 20 := by exact_mod_cast hn
  have up : List.Forall₂ (fun x y => |y| ≤ 17 / 16 * |x| + 2⁻¹ ^ 60 * exactLen xs) xs ys := by
    refine h.imp fun x y hxy => ?_
    have := abs_sub_abs_le_abs_sub y x
    linarith
  have lo : List.Forall₂ (fun y x => |x| ≤ 16 / 15 * |y| + 16 / 15 * (2⁻¹ ^ 60 * exactLen xs)) ys xs := by
    refine forall₂_swap (h.imp fun x y hxy => ?_)
    have h1 := abs_sub_abs_le_abs_sub x y
    rw [abs_sub_comm] at h1
    generalize (2 : ℝ)⁻¹ ^ 60 * exactLen xs = d at *
    linarith
  have h1 := exactDot_le up
  have h2 := exactDot_le lo
  rw [← exactLen_sq, ← exactLen_sq] at h1 h2
  rw [hlen] at h2
  generalize exactLen xs = L at *
  generalize exactLen ys = M at *
  have hsm : 2 * (xs.length : ℝ) * ((2 : ℝ)⁻¹ ^ 60 * L) ^ 2 ≤ 1 / 100 * L ^ 2 := by
    have : (2 : ℝ) * xs.length * ((2 : ℝ)⁻¹ ^ 60 * L) ^ 2 = (xs.length * (2 * ((2 : ℝ)⁻¹ ^ 60) ^ 2)) * L ^ 2 := by ring
    rw [this]
    refine mul_le_mul_of_nonneg_right ?_ (sq_nonneg L)
    calc (xs.length : ℝ) * (2 * ((2 : ℝ)⁻¹ ^ 60) ^ 2) ≤ 2 ^ 20 * (2 * ((2 : ℝ)⁻¹ ^ 60) ^ 2) :=
          mul_le_mul_of_nonneg_right hn' (by norm_num)
      _ ≤ 1 / 100 := by norm_num
  rw [mul_pow (16 / 15 : ℝ)] at h2
  generalize ((2 : ℝ)⁻¹ ^ 60 * L) ^ 2 = d at *
  constructor
  · refine le_of_sq_le_sq ?_ (by linarith)
    nlinarith
  · refine le_of_sq_le_sq ?_ (by linarith)
    nlinarith
where
  le_of_sq_le_sq {a b : ℝ} (h : a ^ 2 ≤ b ^ 2) (hb : 0 ≤ b) : a ≤ b := by
    exact le_trans (le_abs_self a) (abs_le_of_sq_le_sq h hb)

/-! ### Changes -/

/-- Every component of `w` is that of `v`, up to a relative and an absolute error. -/
def Moved (a b : ℝ) (v w : List F32) : Prop :=
  List.Forall₂ (fun x y => |val y - val x| ≤ a * |val x| + b) v w

theorem Moved.trans {a b c d : ℝ} (hc : 0 ≤ c) {v w z : List F32} (h1 : Moved a b v w) (h2 : Moved c d w z) :
    Moved (a + c + c * a) (b + d + c * b) v z := by
  unfold Moved at *
  induction h1 generalizing z with
  | nil => cases h2; exact .nil
  | @cons x y xs ys hxy _ ih =>
    cases h2 with
    | @cons _ t _ ts hyt hts =>
      refine .cons ?_ (ih hts)
      have e1 : |val t - val x| ≤ |val t - val y| + |val y - val x| := abs_sub_le _ _ _
      have e2 : |val y| ≤ |val y - val x| + |val x| := by
        have := abs_sub_abs_le_abs_sub (val y) (val x)
        linarith
      have e3 : c * |val y| ≤ c * (a * |val x| + b + |val x|) := mul_le_mul_of_nonneg_left (by linarith) hc
      nlinarith

theorem Moved.mono {a b a' b' : ℝ} {v w : List F32} (ha : a ≤ a') (hb : b ≤ b') (h : Moved a b v w) :
    Moved a' b' v w := by
  refine List.Forall₂.imp (fun x y hxy => ?_) h
  have := mul_le_mul_of_nonneg_right ha (abs_nonneg (val x))
  linarith

theorem Moved.refl {a b : ℝ} (ha : 0 ≤ a) (hb : 0 ≤ b) (v : List F32) : Moved a b v v := by
  refine List.forall₂_same.mpr fun x _ => ?_
  rw [sub_self, abs_zero]
  exact add_nonneg (mul_nonneg ha (abs_nonneg _)) hb

theorem Moved.length {a b : ℝ} {v w : List F32} (h : Moved a b v w) : v.length = w.length := h.length_eq

theorem Moved.len {a b : ℝ} {v w : List F32} (h : Moved a b v w) (hn : v.length ≤ 2 ^ 20) (ha : a ≤ 1 / 16)
    (hb : b ≤ 2⁻¹ ^ 60 * exactLen (v.map val)) :
    exactLen (v.map val) ≤ 2 * exactLen (w.map val) ∧ exactLen (w.map val) ≤ 2 * exactLen (v.map val) := by
  refine close_len (by simpa using hn) ?_
  rw [List.forall₂_map_left_iff, List.forall₂_map_right_iff]
  exact h.mono ha hb

/-! ### Numbers in text files -/

theorem val_exception : |val (exception + 1) - val exception| ≤ 2⁻¹ ^ 23 * |val exception| ∧
    |val (negException + 1) - val negException| ≤ 2⁻¹ ^ 23 * |val negException| ∧
    F32.Finite (exception + 1) ∧ F32.Finite (negException + 1) := by
  have e1 : ex exception = 43 ∧ fr exception = 3032061 ∧ sgn exception = 0 := by decide
  have e2 : ex (exception + 1) = 43 ∧ fr (exception + 1) = 3032062 ∧ sgn (exception + 1) = 0 := by decide
  have e3 : ex negException = 43 ∧ fr negException = 3032061 ∧ sgn negException = 1 := by decide
  have e4 : ex (negException + 1) = 43 ∧ fr (negException + 1) = 3032062 ∧ sgn (negException + 1) = 1 := by decide
  have key : ∀ z : ℝ, 0 < z → |(2 ^ 23 + 3032062) * z - (2 ^ 23 + 3032061) * z| ≤
      2⁻¹ ^ 23 * |(2 ^ 23 + 3032061) * z| := by
    intro z hz
    have h1 : (2 ^ 23 + 3032062) * z - (2 ^ 23 + 3032061) * z = z := by ring
    rw [h1, abs_of_pos hz, abs_of_pos (by positivity)]
    nlinarith
  have hz : (0 : ℝ) < 2 ^ (((43 : ℕ) : ℤ) - 150) := by positivity
  refine ⟨?_, ?_, ?_, ?_⟩
  · unfold val
    rw [e1.1, e1.2.1, e1.2.2, e2.1, e2.2.1, e2.2.2, if_neg (by decide), if_neg (by decide), pow_zero, one_mul, one_mul]
    exact_mod_cast key _ hz
  · unfold val
    rw [e3.1, e3.2.1, e3.2.2, e4.1, e4.2.1, e4.2.2, if_neg (by decide), if_neg (by decide), pow_one, neg_one_mul,
      neg_one_mul, abs_neg, neg_sub_neg, abs_sub_comm]
    exact_mod_cast key _ hz
  · unfold F32.Finite; rw [e2.1]; decide
  · unfold F32.Finite; rw [e4.1]; decide

/-- A number is read as itself or as its neighbour. -/
theorem text_moved {x : F32} (h : Finite x) : ∃ y, b32Text.parse (b32Text.str x) = .ok y ∧ Finite y ∧
    |val y - val x| ≤ 2⁻¹ ^ 23 * |val x| := by
  have hn : ¬ NaN x := fun hn => h hn.1
  by_cases h1 : x = exception
  · subst h1
    exact ⟨_, C67_exception.2.1, val_exception.2.2.1, val_exception.1⟩
  by_cases h2 : x = negException
  · subst h2
    exact ⟨_, C67_exception.2.2, val_exception.2.2.2, val_exception.2.1⟩
  refine ⟨x, (C67_survives x hn).mpr ⟨h1, h2⟩, h, ?_⟩
  rw [sub_self, abs_zero]
  positivity

theorem text_vector {v : List F32} (h : ∀ x ∈ v, Finite x) : ∃ w, Moved (2⁻¹ ^ 23) 0 v w ∧ (∀ y ∈ w, Finite y) ∧
    List.Forall₂ (fun s y => b32Text.parse s = .ok y) (v.map b32Text.str) w := by
  induction v with
  | nil => exact ⟨[], .nil, by simp, .nil⟩
  | cons x v ih =>
    obtain ⟨w, h1, h2, h3⟩ := ih fun y hy => h y (List.mem_cons_of_mem _ hy)
    obtain ⟨y, g1, g2, g3⟩ := text_moved (h x List.mem_cons_self)
    exact ⟨y :: w, .cons (by linarith) h1, List.forall_mem_cons.mpr ⟨g2, h2⟩, .cons g1 h3⟩

end FF
