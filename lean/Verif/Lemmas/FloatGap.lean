import Mathlib.Tactic.Ring
import Mathlib.Tactic.Linarith
import Mathlib.Tactic.Positivity
import Mathlib.Tactic.NormNum
import Mathlib.Tactic.LinearCombination
import Verif.Model.Base
/-!
# Decimal numbers close to midpoints between floats

Decimal numbers of eight digits differ from the midpoints between two floats, or they are equal to them, or they
are further away than the precision of binary64; there are 15 exceptions.  For each pair of a decimal and a
binary exponent this is shown by a pair of fractions that bound the best approximations of the quotient of the two
units.
-/

namespace FF

namespace B32

/-- The patterns `n` for which the midpoint between the floats `n` and `n + 1` is too close to a decimal number of
eight digits -/
def closeMids : List Nat :=
  [0x0A4170A7, 0x0F3DA5A7, 0x128289D0, 0x152E43FD, 0x15AE43FD, 0x162E43FD, 0x16AE43FD, 0x172E43FD, 0x32DC4BD1,
   0x335C4BD1, 0x64C3A98C, 0x6543A98C, 0x6A49CD98, 0x78FEE4AF, 0x797EE4AF]

/-- `l` is the distance of `p * A` from a multiple of the other unit; either it is zero or large enough, or the
multiples are exceptions. -/
def farOff (A lo j p q l : Nat) : Bool :=
  l == 0 || decide (p * A < 2 ^ 53 * l) ||
    (List.range (2 ^ 25 / q + 1)).all fun m =>
      !(m * q % 2 == 1 && decide (lo ≤ m * q) && decide (10 ^ 7 ≤ m * p) && decide (m * p ≤ 10 ^ 8)) ||
        closeMids.contains (j * 2 ^ 23 + (m * q - 1) / 2)

/-- `p / q ≤ B / A ≤ P / Q` are neighbours, and there is no fraction with a denominator below `2 ^ 25` between
them. -/
def bounded (A B lo j p q P Q : Nat) : Bool :=
  P * q == p * Q + 1 && decide (2 ^ 25 ≤ q + Q) && decide (p * A ≤ q * B) && decide (Q * B ≤ P * A) &&
    decide (10 ^ 8 * A < 2 ^ 53 * ((q * B - p * A) + (P * A - Q * B))) &&
    farOff A lo j p q (q * B - p * A) && farOff A lo j P Q (P * A - Q * B)

theorem farOff_multiple {A B lo j p q l D M a : Nat} (h : farOff A lo j p q l = true) (hD : D = a * p)
    (hM : M = a * q) (hl : a * l = D * A - M * B ∧ M * B ≤ D * A ∨ a * l = M * B - D * A ∧ D * A ≤ M * B) (h1 : M % 2 = 1)
    (h2 : lo ≤ M) (h3 : M < 2 ^ 25) (h4 : 10 ^ 7 ≤ D) (h5 : D ≤ 10 ^ 8) :
    D * A = M * B ∨ D * A < 2 ^ 53 * (D * A - M * B) ∨ D * A < 2 ^ 53 * (M * B - D * A) ∨
      j * 2 ^ 23 + (M - 1) / 2 ∈ closeMids := by
  unfold farOff at h
  simp only [Bool.or_eq_true, beq_iff_eq, decide_eq_true_eq, List.all_eq_true, List.mem_range] at h
  rcases h with (h | h) | h
  · subst h
    left
    rw [Nat.mul_zero] at hl
    omega
  · have ha : 0 < a := Nat.pos_of_ne_zero fun h0 => by subst h0; omega
    have hlt : a * (p * A) < a * (2 ^ 53 * l) := Nat.mul_lt_mul_of_pos_left h ha
    have e1 : a * (p * A) = D * A := by rw [hD]; ring
    have e2 : a * (2 ^ 53 * l) = 2 ^ 53 * (a * l) := by ring
    rw [e1, e2] at hlt
    rcases hl with ⟨hl, -⟩ | ⟨hl, -⟩
    · rw [hl] at hlt; exact .inr (.inl hlt)
    · rw [hl] at hlt; exact .inr (.inr (.inl hlt))
  · right; right; right
    have hq : 0 < q := Nat.pos_of_ne_zero fun h0 => by subst h0; omega
    have ha : a < 2 ^ 25 / q + 1 := Nat.lt_succ_of_le ((Nat.le_div_iff_mul_le hq).mpr (by omega))
    rcases h a ha with h | h
    · rw [← hM, ← hD] at h
      simp only [Bool.not_eq_true', Bool.and_eq_false_iff, beq_eq_false_iff_ne, decide_eq_false_iff_not] at h
      omega
    · rw [← hM] at h
      exact List.contains_iff_mem.mp h

theorem bounded_sound {A B lo j p q P Q D M : Nat} (h : bounded A B lo j p q P Q = true) (h1 : M % 2 = 1)
    (h2 : lo ≤ M) (h3 : M < 2 ^ 25) (h4 : 10 ^ 7 ≤ D) (h5 : D ≤ 10 ^ 8) :
    D * A = M * B ∨ D * A < 2 ^ 53 * (D * A - M * B) ∨ D * A < 2 ^ 53 * (M * B - D * A) ∨
      j * 2 ^ 23 + (M - 1) / 2 ∈ closeMids := by
  unfold bounded at h
  simp only [Bool.and_eq_true, beq_iff_eq, decide_eq_true_eq] at h
  obtain ⟨⟨⟨⟨⟨⟨hdet, hqQ⟩, hl1⟩, hl2⟩, hsum⟩, hf1⟩, hf2⟩ := h
  obtain ⟨l1, e1⟩ : ∃ l1, q * B = p * A + l1 := ⟨q * B - p * A, by omega⟩
  obtain ⟨l2, e2⟩ : ∃ l2, P * A = Q * B + l2 := ⟨P * A - Q * B, by omega⟩
  have el1 : q * B - p * A = l1 := by omega
  have el2 : P * A - Q * B = l2 := by omega
  rw [el1] at hsum hf1
  rw [el2] at hsum hf2
  have hDA : D * A ≤ 10 ^ 8 * A := Nat.mul_le_mul_right _ h5
  -- coordinates
  have det : (P : ℤ) * q = p * Q + 1 := by exact_mod_cast hdet
  have z1 : (q : ℤ) * B = p * A + l1 := by exact_mod_cast e1
  have z2 : (P : ℤ) * A = Q * B + l2 := by exact_mod_cast e2
  clear hdet e1 e2 el1 el2 hl1 hl2
  obtain ⟨a, ha⟩ : ∃ a : ℤ, a = P * M - Q * D := ⟨_, rfl⟩
  obtain ⟨b, hb⟩ : ∃ b : ℤ, b = q * D - p * M := ⟨_, rfl⟩
  have cD : (D : ℤ) = a * p + b * P := by rw [ha, hb]; linear_combination (-(D : ℤ)) * det
  have cM : (M : ℤ) = a * q + b * Q := by rw [ha, hb]; linear_combination (-(M : ℤ)) * det
  have cL : (D : ℤ) * A - M * B = b * l2 - a * l1 := by
    rw [cD, cM]
    linear_combination (-a) * z1 + b * z2
  clear ha hb det z1 z2
  have hMpos : (0 : ℤ) < M := by exact_mod_cast (show 0 < M by omega)
  have hM25 : (M : ℤ) < 2 ^ 25 := by exact_mod_cast h3
  have hqQ' : (2 : ℤ) ^ 25 ≤ q + Q := by exact_mod_cast hqQ
  have p0 : (0 : ℤ) ≤ p := by positivity
  have q0 : (0 : ℤ) ≤ q := by positivity
  have P0 : (0 : ℤ) ≤ P := by positivity
  have Q0 : (0 : ℤ) ≤ Q := by positivity
  have l10 : (0 : ℤ) ≤ l1 := by positivity
  have l20 : (0 : ℤ) ≤ l2 := by positivity
  rcases lt_trichotomy a 0 with ha0 | ha0 | ha0
  · rcases lt_trichotomy b 0 with hb0 | hb0 | hb0
    · exfalso
      have g1 : a * q ≤ 0 := mul_nonpos_of_nonpos_of_nonneg ha0.le q0
      have g2 : b * Q ≤ 0 := mul_nonpos_of_nonpos_of_nonneg hb0.le Q0
      linarith
    · exfalso
      have g1 : a * q ≤ 0 := mul_nonpos_of_nonpos_of_nonneg ha0.le q0
      rw [hb0, zero_mul] at cM
      linarith
    · have g1 : 1 * (l2 : ℤ) ≤ b * l2 := mul_le_mul_of_nonneg_right hb0 l20
      have g2 : a * (l1 : ℤ) ≤ -1 * l1 := mul_le_mul_of_nonneg_right (by omega) l10
      have : (l1 : ℤ) + l2 ≤ D * A - M * B := by rw [cL]; linarith
      have hle : l1 + l2 ≤ D * A - M * B := by
        have : (l1 : ℤ) + l2 + M * B ≤ D * A := by linarith
        have : l1 + l2 + M * B ≤ D * A := by exact_mod_cast this
        omega
      right; left
      omega
  · subst ha0
    rw [zero_mul, zero_add] at cD cM
    rw [zero_mul, sub_zero] at cL
    rcases le_or_gt b 0 with hb0 | hb0
    · exfalso
      have g2 : b * Q ≤ 0 := mul_nonpos_of_nonpos_of_nonneg hb0 Q0
      linarith
    · obtain ⟨n, rfl⟩ : ∃ n : Nat, b = n := ⟨b.toNat, by omega⟩
      have hD : D = n * P := by have : (D : ℤ) = n * P := by linarith
                                exact_mod_cast this
      have hM : M = n * Q := by have : (M : ℤ) = n * Q := by linarith
                                exact_mod_cast this
      have hl : n * l2 + M * B = D * A := by
        have : (n : ℤ) * l2 + M * B = D * A := by linarith
        exact_mod_cast this
      exact farOff_multiple hf2 hD hM (.inl ⟨by omega, by omega⟩) h1 h2 h3 h4 h5
  · rcases lt_trichotomy b 0 with hb0 | hb0 | hb0
    · have g1 : b * (l2 : ℤ) ≤ -1 * l2 := mul_le_mul_of_nonneg_right (by omega) l20
      have g2 : 1 * (l1 : ℤ) ≤ a * l1 := mul_le_mul_of_nonneg_right ha0 l10
      have : (l1 : ℤ) + l2 ≤ M * B - D * A := by linarith
      have hle : l1 + l2 ≤ M * B - D * A := by
        have : (l1 : ℤ) + l2 + D * A ≤ M * B := by linarith
        have : l1 + l2 + D * A ≤ M * B := by exact_mod_cast this
        omega
      right; right; left
      omega
    · subst hb0
      rw [zero_mul, add_zero] at cD cM
      rw [zero_mul, zero_sub] at cL
      obtain ⟨n, rfl⟩ : ∃ n : Nat, a = n := ⟨a.toNat, by omega⟩
      have hD : D = n * p := by have : (D : ℤ) = n * p := by linarith
                                exact_mod_cast this
      have hM : M = n * q := by have : (M : ℤ) = n * q := by linarith
                                exact_mod_cast this
      have hl : n * l1 + D * A = M * B := by
        have : (n : ℤ) * l1 + D * A = M * B := by linarith
        exact_mod_cast this
      exact farOff_multiple hf1 hD hM (.inr ⟨by omega, by omega⟩) h1 h2 h3 h4 h5
    · exfalso
      have g1 : 1 * (q : ℤ) ≤ a * q := mul_le_mul_of_nonneg_right ha0 q0
      have g2 : 1 * (Q : ℤ) ≤ b * Q := mul_le_mul_of_nonneg_right hb0 Q0
      linarith

/-! ### All pairs of exponents -/

/-- The search for the fractions.  `l` and `L` are the distances `q * B - p * A` and `P * A - Q * B`. -/
def approximate : Nat → Nat → Nat → Nat → Nat → Nat → Nat → Nat × Nat × Nat × Nat
  | 0, p, q, P, Q, _, _ => (p, q, P, Q)
  | fuel + 1, p, q, P, Q, l, L =>
    if 2 ^ 25 ≤ q + Q then (p, q, P, Q)
    else if l = 0 ∨ (0 < L ∧ l < L) then
      let t := if l = 0 then (2 ^ 25 - Q + q - 1) / q else min (L / l) ((2 ^ 25 - Q + q - 1) / q)
      approximate fuel p q (P + t * p) (Q + t * q) l (L - t * l)
    else
      let t := if Q = 0 then l / L else if L = 0 then (2 ^ 25 - q + Q - 1) / Q
        else min (l / L) ((2 ^ 25 - q + Q - 1) / Q)
      approximate fuel (p + t * P) (q + t * Q) P Q (l - t * L) L

/-- The significands of midpoints with the binary exponent `j` -/
def leastSig (j : Nat) : Nat := if j = 0 then 1 else 2 ^ 24

/-- The numbers `D * 10 ^ E` and `M * 2 ^ j`, in common units, are far apart. -/
def apart (E j : Nat) : Bool :=
  let A := 10 ^ E * 2 ^ 150
  let B := 2 ^ j * 10 ^ 54
  decide (2 * (10 ^ 8 * A) ≤ leastSig j * B) || decide (2 * (2 ^ 25 * B) ≤ 10 ^ 7 * A) ||
    let r := approximate 60 0 1 1 0 B A
    bounded A B (leastSig j) j r.1 r.2.1 r.2.2.1 r.2.2.2

theorem gap_of_twice {X Y : Nat} (h0 : 0 < X) (h : 2 * X ≤ Y) : X < 2 ^ 53 * (Y - X) := by
  have h1 : 2 * (Y - X) ≤ 2 ^ 53 * (Y - X) := Nat.mul_le_mul_right _ (by norm_num)
  omega

theorem gap_of_half {X Y : Nat} (h0 : 0 < X) (h : 2 * Y ≤ X) : X < 2 ^ 53 * (X - Y) := by
  have h1 : 4 * (X - Y) ≤ 2 ^ 53 * (X - Y) := Nat.mul_le_mul_right _ (by norm_num)
  omega

theorem apart_low {A B D M lo : Nat} (hA : 0 < A) (h : 2 * (10 ^ 8 * A) ≤ lo * B) (h2 : lo ≤ M) (h4 : 0 < D)
    (h5 : D ≤ 10 ^ 8) : D * A < 2 ^ 53 * (M * B - D * A) := by
  have g1 : D * A ≤ 10 ^ 8 * A := Nat.mul_le_mul_right _ h5
  have g2 : lo * B ≤ M * B := Nat.mul_le_mul_right _ h2
  exact gap_of_twice (Nat.mul_pos h4 hA) (by omega)

theorem apart_high {A B D M : Nat} (hA : 0 < A) (h : 2 * (2 ^ 25 * B) ≤ 10 ^ 7 * A) (h3 : M < 2 ^ 25)
    (h4 : 10 ^ 7 ≤ D) : D * A < 2 ^ 53 * (D * A - M * B) := by
  have g1 : 10 ^ 7 * A ≤ D * A := Nat.mul_le_mul_right _ h4
  have g2 : M * B ≤ 2 ^ 25 * B := Nat.mul_le_mul_right _ h3.le
  exact gap_of_half (Nat.mul_pos (by omega) hA) (by omega)

theorem apart_sound {E j D M : Nat} (h : apart E j = true) (h1 : M % 2 = 1) (h2 : leastSig j ≤ M) (h3 : M < 2 ^ 25)
    (h4 : 10 ^ 7 ≤ D) (h5 : D ≤ 10 ^ 8) :
    D * (10 ^ E * 2 ^ 150) = M * (2 ^ j * 10 ^ 54) ∨
      D * (10 ^ E * 2 ^ 150) < 2 ^ 53 * (D * (10 ^ E * 2 ^ 150) - M * (2 ^ j * 10 ^ 54)) ∨
      D * (10 ^ E * 2 ^ 150) < 2 ^ 53 * (M * (2 ^ j * 10 ^ 54) - D * (10 ^ E * 2 ^ 150)) ∨
      j * 2 ^ 23 + (M - 1) / 2 ∈ closeMids := by
  unfold apart at h
  simp only [Bool.or_eq_true, decide_eq_true_eq] at h
  rcases h with (h | h) | h
  · exact .inr (.inr (.inl (apart_low (by positivity) h h2 (by omega) h5)))
  · exact .inr (.inl (apart_high (by positivity) h h3 h4))
  · exact bounded_sound h h1 h2 h3 h4 h5

theorem all_apart : ((List.range 86).all fun E => (List.range 255).all fun j => apart E j) = true := by
  decide +kernel

/-- Decimal numbers of eight digits and midpoints between floats -/
theorem decimal_gap {E j D M : Nat} (hE : E < 86) (hj : j < 255) (h1 : M % 2 = 1) (h2 : leastSig j ≤ M)
    (h3 : M < 2 ^ 25) (h4 : 10 ^ 7 ≤ D) (h5 : D ≤ 10 ^ 8) :
    D * (10 ^ E * 2 ^ 150) = M * (2 ^ j * 10 ^ 54) ∨
      D * (10 ^ E * 2 ^ 150) < 2 ^ 53 * (D * (10 ^ E * 2 ^ 150) - M * (2 ^ j * 10 ^ 54)) ∨
      D * (10 ^ E * 2 ^ 150) < 2 ^ 53 * (M * (2 ^ j * 10 ^ 54) - D * (10 ^ E * 2 ^ 150)) ∨
      j * 2 ^ 23 + (M - 1) / 2 ∈ closeMids := by
  have h := all_apart
  rw [List.all_eq_true] at h
  have h := h E (List.mem_range.mpr hE)
  rw [List.all_eq_true] at h
  exact apart_sound (h j (List.mem_range.mpr hj)) h1 h2 h3 h4 h5

end B32

end FF
