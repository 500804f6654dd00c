import Verif.Lemmas.FloatRead
import Verif.Lemmas.FloatDigits
import Verif.Spec.Text
/-!
# The text of float32 numbers
-/

namespace FF

namespace B32

open F32

theorem trimZeros_spec (s : PyStr) : ∃ z, s = trimZeros s ++ List.replicate z 48 := by
  unfold trimZeros
  refine ⟨(s.reverse.takeWhile fun c => c == 48).length, ?_⟩
  have h1 : s.reverse.takeWhile (fun c => c == 48) =
      List.replicate (s.reverse.takeWhile fun c => c == 48).length 48 := by
    refine List.eq_replicate_of_mem fun c hc => ?_
    have := all_takeWhile c hc
    simpa using this
  rw [← List.reverse_reverse (List.replicate _ _), List.reverse_replicate, ← h1, ← List.reverse_append,
    List.takeWhile_append_dropWhile, List.reverse_reverse]

theorem zeroPad_spec {w : Nat} {s : PyStr} (h : s.length ≤ w) (hd : Digits s) :
    Digits (zeroPad w s) ∧ (zeroPad w s).length = w ∧ digitsVal (zeroPad w s) = digitsVal s := by
  unfold zeroPad
  refine ⟨digits_append (digits_zeros _) hd, ?_, ?_⟩
  · rw [List.length_append, List.length_replicate]
    omega
  · rw [digitsVal_append, digitsVal_zeros]
    simp

theorem trimZeros_digits {s : PyStr} (h : Digits s) : Digits (trimZeros s) := by
  obtain ⟨z, hz⟩ := trimZeros_spec s
  intro c hc
  exact h c (by rw [hz]; simp [hc])

theorem decimal_length_le {n k : Nat} (h : n < 10 ^ k) (hk : 0 < k) : (decimal n).length ≤ k := by
  rcases Nat.eq_zero_or_pos n with rfl | hn
  · exact hk
  · rw [decimal_length hn]
    exact Nat.log_lt_of_lt_pow hn.ne' h

theorem positional_spec (D E : Nat) : ∃ m x, Unsigned (positional D E) m x ∧
    (m : ℝ) * (10 : ℝ) ^ x = D * 10 ^ E / 10 ^ 54 := by
  have ten : (10 : ℝ) ≠ 0 := by norm_num
  unfold positional
  split
  · rename_i hE
    refine ⟨_, _, ⟨decimal (D * 10 ^ (E - 54)), [48], [46, 48], [], 0, digits_decimal _, .point (by simp [Digits]),
      .none, by simp, by simp, rfl, rfl⟩, ?_⟩
    rw [digitsVal_append, digitsVal_decimal, show digitsVal [48] = 0 from rfl]
    obtain ⟨k, rfl⟩ : ∃ k, E = 54 + k := ⟨E - 54, by omega⟩
    rw [Nat.add_sub_cancel_left, pow_add]
    push_cast
    simp only [List.length_singleton, Nat.cast_one, zero_sub, zpow_neg, zpow_one]
    field_simp
    ring
  · rename_i hE
    obtain ⟨k, hk⟩ : ∃ k, 54 = E + k := ⟨54 - E, by omega⟩
    have hk' : 54 - E = k := by omega
    have hk0 : 0 < k := by omega
    simp only [hk']
    obtain ⟨p1, p2, p3⟩ := zeroPad_spec (decimal_length_le (Nat.mod_lt D (show 0 < 10 ^ k by positivity)) hk0)
      (digits_decimal (D % 10 ^ k))
    rw [digitsVal_decimal] at p3
    obtain ⟨z, hz⟩ := trimZeros_spec (zeroPad k (decimal (D % 10 ^ k)))
    have hl : (trimZeros (zeroPad k (decimal (D % 10 ^ k)))).length + z = k := by
      have := congrArg List.length hz
      rw [p2, List.length_append, List.length_replicate] at this
      exact this.symm
    have hv : digitsVal (trimZeros (zeroPad k (decimal (D % 10 ^ k)))) * 10 ^ z = D % 10 ^ k := by
      have := congrArg digitsVal hz
      rw [p3, digitsVal_append, digitsVal_zeros, List.length_replicate] at this
      exact this.symm
    have hdig := trimZeros_digits p1
    have hdm := Nat.div_add_mod D (10 ^ k)
    split
    · rename_i h0
      rw [h0, digitsVal_nil, Nat.zero_mul] at hv
      refine ⟨_, _, ⟨decimal (D / 10 ^ k), [48], [46, 48], [], 0, digits_decimal _, .point (by simp [Digits]),
        .none, by simp, by simp, rfl, rfl⟩, ?_⟩
      rw [digitsVal_append, digitsVal_decimal, show digitsVal [48] = 0 from rfl]
      rw [← hv, Nat.add_zero] at hdm
      have hD : (D : ℝ) = 10 ^ k * (D / 10 ^ k : Nat) := by exact_mod_cast hdm.symm
      rw [hD, hk, pow_add]
      push_cast
      simp only [List.length_singleton, Nat.cast_one, zero_sub, zpow_neg, zpow_one]
      field_simp
      ring
    · rename_i h0
      refine ⟨_, _, ⟨decimal (D / 10 ^ k), _, _, [], 0, digits_decimal _, .point hdig,
        .none, by simp [h0], by simp, rfl, rfl⟩, ?_⟩
      generalize trimZeros (zeroPad k (decimal (D % 10 ^ k))) = t at *
      rw [digitsVal_append, digitsVal_decimal]
      have hD : (D : ℝ) = 10 ^ k * (D / 10 ^ k : Nat) + digitsVal t * 10 ^ z := by
        rw [← hv] at hdm
        exact_mod_cast hdm.symm
      rw [hD, hk, pow_add, ← hl, pow_add]
      push_cast
      simp only [zero_sub, zpow_neg, zpow_natCast]
      field_simp
      ring

theorem scientific_spec {D : Nat} (hD : 0 < D) (E : Nat) : ∃ m x, Unsigned (scientific D E) m x ∧
    (m : ℝ) * (10 : ℝ) ^ x = D * 10 ^ E / 10 ^ 54 := by
  have ten : (10 : ℝ) ≠ 0 := by norm_num
  obtain ⟨z, hz⟩ := trimZeros_spec (decimal D)
  have hdig := trimZeros_digits (digits_decimal D)
  have hv : D = digitsVal (trimZeros (decimal D)) * 10 ^ z := by
    have := congrArg digitsVal hz
    rwa [digitsVal_decimal, digitsVal_append, digitsVal_zeros, List.length_replicate, Nat.add_zero] at this
  have hl : (decimal D).length = (trimZeros (decimal D)).length + z := by
    have := congrArg List.length hz
    rwa [List.length_append, List.length_replicate] at this
  have hx : ∀ y : Int, Exponent (101 :: (if y < 0 then 45 else 43) :: zeroPad 2 (decimal y.natAbs)) y := by
    intro y
    have d1 : Digits (zeroPad 2 (decimal y.natAbs)) := digits_append (digits_zeros _) (digits_decimal _)
    have d2 : digitsVal (zeroPad 2 (decimal y.natAbs)) = y.natAbs := by
      unfold zeroPad
      rw [digitsVal_append, digitsVal_zeros, digitsVal_decimal]
      simp
    have d3 : zeroPad 2 (decimal y.natAbs) ≠ [] := by
      unfold zeroPad
      simp [decimal_ne_nil]
    split
    · have := Exponent.neg (.inl rfl : (101 : Code) = 101 ∨ (101 : Code) = 69) d1 d3
      rw [d2, show -(y.natAbs : Int) = y by omega] at this
      exact this
    · have := Exponent.pos (.inl rfl : (101 : Code) = 101 ∨ (101 : Code) = 69) (.inr rfl) d1 d3
      rw [d2, show (y.natAbs : Int) = y by omega] at this
      exact this
  have eqn : ∀ (t : PyStr), t.length + z = (decimal D).length → D = digitsVal t * 10 ^ z → t ≠ [] →
      (digitsVal t : ℝ) * (10 : ℝ) ^ ((E : Int) + (decimal D).length - 1 - 54 - (t.length - 1 : Nat)) =
        D * 10 ^ E / 10 ^ 54 := by
    intro t h1 h2 h3
    have h4 : 1 ≤ t.length := List.length_pos_iff.mpr h3
    have e : (E : Int) + (decimal D).length - 1 - 54 - (t.length - 1 : Nat) = ((E + z : Nat) : Int) - (54 : Nat) := by
      push_cast [h4]
      omega
    rw [e, zpow_sub₀ ten, zpow_natCast, zpow_natCast]
    have h5 : (D : ℝ) = digitsVal t * 10 ^ z := by exact_mod_cast h2
    rw [h5, pow_add]
    ring
  unfold scientific
  generalize trimZeros (decimal D) = t at *
  rcases t with _ | ⟨c, t⟩
  · rw [digitsVal_nil, Nat.zero_mul] at hv
    omega
  · refine ⟨digitsVal (c :: t), (E : Int) + (decimal D).length - 1 - 54 - ((c :: t).length - 1 : Nat), ?_,
      eqn _ hl.symm hv (by simp)⟩
    rcases t with _ | ⟨c', t⟩
    · exact ⟨[c], [], [], _, _, hdig, .none, hx ((E : Int) + (decimal D).length - 1 - 54), by simp, by simp, by simp,
        by simp⟩
    · exact ⟨[c], c' :: t, 46 :: c' :: t, _, _, fun x hx => hdig x (by simp_all), .point fun x hx => hdig x (by simp_all),
        hx ((E : Int) + (decimal D).length - 1 - 54), by simp, by simp, by simp, by simp⟩

theorem decimalRound_eq {m D E : Nat} {x : Int} (h : (m : ℝ) * (10 : ℝ) ^ x = D * 10 ^ E / 10 ^ 54) :
    decimalRound m x = viaDouble (D * 10 ^ E) (10 ^ 54) := by
  have ten : (10 : ℝ) ≠ 0 := by norm_num
  unfold decimalRound
  split
  · rename_i hx
    refine viaDouble_congr (by positivity) (by positivity) ?_
    have e : x = -(x.natAbs : Int) := by omega
    rw [e, zpow_neg, zpow_natCast] at h
    generalize x.natAbs = k at *
    field_simp at h
    rw [Nat.mul_assoc, Nat.mul_comm (10 ^ E), ← Nat.mul_assoc, Nat.mul_comm D]
    exact_mod_cast h
  · rename_i hx
    refine viaDouble_congr (by positivity) (by positivity) ?_
    have e : x = (x.natAbs : Int) := by omega
    rw [e, zpow_natCast] at h
    generalize x.natAbs = k at *
    field_simp at h
    rw [Nat.mul_one]
    exact_mod_cast h

/-- The text of a finite number other than 0 -/
theorem str_spec {b : F32} (h : F32.Finite b) (h0 : mant b ≠ 0) : ∃ m x, DecimalText (str b) (sign b) m x ∧
    (m : ℝ) * (10 : ℝ) ^ x = (shortest (mant b)).1 * 10 ^ (shortest (mant b)).2 / 10 ^ 54 := by
  have hi := fin_mant h
  have hnan := (not_nan_inf h).1
  have hpos : 0 < (shortest (mant b)).1 := by
    obtain ⟨N, h1, h9, hs, -⟩ := shortest_spec (Nat.pos_of_ne_zero h0) hi
    rcases hsh : shortest (mant b) with ⟨D, E⟩
    rw [hsh] at hs
    exact lt_of_lt_of_le (show 0 < 10 ^ (N - 1) by positivity) (candidate_spec (Nat.pos_of_ne_zero h0) hi h1 h9 hs).2.1
  have key : ∃ t m x, str b = (if sign b then [45] else []) ++ t ∧ Unsigned t m x ∧
      (m : ℝ) * (10 : ℝ) ^ x = (shortest (mant b)).1 * 10 ^ (shortest (mant b)).2 / 10 ^ 54 := by
    unfold str
    rw [hnan]
    simp only [Bool.false_eq_true, if_false, hi.ne, h0]
    by_cases hp : 2 ^ 149 ≤ mag (mant b) * 10 ^ 4 ∧ mag (mant b) < 10 ^ 16 * 2 ^ 149
    · rw [if_pos hp]
      obtain ⟨m, x, h1, h2⟩ := positional_spec (shortest (mant b)).1 (shortest (mant b)).2
      exact ⟨_, m, x, rfl, h1, h2⟩
    · rw [if_neg hp]
      obtain ⟨m, x, h1, h2⟩ := scientific_spec hpos (shortest (mant b)).2
      exact ⟨_, m, x, rfl, h1, h2⟩
  obtain ⟨t, m, x, h1, h2, h3⟩ := key
  refine ⟨m, x, ?_, h3⟩
  rw [h1]
  cases sign b
  · exact DecimalText.pos (.inl rfl) h2
  · exact DecimalText.neg h2

theorem viaDouble_zero : viaDouble 0 10 = 0 := by decide +kernel

theorem zero_text : Unsigned [48, 46, 48] 0 (-1) :=
  ⟨[48], [48], [46, 48], [], 0, by simp [Digits], .point (by simp [Digits]), .none, by simp, rfl, rfl, rfl⟩

/-- The text of zero -/
theorem str_zero {b : F32} (h0 : mant b = 0) : DecimalText (str b) (sign b) 0 (-1) := by
  have h1 : str b = (if sign b then [45] else []) ++ [48, 46, 48] := by
    unfold str
    have : isNaN b = false := by unfold isNaN; rw [h0]; rfl
    have hi : (0 : Nat) ≠ inf := by decide
    simp only [this, Bool.false_eq_true, if_false, h0, hi, if_true]
  rw [h1]
  cases sign b
  · exact DecimalText.pos (.inl rfl) zero_text
  · exact DecimalText.neg zero_text

theorem finite_of_mant {b : F32} (h : mant b < inf) : F32.Finite b :=
  isFin_iff.mp (by unfold isFin; exact decide_eq_true h)

/-- What is read is the number with the pattern `readBack`. -/
theorem read_str (b : F32) : read (str b) = some (if isNaN b then nan else if isInf b then b
    else if mant b = 0 then b else mk (sign b) (readBack (mant b))) := by
  by_cases hn : isNaN b = true
  · rw [if_pos hn]
    unfold str
    rw [if_pos hn]
    decide +kernel
  rw [if_neg hn]
  by_cases hi : isInf b = true
  · rw [if_pos hi]
    have hm : mant b = inf := by unfold isInf at hi; exact of_decide_eq_true hi
    have hb := mk_eta b
    rw [hm] at hb
    unfold str
    rw [if_neg hn]
    simp only [hm, if_true]
    rw [← hb]
    have hs : ∀ s : Bool, sign (mk s inf) = s := fun s => sign_mk s (by decide)
    rw [hs]
    cases sign b <;> decide +kernel
  rw [if_neg hi]
  have hfin : F32.Finite b := by
    refine finite_of_mant ?_
    unfold isNaN at hn
    unfold isInf at hi
    simp only [decide_eq_true_eq] at hn hi
    omega
  by_cases h0 : mant b = 0
  · rw [if_pos h0, read_spec (str_zero h0)]
    have : decimalRound 0 (-1) = 0 := by
      unfold decimalRound
      rw [if_pos (by norm_num)]
      exact viaDouble_zero
    rw [this, ← h0, mk_eta]
  · rw [if_neg h0]
    obtain ⟨m, x, h1, h2⟩ := str_spec hfin h0
    rw [read_spec h1, decimalRound_eq h2]
    rfl

theorem parse_of_read {s : PyStr} {x : F32} (h : read s = some x) : b32Text.parse s = .ok x := by
  show (match read s with
    | some x => Except.ok x
    | none => Except.error PyErr.valueError) = _
  rw [h]

theorem numberText_of {s : PyStr} (h : s ≠ [] ∧ (s.all fun c => decide (32 < c.val ∧ c.val < 127)) = true) :
    NumberText s := by
  exact ⟨h.1, fun c hc => of_decide_eq_true (List.all_eq_true.mp h.2 c hc)⟩

/-- The text of numbers consists of visible characters. -/
theorem str_chars (b : F32) : NumberText (str b) := by
  have dec : ∀ {s : PyStr} {neg : Bool} {m : Nat} {x : Int}, DecimalText s neg m x → NumberText s := by
    have un : ∀ {s : PyStr} {m : Nat} {x : Int}, Unsigned s m x → NumberText s := by
      intro s m x h
      refine ⟨?_, fun c hc => ?_⟩
      · obtain ⟨c, r, rfl, -⟩ := unsigned_head h
        simp
      · rcases unsigned_chars h c hc with h | rfl | rfl | rfl | rfl | rfl
        · omega
        all_goals decide
    intro s neg m x h
    cases h with
    | @pos s sg m x hsg hs =>
      refine ⟨by simp [(un hs).1], fun c hc => ?_⟩
      rcases List.mem_append.mp hc with hc | hc
      · rcases hsg with rfl | rfl
        · cases hc
        · rw [List.mem_singleton] at hc
          subst hc
          decide
      · exact (un hs).2 c hc
    | neg hs =>
      refine ⟨by simp, fun c hc => ?_⟩
      rcases List.mem_cons.mp hc with rfl | hc
      · decide
      · exact (un hs).2 c hc
  by_cases hn : isNaN b = true
  · unfold str
    rw [if_pos hn]
    exact numberText_of (by decide)
  by_cases hi : mant b = inf
  · have hs : str b = (if sign b then [45] else []) ++ [105, 110, 102] := by
      unfold str
      rw [if_neg hn]
      simp only [hi, if_true]
    rw [hs]
    cases sign b <;> exact numberText_of (by decide)
  have hfin : F32.Finite b := by
    refine finite_of_mant ?_
    unfold isNaN at hn
    simp only [decide_eq_true_eq] at hn
    omega
  by_cases h0 : mant b = 0
  · exact dec (str_zero h0)
  · obtain ⟨m, x, h1, -⟩ := str_spec hfin h0
    exact dec h1

end B32

end FF
