import Verif.Lemmas.FloatStr
/-! How long the texts of numbers are. -/

namespace FF

namespace B32

theorem shortest_size {n : Nat} (h : n ≤ inf) : (shortest n).1 < 10 ^ 94 ∧ (shortest n).2 ≤ 93 := by
  have hm : mag n ≤ 2 ^ 277 := by
    rw [← inf_mag]
    exact mag_strictMono.monotone h
  have hp : places n ≤ 93 := by
    unfold places
    have h1 : mag n * 10 ^ 54 / 2 ^ 149 ≤ 2 ^ 277 * 10 ^ 54 / 2 ^ 149 :=
      Nat.div_le_div_right (Nat.mul_le_mul_right _ hm)
    have h2 : (2 : Nat) ^ 277 * 10 ^ 54 / 2 ^ 149 < 10 ^ 93 := by decide +kernel
    have h3 : Nat.log 10 (mag n * 10 ^ 54 / 2 ^ 149) < 93 := by
      rcases Nat.eq_zero_or_pos (mag n * 10 ^ 54 / 2 ^ 149) with h0 | h0
      · rw [h0]; simp
      · exact Nat.log_lt_of_lt_pow h0.ne' (lt_of_le_of_lt h1 h2)
    exact h3
  unfold shortest
  cases hf : (List.range' 1 9).findSome? (candidate n) with
  | none => exact ⟨by decide +kernel, by decide⟩
  | some r =>
    obtain ⟨N, -, hN⟩ := List.exists_of_findSome?_eq_some hf
    unfold candidate at hN
    rw [Option.map_eq_some_iff] at hN
    obtain ⟨D, hD, rfl⟩ := hN
    refine ⟨?_, (Nat.sub_le _ _).trans hp⟩
    show D < 10 ^ 94
    have hle : D ≤ 2 * mag n * 10 ^ 54 / (10 ^ (places n - N) * 2 ^ 150) + 1 := by
      unfold pick at hD
      simp only at hD
      split at hD
      · have hd := Option.some.inj hD
        rw [← hd]
        generalize 2 * mag n * 10 ^ 54 / (10 ^ (places n - N) * 2 ^ 150) = q
        split <;> split <;> omega
      · cases hD
    have h1 : 2 * mag n * 10 ^ 54 / (10 ^ (places n - N) * 2 ^ 150) ≤ 2 * mag n * 10 ^ 54 / 2 ^ 150 :=
      Nat.div_le_div_left (Nat.le_mul_of_pos_left _ (Nat.pos_of_ne_zero (by simp))) (by positivity)
    have h2 : 2 * mag n * 10 ^ 54 / 2 ^ 150 ≤ 2 * 2 ^ 277 * 10 ^ 54 / 2 ^ 150 :=
      Nat.div_le_div_right (Nat.mul_le_mul_right _ (Nat.mul_le_mul_left _ hm))
    have h3 : 2 * 2 ^ 277 * 10 ^ 54 / 2 ^ 150 + 1 < 10 ^ 94 := by decide +kernel
    omega

theorem trimZeros_length (s : PyStr) : (trimZeros s).length ≤ s.length := by
  unfold trimZeros
  rw [List.length_reverse]
  exact (List.dropWhile_sublist _).length_le.trans (by rw [List.length_reverse])

theorem zeroPad_length (w : Nat) (s : PyStr) : (zeroPad w s).length ≤ w + s.length := by
  unfold zeroPad
  rw [List.length_append, List.length_replicate]
  omega

theorem positional_length {D E : Nat} (hD : D < 10 ^ 94) (hE : E ≤ 93) : (positional D E).length ≤ 250 := by
  unfold positional
  split
  · have h1 : D * 10 ^ (E - 54) < 10 ^ (94 + (E - 54)) := by
      rw [pow_add]
      exact Nat.mul_lt_mul_of_pos_right hD (Nat.pos_of_ne_zero (by simp))
    have := decimal_length_le h1 (by omega)
    rw [List.length_append]
    simp only [List.length_cons, List.length_nil]
    omega
  · simp only
    have h1 : (decimal (D / 10 ^ (54 - E))).length ≤ 94 :=
      decimal_length_le (lt_of_le_of_lt (Nat.div_le_self _ _) hD) (by decide)
    have h2 : (decimal (D % 10 ^ (54 - E))).length ≤ 94 :=
      decimal_length_le (lt_of_le_of_lt (Nat.mod_le _ _) hD) (by decide)
    have h3 := (trimZeros_length (zeroPad (54 - E) (decimal (D % 10 ^ (54 - E))))).trans (zeroPad_length _ _)
    rw [List.length_append, List.length_cons]
    split
    · simp only [List.length_cons, List.length_nil]; omega
    · omega

theorem scientific_length {D E : Nat} (hD : D < 10 ^ 94) (hE : E ≤ 93) : (scientific D E).length ≤ 250 := by
  unfold scientific
  simp only
  have h1 : (decimal D).length ≤ 94 := decimal_length_le hD (by decide)
  have h2 := trimZeros_length (decimal D)
  have h3 := zeroPad_length 2 (decimal ((E : Int) + (decimal D).length - 1 - 54).natAbs)
  have h4 : (decimal ((E : Int) + (decimal D).length - 1 - 54).natAbs).length ≤ 4 :=
    decimal_length_le (by omega) (by decide)
  rw [List.length_append, List.length_cons, List.length_cons]
  refine le_trans (Nat.add_le_add_right (?_ : _ ≤ 96) _) (by omega)
  split
  · simp
  · simp
  · rename_i h
    rw [h] at h2
    simp only [List.length_cons] at h2 ⊢
    omega

theorem str_length (x : F32) : (str x).length ≤ 256 := by
  unfold str
  split
  · simp
  · rename_i hn
    have hle : mant x ≤ inf := by
      unfold isNaN at hn
      simp only [decide_eq_true_eq] at hn
      omega
    obtain ⟨h1, h2⟩ := shortest_size hle
    have hs : (if sign x then [45] else ([] : PyStr)).length ≤ 1 := by split <;> simp
    simp only
    rw [List.length_append]
    have : (if mant x = inf then [105, 110, 102]
      else if mant x = 0 then [48, 46, 48]
      else if 2 ^ 149 ≤ mag (mant x) * 10 ^ 4 ∧ mag (mant x) < 10 ^ 16 * 2 ^ 149
        then positional (shortest (mant x)).1 (shortest (mant x)).2
      else scientific (shortest (mant x)).1 (shortest (mant x)).2 : PyStr).length ≤ 250 := by
      split
      · simp
      · split
        · simp
        · split
          · exact positional_length h1 h2
          · exact scientific_length h1 h2
    omega

end B32

end FF
