import Verif.Lemmas.PyInt
/-! `str(n)` is the canonical numeral. -/

namespace FF

theorem decimal_no_zero (n : Nat) (h : (decimal n).head? = some 48) : decimal n = [48] := by
  unfold decimal at h ⊢
  split
  · rfl
  · rename_i hn
    rw [if_neg hn, List.head?_map, List.head?_reverse, List.getLast?_eq_getLast_of_ne_nil
      (Nat.digits_ne_nil_iff_ne_zero.mpr hn), Option.map_some, Option.some.injEq] at h
    have h1 := Nat.getLast_digit_ne_zero 10 hn
    have h2 := Nat.digits_lt_base (b := 10) (by omega)
      (List.getLast_mem (Nat.digits_ne_nil_iff_ne_zero.mpr hn))
    have h3 := congrArg Fin.val h
    rw [toCode_val_of (by omega)] at h3
    have : ((48 : Code).val) = 48 := rfl
    omega

/-- A numeral of ASCII digits, as digits from the least significant one. -/
theorem numeral_digits {s : PyStr} {n : Nat} (h : Numeral s n) (hu : ∀ c ∈ s, 48 ≤ c.val ∧ c.val ≤ 57) :
    ∃ ds : List Nat, ds ≠ [] ∧ (∀ d ∈ ds, d < 10) ∧ n = Nat.ofDigits 10 ds ∧
      s = ds.reverse.map fun d => toCode (48 + d) := by
  have code : ∀ {c : Code} {d : Nat}, Digit c d → (48 ≤ c.val ∧ c.val ≤ 57) → toCode (48 + d) = c :=
    fun {c d} h hc => by
      have e : toCode (48 + (c.val - 48)) = c := by
        apply Fin.ext
        rw [toCode_val_of (by omega)]
        omega
      have h1 := digitVal_ascii (d := c.val - 48) (by omega)
      rw [e, digitVal_digit.mpr h, Option.some.injEq] at h1
      rw [h1, e]
  induction h with
  | @one c d hd =>
    refine ⟨[d], by simp, by simpa using hd.1, by simp, ?_⟩
    simp [code hd (hu c (by simp))]
  | @more s n d c _ hd ih =>
    obtain ⟨ds, -, h2, rfl, h4⟩ := ih fun x hx => hu x (by simp [hx])
    refine ⟨d :: ds, by simp, ?_, ?_, ?_⟩
    · intro x hx
      rcases List.mem_cons.mp hx with rfl | hx
      · exact hd.1
      · exact h2 x hx
    · rw [Nat.ofDigits_cons]
      ring
    · rw [h4]
      simp [code hd (hu c (by simp))]
  | under _ _ _ => exact absurd (hu 95 (by simp)) (by decide)

theorem canonical_unique {s : PyStr} {n : Nat} (h : Numeral s n) (hu : ∀ c ∈ s, 48 ≤ c.val ∧ c.val ≤ 57)
    (hz : s.head? = some 48 → s = [48]) : s = decimal n := by
  obtain ⟨ds, h1, h2, rfl, rfl⟩ := numeral_digits h hu
  by_cases hl : ds.getLast h1 = 0
  · have hh : ((ds.reverse.map fun d => toCode (48 + d)).head?) = some 48 := by
      rw [List.head?_map, List.head?_reverse, List.getLast?_eq_getLast_of_ne_nil h1, hl]
      rfl
    have hs := hz hh
    have hlen : ds.length = 1 := by simpa using congrArg List.length hs
    obtain ⟨d, rfl⟩ := List.length_eq_one_iff.mp hlen
    simp only [List.getLast_singleton] at hl
    subst hl
    rfl
  · have hd := Nat.digits_ofDigits 10 (by omega) ds h2 fun h => hl
    unfold decimal
    rw [hd, if_neg]
    intro h0
    rw [h0] at hd
    simp only [Nat.digits_zero] at hd
    exact h1 hd.symm

end FF
