import Verif.Spec.PyInt
import Verif.Lemmas.PyText
/-! `int()` accepts exactly the integer literals. -/

namespace FF

theorem digitVal_digit {c : Code} {d : Nat} : digitVal c = some d ↔ Digit c d := digitVal_iff

theorem digit_ne_95 {c : Code} {d : Nat} (h : Digit c d) : c ≠ 95 := by
  rintro rfl
  have := digitVal_digit.mpr h
  revert this
  rw [show digitVal (95 : Code) = none by decide]
  simp

theorem parseDigits_under (acc : Nat) (cs : PyStr) :
    parseDigits true acc (95 :: cs) = parseDigits false acc cs := by
  rw [parseDigits]
  have : digitVal (95 : Code) = none := by decide
  rw [this]
  simp

theorem parseDigits_digit {c : Code} {d : Nat} (h : Digit c d) (b : Bool) (acc : Nat) (cs : PyStr) :
    parseDigits b acc (c :: cs) = parseDigits true (acc * 10 + d) cs := by
  rw [parseDigits, digitVal_digit.mpr h]

theorem numeral_parse {s : PyStr} {n : Nat} (h : Numeral s n) :
    ∀ rest, parseDigits false 0 (s ++ rest) = parseDigits true n rest := by
  induction h with
  | one hd =>
    intro rest
    rw [List.singleton_append, parseDigits_digit hd]
    simp
  | more _ hd ih =>
    intro rest
    rw [List.append_assoc, ih, List.singleton_append, parseDigits_digit hd, Nat.mul_comm]
  | under _ hd ih =>
    intro rest
    rw [List.append_assoc, ih, List.cons_append, List.singleton_append, parseDigits_under,
      parseDigits_digit hd, Nat.mul_comm]

/-- What has been read before: nothing, a numeral, or a numeral and an underscore. -/
inductive NumBefore : Bool → Nat → PyStr → Prop
  | start : NumBefore false 0 []
  | num {s : PyStr} {n : Nat} : Numeral s n → NumBefore true n s
  | under {s : PyStr} {n : Nat} : Numeral s n → NumBefore false n (s ++ [95])

theorem numBefore_digit {b : Bool} {acc d : Nat} {t : PyStr} {c : Code} (h : NumBefore b acc t)
    (hd : Digit c d) : NumBefore true (acc * 10 + d) (t ++ [c]) := by
  cases h with
  | start => rw [Nat.zero_mul, Nat.zero_add]; exact .num (.one hd)
  | num h => rw [Nat.mul_comm]; exact .num (.more h hd)
  | under h =>
    rw [Nat.mul_comm, List.append_assoc]
    exact .num (.under h hd)

theorem parse_numeral {s : PyStr} : ∀ {b : Bool} {acc m : Nat} {t : PyStr}, NumBefore b acc t →
    parseDigits b acc s = some m → Numeral (t ++ s) m := by
  induction s with
  | nil =>
    intro b acc m t ht h
    cases ht with
    | start => simp [parseDigits] at h
    | num hn =>
      rw [parseDigits, if_pos rfl] at h
      cases h
      rwa [List.append_nil]
    | under hn => simp [parseDigits] at h
  | cons c s ih =>
    intro b acc m t ht h
    cases hc : digitVal c with
    | some d =>
      have hd := digitVal_digit.mp hc
      rw [parseDigits_digit hd] at h
      have := ih (numBefore_digit ht hd) h
      rwa [List.append_assoc, List.singleton_append] at this
    | none =>
      rw [parseDigits, hc] at h
      simp only at h
      split at h
      · rename_i h95
        obtain ⟨rfl, rfl⟩ := h95
        cases ht with
        | num hn =>
          have := ih (.under hn) h
          rwa [List.append_assoc, List.singleton_append] at this
      · cases h

theorem parseDigits_iff {s : PyStr} {n : Nat} : parseDigits false 0 s = some n ↔ Numeral s n := by
  constructor
  · intro h
    exact parse_numeral .start h
  · intro h
    have := numeral_parse h []
    rwa [List.append_nil, parseDigits, if_pos rfl] at this

theorem numeral_head {s : PyStr} {n : Nat} (h : Numeral s n) :
    ∃ c d cs, s = c :: cs ∧ Digit c d := by
  induction h with
  | one hd => exact ⟨_, _, _, rfl, hd⟩
  | more _ _ ih =>
    obtain ⟨c, d, cs, rfl, hd⟩ := ih
    exact ⟨c, d, _, rfl, hd⟩
  | under _ _ ih =>
    obtain ⟨c, d, cs, rfl, hd⟩ := ih
    exact ⟨c, d, _, rfl, hd⟩

theorem pyInt_iff {s : PyStr} {i : Int} : pyInt s = .ok i ↔ IntText (trimBy isNumSpace s) i := by
  have key : ∀ (neg : Bool) (cs : PyStr), (match parseDigits false 0 cs with
      | some n => (.ok (if neg then -(n : Int) else n) : Res Int)
      | none => .error .valueError) = .ok i ↔
      ∃ n, Numeral cs n ∧ i = if neg then -(n : Int) else n := by
    intro neg cs
    cases h : parseDigits false 0 cs with
    | none =>
      simp only [reduceCtorEq, false_iff]
      rintro ⟨n, hn, -⟩
      rw [parseDigits_iff.mpr hn] at h
      cases h
    | some m =>
      simp only [Except.ok.injEq]
      constructor
      · intro hi
        exact ⟨m, parseDigits_iff.mp h, hi.symm⟩
      · rintro ⟨n, hn, rfl⟩
        rw [parseDigits_iff.mpr hn] at h
        cases h
        rfl
  have d45 : ∀ d, ¬ Digit (45 : Code) d := fun d h => by
    have := digitVal_digit.mpr h
    rw [show digitVal (45 : Code) = none by decide] at this
    cases this
  have d43 : ∀ d, ¬ Digit (43 : Code) d := fun d h => by
    have := digitVal_digit.mpr h
    rw [show digitVal (43 : Code) = none by decide] at this
    cases this
  unfold pyInt
  simp only
  cases hs : trimBy isNumSpace s with
  | nil =>
    simp only [reduceCtorEq, false_iff]
    rintro ⟨t, n, hn, (⟨rfl | h, -⟩ | ⟨h, -⟩)⟩
    · obtain ⟨c, d, cs, h, -⟩ := numeral_head hn
      cases h
    · cases h
    · cases h
  | cons c cs =>
    simp only
    split
    · rename_i h
      subst h
      refine (key true cs).trans ⟨?_, ?_⟩
      · rintro ⟨n, hn, hi⟩
        exact ⟨cs, n, hn, .inr ⟨rfl, hi⟩⟩
      · rintro ⟨t, n, hn, (⟨rfl | h, hi⟩ | ⟨h, hi⟩)⟩
        · obtain ⟨c, d, cs, h, hd⟩ := numeral_head hn
          cases h
          exact absurd hd (d45 d)
        · cases h
        · cases h
          exact ⟨n, hn, hi⟩
    · rename_i h45
      split
      · rename_i h
        subst h
        refine (key false cs).trans ⟨?_, ?_⟩
        · rintro ⟨n, hn, hi⟩
          exact ⟨cs, n, hn, .inl ⟨.inr rfl, hi⟩⟩
        · rintro ⟨t, n, hn, (⟨rfl | h, hi⟩ | ⟨h, hi⟩)⟩
          · obtain ⟨c, d, cs, h, hd⟩ := numeral_head hn
            cases h
            exact absurd hd (d43 d)
          · cases h
            exact ⟨n, hn, hi⟩
          · cases h
      · rename_i h43
        refine (key false (c :: cs)).trans ⟨?_, ?_⟩
        · rintro ⟨n, hn, hi⟩
          exact ⟨_, n, hn, .inl ⟨.inl rfl, hi⟩⟩
        · rintro ⟨t, n, hn, (⟨rfl | h, hi⟩ | ⟨h, hi⟩)⟩
          · exact ⟨n, hn, hi⟩
          · cases h
            exact absurd rfl h43
          · cases h
            exact absurd rfl h45

theorem numeral_last {s : PyStr} {n : Nat} (h : Numeral s n) : ∃ c d, s.getLast? = some c ∧ Digit c d := by
  cases h with
  | one h => exact ⟨_, _, rfl, h⟩
  | more _ h => exact ⟨_, _, by simp, h⟩
  | under _ h => exact ⟨_, _, by simp, h⟩

/-- Integer literals neither start nor end with whitespace. -/
theorem intText_ends {s : PyStr} {i : Int} (h : IntText s i) (c : Code) (hc : s.head? = some c ∨ s.getLast? = some c) :
    isSpace c = false := by
  obtain ⟨t, n, hn, ht⟩ := h
  obtain ⟨a, d, cs, ht1, ha⟩ := numeral_head hn
  obtain ⟨b, d', ht2, hb⟩ := numeral_last hn
  have ha' := digitVal_not_space (digitVal_digit.mpr ha)
  have hb' := digitVal_not_space (digitVal_digit.mpr hb)
  have hl : ∀ x : Code, (x :: t).getLast? = t.getLast? := fun x => by rw [ht1, List.getLast?_cons_cons]
  have key : ∀ x : Code, isSpace x = false → s = x :: t → isSpace c = false := by
    rintro x hx rfl
    rcases hc with hc | hc
    · cases hc; exact hx
    · rw [hl, ht2] at hc; cases hc; exact hb'
  rcases ht with ⟨rfl | h, -⟩ | ⟨h, -⟩
  · rcases hc with hc | hc
    · rw [ht1] at hc; cases hc; exact ha'
    · rw [ht2] at hc; cases hc; exact hb'
  · exact key 43 (by decide) h
  · exact key 45 (by decide) h

theorem pyInt_iff_of_none {s : PyStr} {i : Int} (h : ∀ c ∈ s, isSpace c = false) :
    pyInt s = .ok i ↔ IntText s i := by
  rw [pyInt_iff, trimBy_none fun c hc => isNumSpace_of_not (h c hc)]

end FF
