import Verif.Model.PyText
import Verif.Lemmas.Utf8
import Mathlib.Data.Nat.Digits.Lemmas
/-! Lemmas on Python text primitives. -/

namespace FF

/-! ### Stripping -/

theorem lstrip_append {j w : PyStr} (hj : ∀ c ∈ j, isSpace c = true) : lstrip (j ++ w) = lstrip w := by
  induction j with
  | nil => rfl
  | cons c j ih =>
    rw [List.cons_append, lstrip, if_pos (hj c (by simp))]
    exact ih fun d hd => hj d (List.mem_cons_of_mem _ hd)

theorem lstrip_self {w : PyStr} (h : ∀ c, w.head? = some c → isSpace c = false) : lstrip w = w := by
  cases w with
  | nil => rfl
  | cons c w => rw [lstrip, if_neg (by simp [h c rfl])]

theorem rstrip_spaces {j : PyStr} (hj : ∀ c ∈ j, isSpace c = true) : rstrip j = [] := by
  induction j with
  | nil => rfl
  | cons c j ih =>
    rw [rstrip, ih fun d hd => hj d (List.mem_cons_of_mem _ hd)]
    simp [hj c (by simp)]

theorem rstrip_append {w j : PyStr} (hj : ∀ c ∈ j, isSpace c = true) : rstrip (w ++ j) = rstrip w := by
  induction w with
  | nil => rw [List.nil_append, rstrip_spaces hj]; rfl
  | cons c w ih => rw [List.cons_append, rstrip, ih, rstrip]

theorem rstrip_self {w : PyStr} (h : ∀ c, w.getLast? = some c → isSpace c = false) : rstrip w = w := by
  induction w with
  | nil => rfl
  | cons c w ih =>
    cases w with
    | nil => rw [rstrip, rstrip]; simp [h c rfl]
    | cons d w =>
      rw [rstrip, ih (fun e he => h e (by rw [List.getLast?_cons_cons]; exact he))]

/-- The word neither starts nor ends with whitespace. -/
def Trimmed (w : PyStr) : Prop :=
  (∀ c, w.head? = some c → isSpace c = false) ∧ (∀ c, w.getLast? = some c → isSpace c = false)

theorem strip_append {j w : PyStr} (hj : ∀ c ∈ j, isSpace c = true) (h : Trimmed w) :
    strip (j ++ w) = w := by
  unfold strip
  rw [lstrip_append hj, lstrip_self h.1, rstrip_self h.2]

theorem trimmed_of_none {w : PyStr} (h : ∀ c ∈ w, isSpace c = false) : Trimmed w :=
  ⟨fun c hc => h c (List.mem_of_mem_head? hc), fun c hc => h c (List.mem_of_mem_getLast? hc)⟩

/-! ### Splitting -/

theorem pieces_free {sep : Code → Bool} {p : PyStr} (h : ∀ c ∈ p, sep c = false) :
    pieces sep p = [p] := by
  induction p with
  | nil => rfl
  | cons c p ih =>
    rw [pieces, ih fun d hd => h d (List.mem_cons_of_mem _ hd)]
    simp [h c (by simp)]

theorem pieces_ne_nil (sep : Code → Bool) (p : PyStr) : pieces sep p ≠ [] := by
  cases p with
  | nil => simp [pieces]
  | cons c p =>
    rw [pieces]
    split
    · simp
    · split <;> simp

theorem pieces_append {sep : Code → Bool} {p rest : PyStr} {c : Code}
    (h : ∀ c ∈ p, sep c = false) (hc : sep c = true) :
    pieces sep (p ++ c :: rest) = p :: pieces sep rest := by
  induction p with
  | nil =>
    rw [List.nil_append, pieces]
    split
    · rename_i h'; exact absurd h' (pieces_ne_nil _ _)
    · rename_i p ps h'
      rw [if_pos hc, h']
  | cons d p ih =>
    rw [List.cons_append, pieces, ih fun d hd => h d (List.mem_cons_of_mem _ hd)]
    simp [h d (by simp)]

/-! ### Numbers -/

theorem toCode_val_of {n : Nat} (h : n < 0x110000) : (toCode n).val = n := by
  simp [toCode, h]

/-- Digits only. -/
def AllDigits (s : PyStr) : Prop := ∀ c ∈ s, 48 ≤ c.val ∧ c.val ≤ 57

theorem decimal_digits (n : Nat) : AllDigits (decimal n) := by
  unfold decimal
  split
  · intro c hc
    rw [List.mem_singleton] at hc
    subst hc
    decide
  · intro c hc
    obtain ⟨d, hd, rfl⟩ := List.mem_map.mp hc
    have := Nat.digits_lt_base (b := 10) (by omega) (List.mem_reverse.mp hd)
    rw [toCode_val_of (by omega)]
    omega

theorem decimal_ne_nil (n : Nat) : decimal n ≠ [] := by
  unfold decimal
  split
  · simp
  · rename_i h
    simp [Nat.digits_eq_nil_iff_eq_zero, h]

theorem digit_not_space {c : Code} (h : 48 ≤ c.val ∧ c.val ≤ 57) : isSpace c = false := by
  unfold isSpace
  simp only [Bool.or_eq_false_iff, Bool.and_eq_false_iff, decide_eq_false_iff_not, beq_eq_false_iff_ne]
  omega

theorem digitVal_iff {c : Code} {d : Nat} :
    digitVal c = some d ↔ d < 10 ∧ ∃ z ∈ decimalZeros, c.val = z + d := by
  have hp : decimalZeros.Pairwise fun a b => a + 10 ≤ b := by decide
  unfold digitVal
  rw [Option.map_eq_some_iff]
  constructor
  · rintro ⟨z, hz, rfl⟩
    have h1 := List.find?_some hz
    simp only [Bool.and_eq_true, decide_eq_true_eq] at h1
    exact ⟨by omega, z, List.mem_of_find?_eq_some hz, by omega⟩
  · rintro ⟨hd, z, hz, hc⟩
    obtain ⟨y, hy⟩ : ∃ y, decimalZeros.find? (fun z => z ≤ c.val && c.val < z + 10) = some y := by
      rw [← Option.isSome_iff_exists, List.find?_isSome]
      exact ⟨z, hz, by simp only [Bool.and_eq_true, decide_eq_true_eq]; omega⟩
    refine ⟨y, hy, ?_⟩
    have h1 := List.find?_some hy
    simp only [Bool.and_eq_true, decide_eq_true_eq] at h1
    have hm := List.mem_of_find?_eq_some hy
    have : y = z := by
      obtain ⟨i, hi, rfl⟩ := List.mem_iff_getElem.mp hm
      obtain ⟨j, hj, rfl⟩ := List.mem_iff_getElem.mp hz
      rw [List.pairwise_iff_getElem] at hp
      rcases Nat.lt_trichotomy i j with h | h | h
      · have := hp i j hi hj h; omega
      · subst h; rfl
      · have := hp j i hj hi h; omega
    omega

theorem digitVal_ascii {d : Nat} (hd : d < 10) : digitVal (toCode (48 + d)) = some d :=
  digitVal_iff.mpr ⟨hd, 48, by decide, toCode_val_of (by omega)⟩

/-- Digits are no whitespace. -/
theorem digitVal_not_space {c : Code} {d : Nat} (h : digitVal c = some d) : isSpace c = false := by
  obtain ⟨hd, z, hz, hc⟩ := digitVal_iff.mp h
  unfold isSpace
  rw [hc]
  have : ∀ z ∈ decimalZeros, ∀ d < 10, ((9 ≤ z + d && z + d ≤ 13) || (28 ≤ z + d && z + d ≤ 32) || z + d == 0x85 ||
      z + d == 0xA0 || z + d == 0x1680 || (0x2000 ≤ z + d && z + d ≤ 0x200A) || z + d == 0x2028 ||
      z + d == 0x2029 || z + d == 0x202F || z + d == 0x205F || z + d == 0x3000) = false := by decide
  exact this z hz d hd

theorem dropWhile_append_all {p : Code → Bool} {a b : PyStr} (h : ∀ c ∈ a, p c = true) :
    (a ++ b).dropWhile p = b.dropWhile p := by
  induction a with
  | nil => rfl
  | cons c a ih =>
    rw [List.cons_append, List.dropWhile_cons_of_pos (h c (by simp))]
    exact ih fun d hd => h d (List.mem_cons_of_mem _ hd)

theorem dropWhile_self {p : Code → Bool} {a : PyStr} (h : ∀ c, a.head? = some c → p c = false) :
    a.dropWhile p = a := by
  cases a with
  | nil => rfl
  | cons c a => exact List.dropWhile_cons_of_neg (by simp [h c rfl])

theorem all_takeWhile {p : Code → Bool} {s : PyStr} : ∀ c ∈ s.takeWhile p, p c = true := by
  intro c hc
  exact List.all_eq_true.mp List.all_takeWhile c hc

theorem trimBy_append {p : Code → Bool} {t0 a t1 : PyStr} (h0 : ∀ c ∈ t0, p c = true) (h1 : ∀ c ∈ t1, p c = true)
    (ha : ∀ c, a.head? = some c → p c = false) (hb : ∀ c, a.getLast? = some c → p c = false) :
    trimBy p (t0 ++ a ++ t1) = a := by
  unfold trimBy
  rw [List.append_assoc, dropWhile_append_all h0]
  cases a with
  | nil =>
    have := dropWhile_append_all (b := []) h1
    rw [List.append_nil] at this
    rw [List.nil_append, this]
    rfl
  | cons c a =>
    rw [dropWhile_self (a := c :: a ++ t1) (by simpa using ha), List.reverse_append,
      dropWhile_append_all (by simpa using h1),
      dropWhile_self fun d hd => hb d (by rwa [List.head?_reverse] at hd), List.reverse_reverse]

theorem trimBy_none {p : Code → Bool} {a : PyStr} (h : ∀ c ∈ a, p c = false) : trimBy p a = a := by
  have := trimBy_append (p := p) (t0 := []) (a := a) (t1 := []) (by simp) (by simp)
    (fun c hc => h c (List.mem_of_mem_head? hc)) (fun c hc => h c (List.mem_of_getLast? hc))
  simpa using this

theorem trimBy_decompose (p : Code → Bool) (s : PyStr) : ∃ t0 t1, s = t0 ++ trimBy p s ++ t1 ∧
    (∀ c ∈ t0, p c = true) ∧ (∀ c ∈ t1, p c = true) := by
  refine ⟨s.takeWhile p, ((s.dropWhile p).reverse.takeWhile p).reverse, ?_, ?_, ?_⟩
  · unfold trimBy
    rw [List.append_assoc, ← List.reverse_append, List.takeWhile_append_dropWhile, List.reverse_reverse,
      List.takeWhile_append_dropWhile]
  · intro c hc
    exact all_takeWhile c hc
  · intro c hc
    exact all_takeWhile c (List.mem_reverse.mp hc)

theorem isNumSpace_of_not {c : Code} (h : isSpace c = false) : isNumSpace c = false := by
  unfold isNumSpace
  rw [h]
  rfl

theorem parseDigits_map (ls : List Nat) (h : ∀ d ∈ ls, d < 10) (b : Bool) (acc : Nat) :
    parseDigits b acc (ls.map fun d => toCode (48 + d)) =
      if ls = [] ∧ b = false then none else some (ls.foldl (fun a d => a * 10 + d) acc) := by
  induction ls generalizing b acc with
  | nil => cases b <;> rfl
  | cons d ls ih =>
    have hd := h d (by simp)
    rw [List.map_cons, parseDigits]
    rw [digitVal_ascii hd]
    simp only
    rw [ih fun d hd => h d (List.mem_cons_of_mem _ hd)]
    simp

theorem parseDigits_decimal (n : Nat) : parseDigits false 0 (decimal n) = some n := by
  unfold decimal
  split
  · rename_i h; subst h; decide
  · rename_i h
    rw [parseDigits_map _ fun d hd => Nat.digits_lt_base (b := 10) (by omega) (List.mem_reverse.mp hd)]
    rw [if_neg (by simp [Nat.digits_eq_nil_iff_eq_zero, h])]
    rw [List.foldl_reverse]
    have := Nat.ofDigits_digits 10 n
    rw [Nat.ofDigits_eq_foldr] at this
    conv => rhs; rw [← this]
    congr 2
    funext d a
    simp
    omega

theorem pyInt_decimal (n : Nat) : pyInt (decimal n) = .ok (n : Int) := by
  have hd := decimal_digits n
  have hs : trimBy isNumSpace (decimal n) = decimal n :=
    trimBy_none fun c hc => isNumSpace_of_not (digit_not_space (hd c hc))
  unfold pyInt
  rw [hs]
  cases hc : decimal n with
  | nil => exact absurd hc (decimal_ne_nil n)
  | cons c cs =>
    have hcd := hd c (by rw [hc]; simp)
    have h45 : ¬ c = 45 := by intro h; subst h; revert hcd; decide
    have h43 : ¬ c = 43 := by intro h; subst h; revert hcd; decide
    simp only
    rw [if_neg h45, if_neg h43, ← hc, parseDigits_decimal]
    rfl

/-! ### ASCII -/

theorem encCode_ascii {c : Code} (h : c.val < 128) : encCode c = [UInt8.ofNat c.val] := by
  unfold encCode
  simp only
  rw [if_pos h]

theorem decodeAscii_utf8 {s : PyStr} (h : ∀ c ∈ s, c.val < 128) : decodeAscii (utf8 s) = .ok s := by
  induction s with
  | nil => rfl
  | cons c s ih =>
    have hc := h c (by simp)
    rw [utf8, encCode_ascii hc, List.cons_append, List.nil_append, decodeAscii,
      u8_toNat_ofNat (by omega), if_pos hc, ih fun d hd => h d (List.mem_cons_of_mem _ hd)]
    simp only
    rw [toCode_val]

/-- The bytes of a string contain an ASCII byte only where the string contains that character. -/
theorem mem_encCode {c : Code} {b : UInt8} (hb : b ∈ encCode c) (h : b.toNat < 128) :
    c.val = b.toNat := by
  have hc := c.isLt
  unfold encCode at hb
  simp only at hb
  split at hb
  · rw [List.mem_singleton] at hb
    subst hb
    rw [u8_toNat_ofNat (by omega)]
  · split at hb
    · simp only [List.mem_cons, List.not_mem_nil, or_false] at hb
      rcases hb with rfl | rfl <;> rw [u8_toNat_ofNat (by omega)] at h <;> omega
    · split at hb
      · simp only [List.mem_cons, List.not_mem_nil, or_false] at hb
        rcases hb with rfl | rfl | rfl <;> rw [u8_toNat_ofNat (by omega)] at h <;> omega
      · simp only [List.mem_cons, List.not_mem_nil, or_false] at hb
        rcases hb with rfl | rfl | rfl | rfl <;> rw [u8_toNat_ofNat (by omega)] at h <;> omega

theorem mem_utf8 {s : PyStr} {b : UInt8} (hb : b ∈ utf8 s) (h : b.toNat < 128) :
    ∃ c ∈ s, c.val = b.toNat := by
  induction s with
  | nil => cases hb
  | cons c s ih =>
    rw [utf8, List.mem_append] at hb
    rcases hb with hb | hb
    · exact ⟨c, by simp, mem_encCode hb h⟩
    · obtain ⟨d, hd, h'⟩ := ih hb
      exact ⟨d, List.mem_cons_of_mem _ hd, h'⟩

end FF
