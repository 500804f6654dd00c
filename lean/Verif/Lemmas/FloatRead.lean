import Verif.Lemmas.PyText
import Verif.Lemmas.Float32Ops
import Verif.Model.FloatText
import Verif.Spec.FloatText
/-!
# Reading decimal numbers
-/

namespace FF

/-! ### Digits -/

theorem digitsVal_nil : digitsVal [] = 0 := rfl

theorem foldl_digits (a : Nat) (s : PyStr) : s.foldl (fun n c => n * 10 + (c.val - 48)) a =
    a * 10 ^ s.length + digitsVal s := by
  unfold digitsVal
  induction s generalizing a with
  | nil => simp
  | cons c s ih =>
    rw [List.foldl_cons, List.foldl_cons, ih (a * 10 + (c.val - 48)), ih (0 * 10 + (c.val - 48)), List.length_cons]
    ring

theorem digitsVal_append (s t : PyStr) : digitsVal (s ++ t) = digitsVal s * 10 ^ t.length + digitsVal t := by
  unfold digitsVal
  rw [List.foldl_append, foldl_digits]
  rfl

theorem digitsVal_zeros (n : Nat) : digitsVal (List.replicate n 48) = 0 := by
  induction n with
  | zero => rfl
  | succ n ih =>
    rw [List.replicate_succ', digitsVal_append, ih]
    rfl

theorem digitsVal_lt {s : PyStr} (h : Digits s) : digitsVal s < 10 ^ s.length := by
  induction s using List.reverseRecOn with
  | nil => simp [digitsVal]
  | append_singleton s c ih =>
    have h1 := ih fun x hx => h x (by simp [hx])
    have h2 := h c (by simp)
    rw [digitsVal_append, List.length_append]
    have h3 : digitsVal [c] = c.val - 48 := by simp [digitsVal]
    rw [h3]
    simp only [List.length_singleton, pow_succ, pow_zero]
    omega

theorem digits_append {s t : PyStr} (hs : Digits s) (ht : Digits t) : Digits (s ++ t) := by
  intro c hc
  rcases List.mem_append.mp hc with hc | hc
  · exact hs c hc
  · exact ht c hc

theorem digits_zeros (n : Nat) : Digits (List.replicate n 48) := by
  intro c hc
  rw [(List.mem_replicate.mp hc).2]
  decide

theorem digits_decimal (n : Nat) : Digits (decimal n) := decimal_digits n

theorem digitsVal_reverse (ds : List Nat) (h : ∀ d ∈ ds, d < 10) :
    digitsVal (ds.reverse.map fun d => toCode (48 + d)) = Nat.ofDigits 10 ds := by
  induction ds with
  | nil => rfl
  | cons d ds ih =>
    rw [List.reverse_cons, List.map_append, digitsVal_append, ih fun x hx => h x (by simp [hx]), Nat.ofDigits_cons]
    have h1 := h d (by simp)
    have h2 : digitsVal [toCode (48 + d)] = d := by
      unfold digitsVal
      rw [List.foldl_cons, List.foldl_nil, toCode_val_of (by omega)]
      omega
    rw [List.map_singleton, h2]
    simp only [List.length_singleton, pow_one]
    ring

theorem digitsVal_decimal (n : Nat) : digitsVal (decimal n) = n := by
  unfold decimal
  split
  · rename_i h
    rw [h]
    rfl
  · rw [digitsVal_reverse _ fun d hd => Nat.digits_lt_base (by norm_num) hd, Nat.ofDigits_digits]

theorem decimal_length {n : Nat} (h : 0 < n) : (decimal n).length = Nat.log 10 n + 1 := by
  unfold decimal
  rw [if_neg h.ne', List.length_map, List.length_reverse, Nat.digits_len 10 n (by norm_num) h.ne']

namespace B32

theorem isDigit_iff {c : Code} : isDigit c = true ↔ 48 ≤ c.val ∧ c.val ≤ 57 := by
  unfold isDigit
  rw [Bool.and_eq_true, decide_eq_true_iff, decide_eq_true_iff]

theorem takeDigits_append {ds r : PyStr} (h : Digits ds) (hr : ∀ c, r.head? = some c → isDigit c = false) (a n : Nat) :
    takeDigits a n (ds ++ r) = (a * 10 ^ ds.length + digitsVal ds, n + ds.length, r) := by
  induction ds generalizing a n with
  | nil =>
    simp only [List.nil_append, List.length_nil, pow_zero, Nat.mul_one, Nat.add_zero, digitsVal_nil]
    cases r with
    | nil => rfl
    | cons c r =>
      rw [takeDigits, hr c rfl]
      rfl
  | cons c ds ih =>
    rw [List.cons_append, takeDigits, isDigit_iff.mpr (h c (by simp)), if_pos rfl, ih fun x hx => h x (by simp [hx])]
    have e : digitsVal (c :: ds) = (c.val - 48) * 10 ^ ds.length + digitsVal ds := by
      have := digitsVal_append [c] ds
      rw [List.singleton_append] at this
      rw [this]
      simp [digitsVal]
    rw [e, List.length_cons]
    refine Prod.ext ?_ (Prod.ext ?_ rfl)
    · simp only
      ring
    · simp only
      omega

theorem exponent_spec {xt : PyStr} {y : Int} (h : Exponent xt y) :
    (xt = [] ∧ y = 0) ∨ ∃ c r, xt = c :: r ∧ (c = 101 ∨ c = 69) ∧ exponent r = some y := by
  have nosign : ∀ {ds : PyStr}, Digits ds → ds ≠ [] → takeSign ds = (false, ds) := by
    intro ds hd hne
    cases ds with
    | nil => exact absurd rfl hne
    | cons c ds =>
      have hc := hd c (by simp)
      rw [takeSign, if_neg, if_neg]
      · rintro rfl
        exact absurd hc (by decide)
      · rintro rfl
        exact absurd hc (by decide)
  have td : ∀ {ds : PyStr}, Digits ds → takeDigits 0 0 ds = (digitsVal ds, ds.length, []) := by
    intro ds hd
    have := takeDigits_append (r := []) hd (by simp) 0 0
    rw [List.append_nil] at this
    rw [this]
    simp
  cases h with
  | none => exact .inl ⟨rfl, rfl⟩
  | @pos c sg ds hc hsg hd hne =>
    refine .inr ⟨c, sg ++ ds, rfl, hc, ?_⟩
    have hs : takeSign (sg ++ ds) = (false, ds) := by
      rcases hsg with rfl | rfl
      · exact nosign hd hne
      · rfl
    unfold exponent
    rw [hs]
    simp only [td hd]
    rw [if_neg]
    · simp
    · simp [hne]
  | @neg c ds hc hd hne =>
    refine .inr ⟨c, 45 :: ds, rfl, hc, ?_⟩
    have hs : takeSign (45 :: ds) = (true, ds) := rfl
    unfold exponent
    rw [hs]
    simp only [td hd]
    rw [if_neg]
    · simp
    · simp [hne]

theorem number_spec {s : PyStr} {m : Nat} {x : Int} (h : Unsigned s m x) : number s = some (m, x) := by
  obtain ⟨i, f, ft, xt, y, hi, hf, hx, hne, rfl, rfl, rfl⟩ := h
  have hxt : ∀ c, xt.head? = some c → c = 101 ∨ c = 69 := by
    intro c hc
    rcases exponent_spec hx with ⟨rfl, -⟩ | ⟨c', r, rfl, h, -⟩
    · cases hc
    · cases hc
      exact h
  have hxd : ∀ c, xt.head? = some c → isDigit c = false := by
    intro c hc
    rcases hxt c hc with rfl | rfl <;> decide
  have hpos : i.length + f.length ≠ 0 := by
    rw [← List.length_append]
    exact fun h0 => hne (List.eq_nil_of_length_eq_zero h0)
  have last : ∀ n k : Nat, withExponent n k xt = some (n, y - k) := by
    intro n k
    rcases exponent_spec hx with ⟨rfl, rfl⟩ | ⟨c, r, rfl, hc, he⟩
    · simp [withExponent]
    · rw [withExponent, if_pos hc, he, Option.map_some]
  unfold number
  cases hf with
  | none =>
    have e2 : fraction (digitsVal i) xt = (digitsVal i, 0, xt) := by
      cases xt with
      | nil => rfl
      | cons c r =>
        rw [fraction, if_neg]
        rcases hxt c rfl with rfl | rfl <;> decide
    rw [List.nil_append, takeDigits_append hi hxd]
    simp only [Nat.zero_mul, Nat.zero_add, e2]
    rw [if_neg (by simpa using hpos), last, List.append_nil]
    rfl
  | @point ds hd =>
    rw [List.cons_append, takeDigits_append hi (by
      intro c hc
      cases hc
      decide)]
    simp only [fraction, if_true]
    rw [takeDigits_append hd hxd]
    simp only [Nat.zero_mul, Nat.zero_add]
    rw [if_neg (by simpa using hpos), last, digitsVal_append]

/-! ### The text of a number -/

theorem unsigned_chars {s : PyStr} {m : Nat} {x : Int} (h : Unsigned s m x) :
    ∀ c ∈ s, (48 ≤ c.val ∧ c.val ≤ 57) ∨ c = 46 ∨ c = 101 ∨ c = 69 ∨ c = 43 ∨ c = 45 := by
  obtain ⟨i, f, ft, xt, y, hi, hf, hx, -, rfl, -, -⟩ := h
  intro c hc
  rcases List.mem_append.mp hc with hc | hc
  · exact .inl (hi c hc)
  rcases List.mem_append.mp hc with hc | hc
  · cases hf with
    | none => cases hc
    | point hd =>
      rcases List.mem_cons.mp hc with rfl | hc
      · exact .inr (.inl rfl)
      · exact .inl (hd c hc)
  · cases hx with
    | none => cases hc
    | pos h1 h2 h3 _ =>
      rcases List.mem_cons.mp hc with rfl | hc
      · rcases h1 with rfl | rfl
        · exact .inr (.inr (.inl rfl))
        · exact .inr (.inr (.inr (.inl rfl)))
      rcases List.mem_append.mp hc with hc | hc
      · rcases h2 with rfl | rfl
        · cases hc
        · rw [List.mem_singleton] at hc
          subst hc
          exact .inr (.inr (.inr (.inr (.inl rfl))))
      · exact .inl (h3 c hc)
    | neg h1 h3 _ =>
      rcases List.mem_cons.mp hc with rfl | hc
      · rcases h1 with rfl | rfl
        · exact .inr (.inr (.inl rfl))
        · exact .inr (.inr (.inr (.inl rfl)))
      rcases List.mem_cons.mp hc with rfl | hc
      · exact .inr (.inr (.inr (.inr (.inr rfl))))
      · exact .inl (h3 c hc)

theorem unsigned_head {s : PyStr} {m : Nat} {x : Int} (h : Unsigned s m x) :
    ∃ c r, s = c :: r ∧ ((48 ≤ c.val ∧ c.val ≤ 57) ∨ c = 46) := by
  obtain ⟨i, f, ft, xt, y, hi, hf, hx, hne, rfl, -, -⟩ := h
  cases i with
  | cons c i => exact ⟨c, i ++ (ft ++ xt), rfl, .inl (hi c (by simp))⟩
  | nil =>
    cases hf with
    | none => exact absurd rfl hne
    | @point ds hd => exact ⟨46, f ++ xt, rfl, .inr rfl⟩

theorem dropUnderscores_none {s : PyStr} (h : ∀ c ∈ s, c ≠ 95) (b : Bool) : dropUnderscores b s = some s := by
  induction s generalizing b with
  | nil => rfl
  | cons c s ih =>
    rw [dropUnderscores, if_neg (h c (by simp)), ih fun x hx => h x (by simp [hx])]
    rfl

/-- Plain characters: what `float` sees is what is written. -/
theorem plain_prepare {s : PyStr} (h : ∀ c ∈ s, 32 < c.val ∧ c.val < 127 ∧ c ≠ 95) :
    dropUnderscores false (trimBy isAsciiSpace (s.map asciiForm)) = some s := by
  have h1 : s.map asciiForm = s := by
    conv_rhs => rw [← List.map_id s]
    refine List.map_congr_left fun c hc => ?_
    unfold asciiForm
    rw [if_pos (h c hc).2.1]
    rfl
  rw [h1, trimBy_none]
  · exact dropUnderscores_none (fun c hc => (h c hc).2.2) _
  · intro c hc
    have := (h c hc).1
    unfold isAsciiSpace
    simp only [Bool.or_eq_false_iff, Bool.and_eq_false_iff, decide_eq_false_iff_not, beq_eq_false_iff_ne]
    omega

/-- The pattern for `m · 10 ^ x` -/
def decimalRound (m : Nat) (x : Int) : Nat :=
  if x < 0 then viaDouble m (10 ^ x.natAbs) else viaDouble (m * 10 ^ x.natAbs) 1

theorem unsigned_not_word {s : PyStr} {m : Nat} {x : Int} (h : Unsigned s m x) {l : PyStr}
    (hl : l.head? = some 110 ∨ l.head? = some 105) : s.map lower ≠ l := by
  obtain ⟨c, r, rfl, hc⟩ := unsigned_head h
  rintro rfl
  have e : lower c = c := by
    unfold lower
    rw [if_neg]
    rcases hc with hc | rfl
    · omega
    · decide
  rw [List.map_cons, List.head?_cons, e] at hl
  rcases hc with hc | rfl
  · rcases hl with hl | hl <;>
    · injection hl with hl
      rw [hl] at hc
      exact absurd hc (by decide)
  · rcases hl with hl | hl <;> exact absurd hl (by decide)

theorem read_spec {s : PyStr} {neg : Bool} {m : Nat} {x : Int} (h : DecimalText s neg m x) :
    read s = some (mk neg (decimalRound m x)) := by
  have plain : ∀ {s : PyStr}, (∀ c ∈ s, (48 ≤ c.val ∧ c.val ≤ 57) ∨ c = 46 ∨ c = 101 ∨ c = 69 ∨ c = 43 ∨ c = 45) →
      dropUnderscores false (trimBy isAsciiSpace (s.map asciiForm)) = some s := by
    intro s hs
    refine plain_prepare fun c hc => ?_
    rcases hs c hc with h | rfl | rfl | rfl | rfl | rfl
    · refine ⟨by omega, by omega, ?_⟩
      rintro rfl
      exact absurd h (by decide)
    all_goals decide
  have main : ∀ (neg : Bool) (t s : PyStr), Unsigned s m x → takeSign t = (neg, s) →
      dropUnderscores false (trimBy isAsciiSpace (t.map asciiForm)) = some t →
      read t = some (mk neg (decimalRound m x)) := by
    intro neg t s hs h1 h2
    unfold read
    rw [h2]
    simp only [Option.bind_eq_bind, Option.bind_some, h1]
    rw [if_neg (unsigned_not_word hs (.inl rfl)), if_neg, number_spec hs]
    · rfl
    · rintro (h | h)
      · exact unsigned_not_word hs (.inr rfl) h
      · exact unsigned_not_word hs (.inr rfl) h
  cases h with
  | @pos s sg m x hsg hs =>
    refine main false (sg ++ s) s hs ?_ (plain fun c hc => ?_)
    · rcases hsg with rfl | rfl
      · obtain ⟨c, r, rfl, hc⟩ := unsigned_head hs
        rw [List.nil_append, takeSign, if_neg, if_neg]
        · rintro rfl
          exact absurd hc (by decide)
        · rintro rfl
          exact absurd hc (by decide)
      · rfl
    · rcases List.mem_append.mp hc with hc | hc
      · rcases hsg with rfl | rfl
        · cases hc
        · rw [List.mem_singleton] at hc
          exact .inr (.inr (.inr (.inr (.inl hc))))
      · exact unsigned_chars hs c hc
  | @neg s m x hs =>
    refine main true (45 :: s) s hs rfl (plain fun c hc => ?_)
    rcases List.mem_cons.mp hc with rfl | hc
    · exact .inr (.inr (.inr (.inr (.inr rfl))))
    · exact unsigned_chars hs c hc

/-! ### Fractions for the same number -/

theorem halfEven_scale (num den : Nat) {k : Nat} (hk : 0 < k) : halfEven (num * k) (den * k) = halfEven num den := by
  unfold halfEven
  rw [Nat.mul_mod_mul_right, Nat.mul_div_mul_right _ _ hk, ← Nat.mul_assoc]
  simp only [Nat.mul_lt_mul_right hk]

theorem roundTwice_scale (e num den : Nat) {k : Nat} (hk : 0 < k) :
    roundTwice e (num * k) (den * k) = roundTwice e num den := by
  have e1 : num * k * 2 ^ e = num * 2 ^ e * k := by ring
  unfold roundTwice roundDouble
  rw [e1, Nat.mul_div_mul_right _ _ hk]
  have e2 : den * k * 2 ^ (Nat.log2 (num * 2 ^ e / den) - 52) =
      den * 2 ^ (Nat.log2 (num * 2 ^ e / den) - 52) * k := by ring
  simp only [e2, halfEven_scale _ _ hk]

theorem viaDouble_congr {num den num' den' : Nat} (hd : 0 < den) (hd' : 0 < den') (h : num * den' = num' * den) :
    viaDouble num den = viaDouble num' den' := by
  unfold viaDouble
  rw [← roundTwice_scale _ num den hd', ← roundTwice_scale _ num' den' hd, h, Nat.mul_comm den den']

end B32

end FF
