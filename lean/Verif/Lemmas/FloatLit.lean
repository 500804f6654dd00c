import Verif.Spec.FloatLit
import Verif.Lemmas.FloatRead
import Verif.Lemmas.FloatStr
import Verif.Lemmas.FloatDouble
import Verif.Lemmas.PyInt
/-!
# `float` accepts exactly the float literals
-/

namespace FF

namespace B32

open F32

/-! ### What `float` sees -/

theorem code_ext {a b : Code} (h : a.val = b.val) : a = b := Fin.ext h

theorem isSpace_code {c : Code} : isSpace c = true ↔ Blank c ∨ 28 ≤ c.val ∧ c.val ≤ 31 := by
  unfold isSpace Blank
  simp only [Bool.or_eq_true, Bool.and_eq_true, decide_eq_true_eq, beq_iff_eq, List.mem_cons, List.not_mem_nil, or_false]
  omega

theorem asciiForm_digit {c : Code} {d : Nat} (h : Digit c d) : asciiForm c = toCode (48 + d) := by
  have hd := h.1
  unfold asciiForm
  by_cases hc : c.val < 127
  · rw [if_pos hc]
    obtain ⟨-, z, hz, he⟩ := h
    have : ∀ z ∈ decimalZeros, z < 127 → z = 48 := by decide
    have hz' := this z hz (by omega)
    refine code_ext ?_
    rw [toCode_val_of (by omega), he, hz']
  · rw [if_neg hc, digitVal_not_space (digitVal_digit.mpr h), if_neg (by decide), digitVal_digit.mpr h]

theorem asciiForm_cases (c : Code) : (c.val < 127 ∧ asciiForm c = c) ∨ (127 ≤ c.val ∧ (isSpace c = true ∧ asciiForm c = 32 ∨
    (isSpace c = false ∧ ∃ d, Digit c d ∧ asciiForm c = toCode (48 + d)) ∨
    (isSpace c = false ∧ asciiForm c = 63))) := by
  unfold asciiForm
  by_cases hc : c.val < 127
  · exact .inl ⟨hc, if_pos hc⟩
  · rw [if_neg hc]
    refine .inr ⟨by omega, ?_⟩
    by_cases hs : isSpace c = true
    · rw [if_pos hs]
      exact .inl ⟨hs, rfl⟩
    · rw [if_neg hs]
      have hs' : isSpace c = false := by simpa using hs
      cases hd : digitVal c with
      | none => exact .inr (.inr ⟨hs', rfl⟩)
      | some d => exact .inr (.inl ⟨hs', d, digitVal_digit.mp hd, rfl⟩)

theorem digit_of_ascii {c : Code} (h : isDigit (asciiForm c) = true) : Digit c ((asciiForm c).val - 48) := by
  rcases asciiForm_cases c with ⟨h1, h2⟩ | ⟨h1, ⟨h2, h3⟩ | ⟨h2, d, h3, h4⟩ | ⟨h2, h3⟩⟩
  · rw [h2] at h ⊢
    rw [isDigit_iff] at h
    exact ⟨by omega, 48, by decide, by omega⟩
  · rw [h3] at h; exact absurd h (by decide)
  · rw [h4, toCode_val_of (by have := h3.1; omega)]
    rw [show 48 + d - 48 = d by omega]
    exact h3
  · rw [h3] at h; exact absurd h (by decide)

/-- Characters that stand for themselves -/
theorem asciiForm_plain {c a : Code} (ha : a.val < 127) (h32 : a ≠ 32) (h63 : a ≠ 63) (hd : isDigit a = false) :
    asciiForm c = a ↔ c = a := by
  constructor
  · intro h
    rcases asciiForm_cases c with ⟨h1, h2⟩ | ⟨h1, ⟨h2, h3⟩ | ⟨h2, d, h3, h4⟩ | ⟨h2, h3⟩⟩
    · exact h2.symm.trans h
    · exact absurd (h.symm.trans h3) h32
    · have hd' := h3.1
      rw [h4] at h
      rw [← h] at hd
      have : isDigit (toCode (48 + d)) = true := by
        rw [isDigit_iff, toCode_val_of (by omega)]
        omega
      rw [this] at hd
      cases hd
    · exact absurd (h.symm.trans h3) h63
  · rintro rfl
    unfold asciiForm
    rw [if_pos ha]

theorem asciiForm_95 {c : Code} : asciiForm c = 95 ↔ c = 95 :=
  asciiForm_plain (by decide) (by decide) (by decide) (by decide)

theorem asciiSpace_iff (c : Code) : isAsciiSpace (asciiForm c) = true ↔ Blank c := by
  have hb : ∀ c : Code, c.val < 127 → (isAsciiSpace c = true ↔ Blank c) := by
    intro c hc
    unfold isAsciiSpace Blank
    simp only [Bool.or_eq_true, Bool.and_eq_true, decide_eq_true_eq, beq_iff_eq, List.mem_cons, List.not_mem_nil, or_false]
    omega
  have hn : ∀ c : Code, 127 ≤ c.val → isSpace c = false → ¬ Blank c := by
    intro c hc hs hbl
    rw [isSpace_code.mpr (.inl hbl)] at hs
    cases hs
  rcases asciiForm_cases c with ⟨h1, h2⟩ | ⟨h1, ⟨h2, h3⟩ | ⟨h2, d, h3, h4⟩ | ⟨h2, h3⟩⟩
  · rw [h2]
    exact hb c h1
  · rw [h3]
    refine ⟨fun _ => ?_, fun _ => by decide⟩
    rcases isSpace_code.mp h2 with h | h
    · exact h
    · omega
  · have hd := h3.1
    rw [h4]
    refine ⟨fun h => ?_, fun h => absurd h (hn c h1 h2)⟩
    unfold isAsciiSpace at h
    rw [toCode_val_of (by omega)] at h
    simp only [Bool.or_eq_true, Bool.and_eq_true, decide_eq_true_eq, beq_iff_eq] at h
    omega
  · rw [h3]
    exact ⟨fun h => absurd h (by decide), fun h => absurd h (hn c h1 h2)⟩

theorem trimBy_map (p : Code → Bool) (f : Code → Code) (s : PyStr) :
    trimBy p (s.map f) = (trimBy (fun c => p (f c)) s).map f := by
  unfold trimBy
  have : (p ∘ f) = fun c => p (f c) := rfl
  rw [List.dropWhile_map, ← List.map_reverse, List.dropWhile_map, ← List.map_reverse, this]

/-! ### Underscores -/

theorem drop_prev {r : PyStr} (h : r.head? ≠ some 95) (p : Bool) : dropUnderscores p r = dropUnderscores false r := by
  cases r with
  | nil => rfl
  | cons c r =>
    have : c ≠ 95 := fun hc => h (by rw [hc]; rfl)
    rw [dropUnderscores, dropUnderscores, if_neg this, if_neg this]

/-- The ASCII digits for values -/
def ascDigits (ds : List Nat) : PyStr := ds.map fun d => toCode (48 + d)

theorem figures_head {s : PyStr} {ds : List Nat} (h : Figures s ds) (hn : ds ≠ []) :
    ∃ c t d, s = c :: t ∧ Digit c d := by
  cases h with
  | nil => exact absurd rfl hn
  | @cons c d s _ hd _ => exact ⟨c, s, d, rfl, hd⟩
  | @under c d s _ hd _ _ => exact ⟨c, _, d, rfl, hd⟩

theorem isDigit_toCode {d : Nat} (h : d < 10) : isDigit (toCode (48 + d)) = true := by
  rw [isDigit_iff, toCode_val_of (by omega)]
  omega

theorem toCode_ne_95 {d : Nat} (h : d < 10) : toCode (48 + d) ≠ 95 := by
  intro he
  have := congrArg Fin.val he
  rw [toCode_val_of (by omega)] at this
  have : (95 : Code).val = 95 := rfl
  omega

theorem figures_drop {s : PyStr} {ds : List Nat} (h : Figures s ds) (r : PyStr) (hr : r.head? ≠ some 95) (p : Bool) :
    dropUnderscores p (s.map asciiForm ++ r) = (dropUnderscores false r).map (ascDigits ds ++ ·) := by
  induction h generalizing p with
  | nil =>
    rw [List.map_nil, List.nil_append, drop_prev hr]
    simp [ascDigits]
  | @cons c d s ds hd hs ih =>
    have hd10 := hd.1
    rw [List.map_cons, List.cons_append, asciiForm_digit hd, dropUnderscores, if_neg (toCode_ne_95 hd10), ih,
      Option.map_map]
    rfl
  | @under c d s ds hd hs hn ih =>
    have hd10 := hd.1
    obtain ⟨c', t, d', rfl, hd'⟩ := figures_head hs hn
    have e95 : asciiForm 95 = 95 := by decide
    rw [List.map_cons, List.map_cons, List.cons_append, List.cons_append, asciiForm_digit hd, dropUnderscores,
      if_neg (toCode_ne_95 hd10), isDigit_toCode hd10, e95, dropUnderscores, if_pos rfl, if_pos, ih, Option.map_map]
    · rfl
    · rw [List.map_cons, List.cons_append, List.head?_cons, asciiForm_digit hd']
      simp [isDigit_toCode hd'.1]

theorem drop_figures : ∀ (s u : PyStr) (p : Bool), dropUnderscores p (s.map asciiForm) = some u → Digits u →
    (p = false ∨ s.head? ≠ some 95) → Figures s (u.map fun c => c.val - 48)
  | [], u, p, h, _, _ => by
    cases h
    exact .nil
  | c :: s, u, p, h, hu, hp => by
    rw [List.map_cons, dropUnderscores] at h
    by_cases hc : asciiForm c = 95
    · rw [if_pos hc] at h
      rcases hp with rfl | hp
      · cases h
      · exact absurd (by rw [asciiForm_95.mp hc]; rfl) hp
    · rw [if_neg hc, Option.map_eq_some_iff] at h
      obtain ⟨u', h', rfl⟩ := h
      have hdig := isDigit_iff.mpr (hu (asciiForm c) (by simp))
      have hu' : Digits u' := fun x hx => hu x (by simp [hx])
      rw [hdig] at h'
      rw [List.map_cons]
      match s, h' with
      | [], h' => exact .cons (digit_of_ascii hdig) (drop_figures [] u' true h' hu' (.inr (by simp)))
      | c' :: s', h' =>
        by_cases hc' : c' = 95
        · subst hc'
          have e95 : asciiForm 95 = 95 := by decide
          rw [List.map_cons, e95, dropUnderscores, if_pos rfl] at h'
          by_cases hh : (List.map asciiForm s').head?.any isDigit = true
          · rw [hh, if_pos (by decide)] at h'
            refine .under (digit_of_ascii hdig) (drop_figures s' u' false h' hu' (.inl rfl)) ?_
            intro hnil
            rw [List.map_eq_nil_iff] at hnil
            subst hnil
            cases s' with
            | nil => simp at hh
            | cons d s' =>
              rw [List.map_cons, List.head?_cons, Option.any_some, isDigit_iff] at hh
              rw [List.map_cons, dropUnderscores, if_neg] at h'
              · rw [Option.map_eq_some_iff] at h'
                obtain ⟨_, _, h'⟩ := h'
                cases h'
              · intro he
                rw [he] at hh
                exact absurd hh (by decide)
          · rw [if_neg (by simpa using hh)] at h'
            cases h'
        · exact .cons (digit_of_ascii hdig) (drop_figures (c' :: s') u' true h' hu' (.inr (by simpa using hc')))

/-- Other characters than digits separate. -/
theorem drop_split {c : Code} (hd : isDigit c = false) : ∀ (s u1 u2 : PyStr) (p : Bool),
    dropUnderscores p (s.map asciiForm) = some (u1 ++ c :: u2) →
    ∃ s1 c' s2, s = s1 ++ c' :: s2 ∧ asciiForm c' = c ∧ dropUnderscores p (s1.map asciiForm) = some u1 ∧
      dropUnderscores false (s2.map asciiForm) = some u2
  | [], u1, u2, p, h => by
    have := Option.some.inj h
    cases u1 <;> cases this
  | x :: s, u1, u2, p, h => by
    rw [List.map_cons, dropUnderscores] at h
    by_cases hx : asciiForm x = 95
    · rw [if_pos hx] at h
      by_cases hh : (p && (List.map asciiForm s).head?.any isDigit) = true
      · rw [if_pos hh] at h
        obtain ⟨s1, c', s2, rfl, h1, h2, h3⟩ := drop_split hd s u1 u2 false h
        refine ⟨x :: s1, c', s2, rfl, h1, ?_, h3⟩
        rw [List.map_cons, dropUnderscores, if_pos hx]
        cases s1 with
        | nil =>
          rw [List.nil_append, List.map_cons, List.head?_cons, h1, Option.any_some, hd, Bool.and_false] at hh
          cases hh
        | cons y s1 =>
          rw [List.cons_append, List.map_cons, List.head?_cons] at hh
          rw [List.map_cons, List.head?_cons, if_pos hh, ← List.map_cons]
          exact h2
      · rw [if_neg hh] at h
        cases h
    · rw [if_neg hx, Option.map_eq_some_iff] at h
      obtain ⟨u', h', he⟩ := h
      cases u1 with
      | nil =>
        rw [List.nil_append] at he
        injection he with e1 e2
        subst e1 e2
        rw [hd] at h'
        exact ⟨[], x, s, rfl, rfl, rfl, h'⟩
      | cons y u1 =>
        rw [List.cons_append] at he
        injection he with e1 e2
        subst e1 e2
        obtain ⟨s1, c', s2, rfl, h1, h2, h3⟩ := drop_split hd s u1 u2 _ h'
        refine ⟨x :: s1, c', s2, rfl, h1, ?_, h3⟩
        rw [List.map_cons, dropUnderscores, if_neg hx, h2]
        rfl

/-- Without digits there are no underscores. -/
theorem drop_none : ∀ (s u : PyStr), dropUnderscores false (s.map asciiForm) = some u → (∀ c ∈ u, isDigit c = false) →
    s.map asciiForm = u
  | [], u, h, _ => Option.some.inj h
  | c :: s, u, h, hu => by
    rw [List.map_cons, dropUnderscores] at h
    by_cases hc : asciiForm c = 95
    · rw [if_pos hc] at h
      cases h
    · rw [if_neg hc, Option.map_eq_some_iff] at h
      obtain ⟨u', h', rfl⟩ := h
      rw [hu _ (by simp)] at h'
      rw [List.map_cons, drop_none s u' h' fun x hx => hu x (by simp [hx])]

/-! ### Numbers -/

theorem takeDigits_inv (a n : Nat) (s : PyStr) : ∃ ds r, Digits ds ∧ s = ds ++ r ∧
    (∀ c, r.head? = some c → isDigit c = false) ∧
    takeDigits a n s = (a * 10 ^ ds.length + digitsVal ds, n + ds.length, r) := by
  have h : ∃ ds r, Digits ds ∧ s = ds ++ r ∧ ∀ c, r.head? = some c → isDigit c = false := by
    induction s with
    | nil => exact ⟨[], [], by simp [Digits], rfl, by simp⟩
    | cons c s ih =>
      cases hc : isDigit c with
      | false =>
        refine ⟨[], c :: s, by simp [Digits], rfl, fun x hx => ?_⟩
        cases hx
        exact hc
      | true =>
        obtain ⟨ds, r, h1, rfl, h3⟩ := ih
        refine ⟨c :: ds, r, fun x hx => ?_, rfl, h3⟩
        rcases List.mem_cons.mp hx with rfl | hx
        · exact isDigit_iff.mp hc
        · exact h1 x hx
  obtain ⟨ds, r, h1, rfl, h3⟩ := h
  exact ⟨ds, r, h1, rfl, h3, takeDigits_append h1 h3 a n⟩

theorem takeSign_inv (s : PyStr) : ∃ sg, Sign sg (takeSign s).1 ∧ s = sg ++ (takeSign s).2 := by
  cases s with
  | nil => exact ⟨[], .none, rfl⟩
  | cons c s =>
    by_cases h1 : c = 45
    · subst h1
      exact ⟨[45], .minus, rfl⟩
    · by_cases h2 : c = 43
      · subst h2
        exact ⟨[43], .plus, rfl⟩
      · rw [takeSign, if_neg h1, if_neg h2]
        exact ⟨[], .none, rfl⟩

theorem takeSign_of {sg s : PyStr} {neg : Bool} (h : Sign sg neg) (hs : s.head? ≠ some 43 ∧ s.head? ≠ some 45) :
    takeSign (sg ++ s) = (neg, s) := by
  cases h with
  | none =>
    cases s with
    | nil => rfl
    | cons c s =>
      have h1 : c ≠ 43 := fun h => hs.1 (by rw [h]; rfl)
      have h2 : c ≠ 45 := fun h => hs.2 (by rw [h]; rfl)
      rw [List.nil_append, takeSign, if_neg h2, if_neg h1]
  | plus => rfl
  | minus => rfl

/-- The letter e, a sign and digits, or nothing -/
def ExpParts (xt : PyStr) (y : Int) : Prop :=
  (xt = [] ∧ y = 0) ∨ ∃ (c : Code) (sg ds : PyStr) (neg : Bool), (c = 101 ∨ c = 69) ∧ Sign sg neg ∧ Digits ds ∧ ds ≠ [] ∧
    xt = c :: (sg ++ ds) ∧ y = if neg then -(digitsVal ds : Int) else digitsVal ds

theorem withExponent_inv {m nf : Nat} {r : PyStr} {k : Nat × Int} (h : withExponent m nf r = some k) :
    ∃ y : Int, k = (m, y - (nf : Int)) ∧ ExpParts r y := by
  cases r with
  | nil =>
    unfold withExponent at h
    cases h
    exact ⟨0, by simp, .inl ⟨rfl, rfl⟩⟩
  | cons c r =>
    rw [withExponent] at h
    by_cases hc : c = 101 ∨ c = 69
    · rw [if_pos hc, Option.map_eq_some_iff] at h
      obtain ⟨y, hy, rfl⟩ := h
      refine ⟨y, rfl, .inr ?_⟩
      unfold exponent at hy
      obtain ⟨sg, h1, h2⟩ := takeSign_inv r
      generalize takeSign r = q at hy h1 h2
      obtain ⟨neg, r'⟩ := q
      simp only at hy h1 h2
      obtain ⟨ds, r'', h3, h4, h5, h6⟩ := takeDigits_inv 0 0 r'
      rw [h6] at hy
      simp only at hy
      by_cases hz : 0 + ds.length = 0 ∨ r'' ≠ []
      · rw [if_pos hz] at hy
        cases hy
      · rw [if_neg hz] at hy
        have hr : r'' = [] := by
          by_contra hne
          exact hz (.inr hne)
        have hl : ds ≠ [] := by
          rintro rfl
          exact hz (.inl rfl)
        refine ⟨c, sg, ds, neg, hc, h1, h3, hl, ?_, ?_⟩
        · rw [h2, h4, hr, List.append_nil]
        · have := Option.some.inj hy
          rw [← this]
          simp
    · rw [if_neg hc] at h
      cases h

theorem number_inv {s : PyStr} {m : Nat} {x : Int} (h : number s = some (m, x)) :
    ∃ i f ft xt : PyStr, ∃ y : Int, Digits i ∧ Fraction ft f ∧ ExpParts xt y ∧ i ++ f ≠ [] ∧ s = i ++ (ft ++ xt) ∧
      m = digitsVal (i ++ f) ∧ x = y - f.length := by
  unfold number at h
  obtain ⟨i, r, h1, h2, h3, h4⟩ := takeDigits_inv 0 0 s
  rw [h4] at h
  simp only [Nat.zero_mul, Nat.zero_add] at h
  have hf : ∃ f ft xt, Fraction ft f ∧ r = ft ++ xt ∧
      fraction (digitsVal i) r = (digitsVal i * 10 ^ f.length + digitsVal f, f.length, xt) := by
    cases r with
    | nil => exact ⟨[], [], [], .none, rfl, by simp [fraction, digitsVal]⟩
    | cons c r =>
      rw [fraction]
      by_cases hc : c = 46
      · subst hc
        rw [if_pos rfl]
        obtain ⟨f, xt, k1, k2, k3, k4⟩ := takeDigits_inv (digitsVal i) 0 r
        refine ⟨f, 46 :: f, xt, .point k1, by rw [k2]; rfl, ?_⟩
        rw [k4, Nat.zero_add]
      · rw [if_neg hc]
        exact ⟨[], [], c :: r, .none, rfl, by simp [digitsVal]⟩
  obtain ⟨f, ft, xt, hf1, hf2, hf3⟩ := hf
  rw [hf3] at h
  simp only at h
  by_cases hz : i.length + f.length = 0
  · rw [if_pos hz] at h
    cases h
  · rw [if_neg hz] at h
    obtain ⟨y, hy, hx⟩ := withExponent_inv h
    injection hy with e1 e2
    refine ⟨i, f, ft, xt, y, h1, hf1, hx, ?_, by rw [h2, hf2], ?_, e2⟩
    · intro hnil
      apply hz
      rw [← List.length_append, hnil]
      rfl
    · rw [e1, digitsVal_append]

/-! ### Values -/

theorem figures_lt {s : PyStr} {ds : List Nat} (h : Figures s ds) : ∀ d ∈ ds, d < 10 := by
  induction h with
  | nil => intro d hd; cases hd
  | cons hc _ ih =>
    intro d hd
    rcases List.mem_cons.mp hd with rfl | hd
    · exact hc.1
    · exact ih d hd
  | under hc _ _ ih =>
    intro d hd
    rcases List.mem_cons.mp hd with rfl | hd
    · exact hc.1
    · exact ih d hd

theorem ascDigits_digits {ds : List Nat} (h : ∀ d ∈ ds, d < 10) : Digits (ascDigits ds) := by
  intro c hc
  obtain ⟨d, hd, rfl⟩ := List.mem_map.mp hc
  have := h d hd
  rw [toCode_val_of (by omega)]
  omega

theorem digitsVal_asc {ds : List Nat} (h : ∀ d ∈ ds, d < 10) : digitsVal (ascDigits ds) = figuresVal ds := by
  unfold digitsVal figuresVal ascDigits
  rw [List.foldl_map]
  refine List.foldl_ext _ _ _ fun a d hd => ?_
  have := h d hd
  rw [toCode_val_of (by omega)]
  omega

theorem figuresVal_digits (s : PyStr) : figuresVal (s.map fun c => c.val - 48) = digitsVal s := by
  unfold digitsVal figuresVal
  rw [List.foldl_map]

/-! ### Literals are read -/

/-- What `float` does after removing whitespace and underscores -/
def post (t : PyStr) : Option F32 := do
  let (neg, r) := takeSign t
  let l := r.map lower
  if l = [110, 97, 110] then return nan
  if l = [105, 110, 102] ∨ l = [105, 110, 102, 105, 110, 105, 116, 121] then return mk neg inf
  let (m, x) ← number r
  return mk neg (if x < 0 then viaDouble m (10 ^ x.natAbs) else viaDouble (m * 10 ^ x.natAbs) 1)

theorem read_post (s : PyStr) : read s =
    (dropUnderscores false ((trimBy (fun c => isAsciiSpace (asciiForm c)) s).map asciiForm)).bind post := by
  rw [← trimBy_map]
  rfl

theorem decimalText_post {t : PyStr} {neg : Bool} {m : Nat} {x : Int} (h : DecimalText t neg m x) :
    post t = some (mk neg (decimalRound m x)) := by
  have hc : ∀ c ∈ t, (48 ≤ c.val ∧ c.val ≤ 57) ∨ c = 46 ∨ c = 101 ∨ c = 69 ∨ c = 43 ∨ c = 45 := by
    cases h with
    | @pos s sg _ _ hsg hs =>
      intro c hc
      rcases List.mem_append.mp hc with hc | hc
      · rcases hsg with rfl | rfl
        · cases hc
        · rw [List.mem_singleton] at hc
          exact .inr (.inr (.inr (.inr (.inl hc))))
      · exact unsigned_chars hs c hc
    | neg hs =>
      intro c hc
      rcases List.mem_cons.mp hc with rfl | hc
      · exact .inr (.inr (.inr (.inr (.inr rfl))))
      · exact unsigned_chars hs c hc
  have hp : dropUnderscores false (trimBy isAsciiSpace (t.map asciiForm)) = some t := by
    refine plain_prepare fun c hc' => ?_
    rcases hc c hc' with h | rfl | rfl | rfl | rfl | rfl
    · refine ⟨by omega, by omega, ?_⟩
      rintro rfl
      exact absurd h (by decide)
    all_goals decide
  have := read_spec h
  rw [read_post, ← trimBy_map, hp] at this
  exact this

/-- A character that is neither digit nor underscore -/
theorem drop_cons {c : Code} (h95 : c ≠ 95) (hd : isDigit c = false) (r : PyStr) (p : Bool) :
    dropUnderscores p (c :: r) = (dropUnderscores false r).map (c :: ·) := by
  rw [dropUnderscores, if_neg h95, hd]

theorem sign_drop {sg : PyStr} {neg : Bool} (h : Sign sg neg) (r : PyStr) :
    dropUnderscores false (sg.map asciiForm ++ r) = (dropUnderscores false r).map (sg ++ ·) := by
  cases h with
  | none => simp
  | plus =>
    have : asciiForm 43 = 43 := by decide
    rw [List.map_cons, List.map_nil, this, List.singleton_append, drop_cons (by decide) (by decide)]
    rfl
  | minus =>
    have : asciiForm 45 = 45 := by decide
    rw [List.map_cons, List.map_nil, this, List.singleton_append, drop_cons (by decide) (by decide)]
    rfl

theorem figures_all {s : PyStr} {ds : List Nat} (h : Figures s ds) (p : Bool) :
    dropUnderscores p (s.map asciiForm) = some (ascDigits ds) := by
  have := figures_drop h [] (by simp) p
  rw [List.append_nil] at this
  rw [this]
  simp [dropUnderscores]

theorem exponent_drop {e : PyStr} {x : Int} (h : LitExponent e x) :
    ∃ e', dropUnderscores false (e.map asciiForm) = some e' ∧ Exponent e' x ∧ (e.map asciiForm).head? ≠ some 95 := by
  cases h with
  | none => exact ⟨[], rfl, .none, by simp⟩
  | @letter c sg s ds neg hc hsg hs hne =>
    have hp : asciiForm c = c ∧ c ≠ 95 ∧ isDigit c = false := by rcases hc with rfl | rfl <;> decide
    have hlt := figures_lt hs
    have hd := ascDigits_digits hlt
    have hne' : ascDigits ds ≠ [] := fun h => hne (List.map_eq_nil_iff.mp h)
    refine ⟨c :: (sg ++ ascDigits ds), ?_, ?_, ?_⟩
    · rw [List.map_cons, hp.1, drop_cons hp.2.1 hp.2.2, List.map_append, sign_drop hsg, figures_all hs]
      rfl
    · rw [← digitsVal_asc hlt]
      cases hsg with
      | none => exact .pos hc (.inl rfl) hd hne'
      | plus => exact .pos hc (.inr rfl) hd hne'
      | minus => exact .neg hc hd hne'
    · rw [List.map_cons, hp.1, List.head?_cons]
      exact fun h => hp.2.1 (Option.some.inj h)

theorem fraction_drop {f e e' : PyStr} {ds : List Nat} (h : LitFraction f ds)
    (he : dropUnderscores false (e.map asciiForm) = some e') (h95 : (e.map asciiForm).head? ≠ some 95) :
    ∃ f', dropUnderscores false (f.map asciiForm ++ e.map asciiForm) = some (f' ++ e') ∧ Fraction f' (ascDigits ds) ∧
      (f.map asciiForm ++ e.map asciiForm).head? ≠ some 95 := by
  cases h with
  | none => exact ⟨[], by simpa using he, .none, by simpa using h95⟩
  | @point s ds hs =>
    have h46 : asciiForm 46 = 46 := by decide
    refine ⟨46 :: ascDigits ds, ?_, .point (ascDigits_digits (figures_lt hs)), ?_⟩
    · rw [List.map_cons, h46, List.cons_append, drop_cons (by decide) (by decide), figures_drop hs _ h95, he]
      rfl
    · rw [List.map_cons, h46, List.cons_append, List.head?_cons]
      decide

theorem literal_dec {sg i f e : PyStr} {neg : Bool} {ids fds : List Nat} {x : Int} (h1 : Sign sg neg)
    (h2 : Figures i ids) (h3 : LitFraction f fds) (h4 : LitExponent e x) (h5 : ids ++ fds ≠ []) :
    ∃ t, dropUnderscores false ((sg ++ (i ++ (f ++ e))).map asciiForm) = some t ∧
      DecimalText t neg (figuresVal (ids ++ fds)) (x - fds.length) := by
  obtain ⟨e', k1, k2, k3⟩ := exponent_drop h4
  obtain ⟨f', k4, k5, k6⟩ := fraction_drop h3 k1 k3
  have hf : ∀ d ∈ fds, d < 10 := by
    cases h3 with
    | none => intro d hd; cases hd
    | point hs => exact figures_lt hs
  have hi := figures_lt h2
  have hu : Unsigned (ascDigits ids ++ (f' ++ e')) (figuresVal (ids ++ fds)) (x - fds.length) := by
    refine ⟨ascDigits ids, ascDigits fds, f', e', x, ascDigits_digits hi, k5, k2, ?_, rfl, ?_, ?_⟩
    · unfold ascDigits
      rw [← List.map_append]
      exact fun h => h5 (List.map_eq_nil_iff.mp h)
    · rw [← digitsVal_asc (ds := ids ++ fds)]
      · unfold ascDigits
        rw [List.map_append]
      · intro d hd
        rcases List.mem_append.mp hd with hd | hd
        · exact hi d hd
        · exact hf d hd
    · unfold ascDigits
      rw [List.length_map]
  refine ⟨sg ++ (ascDigits ids ++ (f' ++ e')), ?_, ?_⟩
  · rw [List.map_append, List.map_append, List.map_append, sign_drop h1, figures_drop h2 _ k6, k4]
    rfl
  · cases h1 with
    | none => exact .pos (sg := []) (.inl rfl) hu
    | plus => exact .pos (sg := [43]) (.inr rfl) hu
    | minus => exact .neg hu

/-! ### Words -/

/-- Small letters -/
def Small (l : PyStr) : Prop := ∀ c ∈ l, 97 ≤ c.val ∧ c.val ≤ 122

theorem lower_iff {c d : Code} (h : 97 ≤ d.val ∧ d.val ≤ 122) : lower c = d ↔ c = d ∨ c.val + 32 = d.val := by
  unfold lower
  by_cases hc : 65 ≤ c.val ∧ c.val ≤ 90
  · rw [if_pos hc]
    constructor
    · intro he
      have := congrArg Fin.val he
      rw [toCode_val_of (by omega)] at this
      exact .inr this
    · rintro (rfl | he)
      · omega
      · refine code_ext ?_
        rw [toCode_val_of (by omega)]
        exact he
  · rw [if_neg hc]
    constructor
    · exact .inl
    · rintro (h | h)
      · exact h
      · omega

theorem anyCase_iff {l : PyStr} (hl : Small l) (w : PyStr) : w.map lower = l ↔ AnyCase w l := by
  induction l generalizing w with
  | nil =>
    unfold AnyCase
    rw [List.map_eq_nil_iff, List.forall₂_nil_right_iff]
  | cons d l ih =>
    have hl' : Small l := fun c hc => hl c (by simp [hc])
    cases w with
    | nil => exact ⟨fun h => (by cases h), fun h => (by cases h)⟩
    | cons c w =>
      rw [List.map_cons, List.cons.injEq, lower_iff (hl d (by simp)), ih hl']
      unfold AnyCase
      rw [List.forall₂_cons]

theorem anyCase_chars {w l : PyStr} (hl : Small l) (h : AnyCase w l) :
    ∀ c ∈ w, (65 ≤ c.val ∧ c.val ≤ 90) ∨ (97 ≤ c.val ∧ c.val ≤ 122) := by
  induction h with
  | nil => intro c hc; cases hc
  | @cons a b w l hab _ ih =>
    intro c hc
    have hb := hl b (by simp)
    rcases List.mem_cons.mp hc with rfl | hc
    · rcases hab with rfl | hab
      · exact .inr hb
      · left; omega
    · exact ih (fun x hx => hl x (by simp [hx])) c hc

/-- Letters, and signs -/
theorem letters_plain {w : PyStr} (h : ∀ c ∈ w, (65 ≤ c.val ∧ c.val ≤ 90) ∨ (97 ≤ c.val ∧ c.val ≤ 122)) :
    w.map asciiForm = w ∧ (∀ c ∈ w, isDigit c = false ∧ c ≠ 95) := by
  constructor
  · conv_rhs => rw [← List.map_id w]
    refine List.map_congr_left fun c hc => ?_
    have := h c hc
    unfold asciiForm
    rw [if_pos (by omega)]
    rfl
  · intro c hc
    have := h c hc
    refine ⟨?_, ?_⟩
    · rw [Bool.eq_false_iff, Ne, isDigit_iff]
      omega
    · rintro rfl
      exact absurd this (by decide)

theorem literal_word {sg w l : PyStr} {neg : Bool} (h1 : Sign sg neg) (hl : Small l) (h : AnyCase w l) :
    dropUnderscores false ((sg ++ w).map asciiForm) = some (sg ++ w) ∧ takeSign (sg ++ w) = (neg, w) := by
  have hc := anyCase_chars hl h
  obtain ⟨k1, k2⟩ := letters_plain hc
  constructor
  · rw [List.map_append, sign_drop h1, k1, dropUnderscores_none fun c hc => (k2 c hc).2]
    rfl
  · refine takeSign_of h1 ⟨fun hh => ?_, fun hh => ?_⟩
    · exact absurd (hc _ (List.mem_of_mem_head? hh)) (by decide)
    · exact absurd (hc _ (List.mem_of_mem_head? hh)) (by decide)

theorem small_of {l : PyStr} (h : (l.all fun c => decide (97 ≤ c.val ∧ c.val ≤ 122)) = true) : Small l := by
  intro c hc
  simpa using List.all_eq_true.mp h c hc

theorem small_nan : Small [110, 97, 110] := small_of (by decide)

theorem small_inf : Small [105, 110, 102] := small_of (by decide)

theorem small_infinity : Small [105, 110, 102, 105, 110, 105, 116, 121] := small_of (by decide)

theorem decimalRound_lt (m : Nat) (e : Int) : decimalRound m e < 2 ^ 31 := by
  have h31 : B32.inf < 2 ^ 31 := by decide
  refine lt_of_le_of_lt ?_ h31
  have hr : ∀ k num den, B32.roundTwice k num den ≤ B32.inf := by
    intro k num den
    unfold B32.roundTwice B32.round
    split
    · exact le_rfl
    · exact min_le_left _ _
  unfold B32.decimalRound B32.viaDouble
  split
  · exact hr _ _ _
  · exact hr _ _ _

theorem sign_sgn (x : F32) : B32.sign x = decide (sgn x = 1) := by
  have := x.toNat_lt
  unfold B32.sign sgn
  rw [decide_eq_decide]
  omega

theorem reads_dec (neg : Bool) (m : Nat) (e : Int) : (FloatVal.dec neg m e).Reads (mk neg (decimalRound m e)) := by
  refine ⟨?_, decimalRound_spec neg m e⟩
  have := sign_mk neg (decimalRound_lt m e)
  rw [sign_sgn] at this
  conv_rhs => rw [← this, decide_eq_true_iff]

theorem reads_inf (neg : Bool) : (FloatVal.inf neg).Reads (mk neg inf) := by
  cases neg
  · exact mk_posInf
  · exact mk_negInf

theorem literal_reads {a : PyStr} {v : FloatVal} (h : FloatLit a v) :
    ∃ x, (dropUnderscores false (a.map asciiForm)).bind post = some x ∧ v.Reads x := by
  cases h with
  | @nan sg w neg h1 h2 =>
    obtain ⟨k1, k2⟩ := literal_word h1 small_nan h2
    refine ⟨nan, ?_, rfl⟩
    rw [k1, Option.bind_some, post, k2]
    simp only
    rw [if_pos ((anyCase_iff small_nan w).mpr h2)]
    rfl
  | @inf sg w neg h1 h2 =>
    have key : dropUnderscores false ((sg ++ w).map asciiForm) = some (sg ++ w) ∧ takeSign (sg ++ w) = (neg, w) ∧
        (w.map lower = [105, 110, 102] ∨ w.map lower = [105, 110, 102, 105, 110, 105, 116, 121]) := by
      rcases h2 with h2 | h2
      · obtain ⟨k1, k2⟩ := literal_word h1 small_inf h2
        exact ⟨k1, k2, .inl ((anyCase_iff small_inf w).mpr h2)⟩
      · obtain ⟨k1, k2⟩ := literal_word h1 small_infinity h2
        exact ⟨k1, k2, .inr ((anyCase_iff small_infinity w).mpr h2)⟩
    obtain ⟨k1, k2, k3⟩ := key
    refine ⟨mk neg inf, ?_, reads_inf neg⟩
    rw [k1, Option.bind_some, post, k2]
    simp only
    rw [if_neg, if_pos k3]
    · rfl
    · intro hn
      rw [hn] at k3
      revert k3
      decide
  | @dec sg i f e neg ids fds x h1 h2 h3 h4 h5 =>
    obtain ⟨t, k1, k2⟩ := literal_dec h1 h2 h3 h4 h5
    refine ⟨_, ?_, reads_dec neg _ _⟩
    rw [k1, Option.bind_some, decimalText_post k2]

/-! ### Only literals are read -/

theorem figures_nil {s : PyStr} (h : Figures s []) : s = [] := by
  cases h
  rfl

/-- A first character that stands for itself -/
theorem drop_head {c : Code} (h1 : c.val < 127) (h32 : c ≠ 32) (h63 : c ≠ 63) (hd : isDigit c = false) {s u : PyStr}
    (h : dropUnderscores false (s.map asciiForm) = some (c :: u)) :
    ∃ s', s = c :: s' ∧ dropUnderscores false (s'.map asciiForm) = some u := by
  obtain ⟨s1, c', s2, rfl, k1, k2, k3⟩ := drop_split hd s [] u false h
  have := figures_nil (drop_figures s1 [] false k2 (by simp [Digits]) (.inl rfl))
  subst this
  rw [asciiForm_plain h1 h32 h63 hd] at k1
  subst k1
  exact ⟨s2, rfl, k3⟩

theorem drop_sign {sg s u : PyStr} {neg : Bool} (hs : Sign sg neg)
    (h : dropUnderscores false (s.map asciiForm) = some (sg ++ u)) :
    ∃ s', s = sg ++ s' ∧ dropUnderscores false (s'.map asciiForm) = some u := by
  cases hs with
  | none => exact ⟨s, rfl, h⟩
  | plus => exact drop_head (by decide) (by decide) (by decide) (by decide) h
  | minus => exact drop_head (by decide) (by decide) (by decide) (by decide) h

/-- Digits and what follows them -/
theorem drop_digits {s i u : PyStr} (hi : Digits i) (hu : ∀ c, u.head? = some c → isDigit c = false ∧ c ≠ 95)
    (h : dropUnderscores false (s.map asciiForm) = some (i ++ u)) :
    ∃ s1 s2, s = s1 ++ s2 ∧ Figures s1 (i.map fun c => c.val - 48) ∧
      dropUnderscores false (s2.map asciiForm) = some u := by
  cases u with
  | nil =>
    rw [List.append_nil] at h
    exact ⟨s, [], (List.append_nil s).symm, drop_figures s i false h hi (.inl rfl), rfl⟩
  | cons c u =>
    obtain ⟨hd, h95⟩ := hu c rfl
    obtain ⟨s1, c', s2, rfl, k1, k2, k3⟩ := drop_split hd s i u false h
    refine ⟨s1, c' :: s2, rfl, drop_figures s1 i false k2 hi (.inl rfl), ?_⟩
    rw [List.map_cons, k1, drop_cons h95 hd, k3]
    rfl

theorem drop_exponent {s xt : PyStr} {y : Int} (h : dropUnderscores false (s.map asciiForm) = some xt)
    (hx : ExpParts xt y) : LitExponent s y := by
  rcases hx with ⟨rfl, rfl⟩ | ⟨c, sg, ds, neg, hc, hsg, hds, hne, rfl, rfl⟩
  · have := figures_nil (drop_figures s [] false h (by simp [Digits]) (.inl rfl))
    subst this
    exact .none
  · obtain ⟨s', rfl, h'⟩ : ∃ s', s = c :: s' ∧ dropUnderscores false (s'.map asciiForm) = some (sg ++ ds) := by
      rcases hc with rfl | rfl
      · exact drop_head (by decide) (by decide) (by decide) (by decide) h
      · exact drop_head (by decide) (by decide) (by decide) (by decide) h
    obtain ⟨s'', rfl, h''⟩ := drop_sign hsg h'
    have hf := drop_figures s'' ds false h'' hds (.inl rfl)
    have := LitExponent.letter hc hsg hf (fun h => hne (List.map_eq_nil_iff.mp h))
    rw [figuresVal_digits] at this
    exact this

theorem expParts_head {xt : PyStr} {y : Int} (h : ExpParts xt y) :
    ∀ c, xt.head? = some c → isDigit c = false ∧ c ≠ 95 := by
  rcases h with ⟨rfl, -⟩ | ⟨c, sg, ds, neg, hc, -, -, -, rfl, -⟩
  · intro c hc; cases hc
  · intro d hd
    cases hd
    rcases hc with rfl | rfl <;> decide

theorem drop_fraction {s f ft xt : PyStr} {y : Int} (h : dropUnderscores false (s.map asciiForm) = some (ft ++ xt))
    (hf : Fraction ft f) (hx : ExpParts xt y) :
    ∃ s1 s2, s = s1 ++ s2 ∧ LitFraction s1 (f.map fun c => c.val - 48) ∧ LitExponent s2 y := by
  cases hf with
  | none => exact ⟨[], s, rfl, .none, drop_exponent h hx⟩
  | @point ds hd =>
    rw [List.cons_append] at h
    obtain ⟨s', rfl, h'⟩ := drop_head (by decide) (by decide) (by decide) (by decide) h
    obtain ⟨s1, s2, rfl, k1, k2⟩ := drop_digits hd (expParts_head hx) h'
    exact ⟨46 :: s1, s2, rfl, .point k1, drop_exponent k2 hx⟩

theorem drop_word {s w l : PyStr} (hl : Small l) (hw : AnyCase w l)
    (h : dropUnderscores false (s.map asciiForm) = some w) : s = w := by
  have hc := anyCase_chars hl hw
  have h1 := drop_none s w h fun c hc' => ((letters_plain hc).2 c hc').1
  clear h hw
  induction s generalizing w with
  | nil => exact h1
  | cons a s ih =>
    cases w with
    | nil => cases h1
    | cons b w =>
      rw [List.map_cons, List.cons.injEq] at h1
      have hb := hc b (by simp)
      have hp := (letters_plain hc).2 b (by simp)
      have h32 : b ≠ 32 := by rintro rfl; exact absurd hb (by decide)
      have h63 : b ≠ 63 := by rintro rfl; exact absurd hb (by decide)
      rw [asciiForm_plain (by omega) h32 h63 hp.1] at h1
      rw [h1.1, ih (fun c hc' => hc c (by simp [hc'])) h1.2]

theorem reads_literal {a t : PyStr} {x : F32} (h : dropUnderscores false (a.map asciiForm) = some t)
    (hp : post t = some x) : ∃ v, FloatLit a v ∧ v.Reads x := by
  obtain ⟨sg, h1, h2⟩ := takeSign_inv t
  unfold post at hp
  generalize takeSign t = q at hp h1 h2
  obtain ⟨neg, r⟩ := q
  simp only at hp h1 h2
  rw [h2] at h
  obtain ⟨a', rfl, h'⟩ := drop_sign h1 h
  by_cases hn : r.map lower = [110, 97, 110]
  · rw [if_pos hn] at hp
    have hw := (anyCase_iff small_nan r).mp hn
    have := drop_word small_nan hw h'
    subst this
    exact ⟨_, .nan h1 hw, (Option.some.inj hp).symm⟩
  rw [if_neg hn] at hp
  by_cases hi : r.map lower = [105, 110, 102] ∨ r.map lower = [105, 110, 102, 105, 110, 105, 116, 121]
  · rw [if_pos hi] at hp
    have hx : x = mk neg inf := (Option.some.inj hp).symm
    have hw : AnyCase r [105, 110, 102] ∨ AnyCase r [105, 110, 102, 105, 110, 105, 116, 121] :=
      hi.imp (anyCase_iff small_inf r).mp (anyCase_iff small_infinity r).mp
    have : a' = r := by
      rcases hw with hw | hw
      · exact drop_word small_inf hw h'
      · exact drop_word small_infinity hw h'
    subst this
    rw [hx]
    exact ⟨_, .inf h1 hw, reads_inf neg⟩
  rw [if_neg hi] at hp
  simp only [Option.bind_eq_bind, Option.bind_eq_some_iff] at hp
  obtain ⟨⟨m, e⟩, hnum, hx⟩ := hp
  obtain ⟨i, f, ft, xt, y, k1, k2, k3, k4, rfl, rfl, rfl⟩ := number_inv hnum
  have hhead : ∀ c, (ft ++ xt).head? = some c → isDigit c = false ∧ c ≠ 95 := by
    cases k2 with
    | none => exact expParts_head k3
    | point hd =>
      intro c hc
      cases hc
      decide
  obtain ⟨s1, s2, rfl, j1, j2⟩ := drop_digits k1 hhead h'
  obtain ⟨s3, s4, rfl, j3, j4⟩ := drop_fraction j2 k2 k3
  refine ⟨_, .dec h1 j1 j3 j4 ?_, ?_⟩
  · rw [← List.map_append]
    exact fun hnil => k4 (List.map_eq_nil_iff.mp hnil)
  · rw [← List.map_append, figuresVal_digits, List.length_map]
    rw [← Option.some.inj hx]
    exact reads_dec neg _ _

/-! ### Whitespace -/

theorem literal_ends {a : PyStr} {v : FloatVal} (h : FloatLit a v) : ∀ c ∈ a, ¬ Blank c := by
  intro c hc hb
  obtain ⟨x, hx, -⟩ := literal_reads h
  rw [Option.bind_eq_some_iff] at hx
  obtain ⟨t, ht, -⟩ := hx
  have hsp := (asciiSpace_iff c).mpr hb
  have hfig : ∀ {s : PyStr} {ds : List Nat}, Figures s ds → ∀ c ∈ s, Blank c → False := by
    intro s ds hs
    have hdig : ∀ {c : Code} {d : Nat}, Digit c d → Blank c → False := by
      intro c d hd hb
      have h1 := digitVal_not_space (digitVal_digit.mpr hd)
      rw [isSpace_code.mpr (.inl hb)] at h1
      cases h1
    induction hs with
    | nil => intro c hc; cases hc
    | cons hd _ ih =>
      intro c hc hb
      rcases List.mem_cons.mp hc with rfl | hc
      · exact hdig hd hb
      · exact ih c hc hb
    | under hd _ _ ih =>
      intro c hc hb
      rcases List.mem_cons.mp hc with rfl | hc
      · exact hdig hd hb
      rcases List.mem_cons.mp hc with rfl | hc
      · exact absurd hb (by unfold Blank; decide)
      · exact ih c hc hb
  have hsign : ∀ {sg : PyStr} {neg : Bool}, Sign sg neg → ∀ c ∈ sg, Blank c → False := by
    intro sg neg hs c hc hb
    cases hs with
    | none => cases hc
    | plus => rw [List.mem_singleton] at hc; subst hc; exact absurd hb (by unfold Blank; decide)
    | minus => rw [List.mem_singleton] at hc; subst hc; exact absurd hb (by unfold Blank; decide)
  have hword : ∀ {w l : PyStr}, Small l → AnyCase w l → c ∈ w → False := by
    intro w l hl hw hc
    have := anyCase_chars hl hw c hc
    unfold Blank at hb
    simp only [List.mem_cons, List.not_mem_nil, or_false] at hb
    omega
  cases h with
  | nan h1 h2 =>
    rcases List.mem_append.mp hc with hc | hc
    · exact hsign h1 c hc hb
    · exact hword small_nan h2 hc
  | inf h1 h2 =>
    rcases List.mem_append.mp hc with hc | hc
    · exact hsign h1 c hc hb
    · rcases h2 with h2 | h2
      · exact hword small_inf h2 hc
      · exact hword small_infinity h2 hc
  | dec h1 h2 h3 h4 h5 =>
    rcases List.mem_append.mp hc with hc | hc
    · exact hsign h1 c hc hb
    rcases List.mem_append.mp hc with hc | hc
    · exact hfig h2 c hc hb
    rcases List.mem_append.mp hc with hc | hc
    · cases h3 with
      | none => cases hc
      | point hs =>
        rcases List.mem_cons.mp hc with rfl | hc
        · exact absurd hb (by unfold Blank; decide)
        · exact hfig hs c hc hb
    · cases h4 with
      | none => cases hc
      | letter hl hsg hs _ =>
        rcases List.mem_cons.mp hc with rfl | hc
        · rcases hl with rfl | rfl <;> exact absurd hb (by unfold Blank; decide)
        rcases List.mem_append.mp hc with hc | hc
        · exact hsign hsg c hc hb
        · exact hfig hs c hc hb

theorem word_reads {s : PyStr} {v : FloatVal} (h : FloatWord s v) : ∃ x, read s = some x ∧ v.Reads x := by
  obtain ⟨t0, a, t1, rfl, hb, ha⟩ := h
  obtain ⟨x, hx, hr⟩ := literal_reads ha
  refine ⟨x, ?_, hr⟩
  have hends : ∀ c ∈ a, isAsciiSpace (asciiForm c) = false := by
    intro c hc
    rw [Bool.eq_false_iff, Ne, asciiSpace_iff]
    exact literal_ends ha c hc
  rw [read_post, trimBy_append, hx]
  · exact fun c hc => (asciiSpace_iff c).mpr (hb c (by simp [hc]))
  · exact fun c hc => (asciiSpace_iff c).mpr (hb c (by simp [hc]))
  · exact fun c hc => hends c (List.mem_of_mem_head? hc)
  · exact fun c hc => hends c (List.mem_of_getLast? hc)

theorem reads_word {s : PyStr} {x : F32} (h : read s = some x) : ∃ v, FloatWord s v ∧ v.Reads x := by
  rw [read_post, Option.bind_eq_some_iff] at h
  obtain ⟨t, ht, hp⟩ := h
  obtain ⟨v, h1, h2⟩ := reads_literal ht hp
  obtain ⟨t0, t1, k1, k2, k3⟩ := trimBy_decompose (fun c => isAsciiSpace (asciiForm c)) s
  refine ⟨v, ⟨t0, _, t1, k1, fun c hc => (asciiSpace_iff c).mp ?_, h1⟩, h2⟩
  rcases List.mem_append.mp hc with hc | hc
  · exact k2 c hc
  · exact k3 c hc

end B32

end FF
