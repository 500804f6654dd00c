import Verif.Lemmas.TextFile
import Verif.Lemmas.Grow
import Verif.Props.C59
/-! Helper lemmas: texts that are cut short. -/

namespace FF

/-! ### Bytes -/

theorem encCode_one {c : Code} (h : c.val < 0x80) : (encCode c).length = 1 := by
  unfold encCode
  simp only
  rw [if_pos h]
  rfl

theorem utf8Char_high {n : Nat} {enc : Bytes} (h : Utf8Char n enc) (hn : 0x80 ≤ n) :
    ∀ b ∈ enc, 0x80 ≤ b.toNat := by
  cases h with
  | one b h => omega
  | two b c x y hx hy hb hc h =>
    intro d hd
    simp only [List.mem_cons, List.not_mem_nil, or_false] at hd
    rcases hd with rfl | rfl <;> omega
  | three b c d x y z hx hy hz hb hc hd h hs =>
    intro e he
    simp only [List.mem_cons, List.not_mem_nil, or_false] at he
    rcases he with rfl | rfl | rfl <;> omega
  | four b c d e w x y z hw hx hy hz hb hc hd he h hs =>
    intro f hf
    simp only [List.mem_cons, List.not_mem_nil, or_false] at hf
    rcases hf with rfl | rfl | rfl | rfl <;> omega

theorem utf8Char_low {n : Nat} {enc : Bytes} (h : Utf8Char n enc) (hb : ∀ b ∈ enc, 0x80 ≤ b.toNat) :
    0x80 ≤ n := by
  cases h with
  | one b h => exact hb b (by simp)
  | two => assumption
  | three => omega
  | four => omega

/-- Bytes outside ASCII are decoded to characters outside ASCII. -/
theorem replaced_high {bs : Bytes} {s : PyStr} (h : Replaced bs s) (hb : ∀ b ∈ bs, 0x80 ≤ b.toNat) :
    ∀ c ∈ s, 0x80 ≤ c.val := by
  induction h with
  | nil => intro c hc; cases hc
  | good hc h ih =>
    intro c hm
    rcases List.mem_cons.mp hm with rfl | hm
    · exact utf8Char_low hc fun b hb' => hb b (List.mem_append_left _ hb')
    · exact ih (fun b hb' => hb b (List.mem_append_right _ hb')) c hm
  | bad hi h ih =>
    intro c hm
    rcases List.mem_cons.mp hm with rfl | hm
    · decide
    · exact ih (fun b hb' => hb b (List.mem_append_right _ hb')) c hm

/-- What is decoded from the beginning of a text. -/
theorem cut_decode {T : PyStr} (hT : ∀ c ∈ T, c.val < 0xD800 ∨ 0xDFFF < c.val) (k : Nat) :
    ∃ u v r : PyStr, T = u ++ v ∧ Replaced ((utf8 T).take k) (u ++ r) ∧ (∀ c ∈ r, 0x80 ≤ c.val) ∧
      (r ≠ [] → ∃ c v', v = c :: v' ∧ 0x80 ≤ c.val) ∧ (k < (utf8 T).length → v ≠ []) ∧
      ∀ u', u' <+: T → (utf8 u').length ≤ k → u' <+: u := by
  induction T generalizing k with
  | nil =>
    refine ⟨[], [], [], rfl, ?_, by simp, fun h => absurd rfl h, fun h => absurd h (by simp [utf8]),
      fun _ h _ => h⟩
    simpa [utf8] using Replaced.nil
  | cons c T ih =>
    have hcs : isSurrogate c = false := isSurrogate_false.mpr (hT c (by simp))
    have hc : Utf8Char c.val (encCode c) := utf8Char_iff.mpr ⟨c, rfl, hcs, rfl⟩
    by_cases hk : (encCode c).length ≤ k
    · obtain ⟨u, v, r, h1, h2, h3, h4, h5, h6⟩ := ih (fun d hd => hT d (List.mem_cons_of_mem _ hd))
        (k - (encCode c).length)
      refine ⟨c :: u, v, r, by rw [h1]; rfl, ?_, h3, h4, ?_, ?_⟩
      · rw [utf8, List.take_append, List.take_of_length_le hk]
        exact .good hc h2
      · intro h
        rw [utf8, List.length_append] at h
        exact h5 (by omega)
      · intro u' hu hl
        cases u' with
        | nil => exact List.nil_prefix
        | cons d u' =>
          obtain ⟨rfl, hu'⟩ := List.cons_prefix_cons.mp hu
          rw [utf8, List.length_append] at hl
          exact List.cons_prefix_cons.mpr ⟨rfl, h6 u' hu' (by omega)⟩
    · obtain ⟨r, hr⟩ : ∃ r, Replaced ((encCode c).take k) r := ⟨_, (decodeReplace_iff _ _).mp rfl⟩
      have ht : (utf8 (c :: T)).take k = (encCode c).take k := by
        rw [utf8, List.take_append_of_le_length (by omega)]
      have hlast : ∀ u', u' <+: c :: T → (utf8 u').length ≤ k → u' <+: ([] : PyStr) := by
        intro u' hu hl
        cases u' with
        | nil => exact List.nil_prefix
        | cons d u' =>
          obtain ⟨rfl, hu⟩ := List.cons_prefix_cons.mp hu
          rw [utf8, List.length_append] at hl
          omega
      by_cases hh : c.val < 0x80
      · have := encCode_one hh
        obtain rfl : k = 0 := by omega
        exact ⟨[], c :: T, [], rfl, by simpa using Replaced.nil, by simp, fun h => absurd rfl h, by simp,
          hlast⟩
      · refine ⟨[], c :: T, r, rfl, by rw [ht]; exact hr, ?_, fun _ => ⟨c, T, rfl, by omega⟩, by simp,
          hlast⟩
        exact replaced_high hr fun b hb => utf8Char_high hc (by omega) b (List.mem_of_mem_take hb)

/-! ### Lines -/

/-- The lines of a text that is cut: the first ones and the beginning of the next. -/
theorem cut_lines {ls : List PyStr} (hl : ∀ l ∈ ls, NoBreak l) {u v r : PyStr}
    (h : (ls.flatMap fun l => l ++ [10]) = u ++ v) (hr : ∀ c ∈ r, 0x80 ≤ c.val)
    (hv : r ≠ [] → ∃ c v', v = c :: v' ∧ 0x80 ≤ c.val) :
    ∃ (j : Nat) (q s : PyStr), j ≤ ls.length ∧
      SplitLines (u ++ r) (ls.take j ++ if q ++ r = [] then [] else [q ++ r]) ∧
      (j < ls.length → ls[j]? = some (q ++ s)) ∧ (j = ls.length → q = [] ∧ r = [] ∧ v = []) ∧
      (r ≠ [] → ∃ c s', s = c :: s' ∧ 0x80 ≤ c.val) ∧
      ∀ i, i ≤ ls.length → ((ls.take i).flatMap fun l => l ++ [10]) <+: u → i ≤ j := by
  have hrb : NoBreak r := by
    intro c hc
    have := hr c hc
    exact ⟨by omega, by omega⟩
  induction ls generalizing u with
  | nil =>
    obtain ⟨rfl, rfl⟩ := List.append_eq_nil_iff.mp h.symm
    obtain rfl : r = [] := by
      by_contra hn
      obtain ⟨_, _, h, _⟩ := hv hn
      cases h
    exact ⟨0, [], [], by simp, by simpa using SplitLines.nil, by simp, by simp, fun h => absurd rfl h,
      fun i hi _ => by simpa using hi⟩
  | cons l ls ih =>
    rw [List.flatMap_cons] at h
    have key : (∃ u', u = l ++ [10] ++ u' ∧ (ls.flatMap fun l => l ++ [10]) = u' ++ v) ∨
        ∃ s, l = u ++ s ∧ v = s ++ [10] ++ ls.flatMap fun l => l ++ [10] := by
      rcases List.append_eq_append_iff.mp h with ⟨u', h1, h2⟩ | ⟨w, h1, h2⟩
      · exact .inl ⟨u', h1, h2⟩
      · rcases List.eq_nil_or_concat w with rfl | ⟨s, x, rfl⟩
        · refine .inl ⟨[], by simpa using h1.symm, by simpa using h2.symm⟩
        · rw [List.concat_eq_append, ← List.append_assoc] at h1
          obtain ⟨h3, h4⟩ := List.append_inj' h1 rfl
          cases h4
          exact .inr ⟨s, h3, by rw [h2, List.concat_eq_append]⟩
    rcases key with ⟨u', rfl, h2⟩ | ⟨s, h1, h2⟩
    · obtain ⟨j, q, s, h3, h4, h5, h6, h7, h8⟩ := ih (fun l hl' => hl l (List.mem_cons_of_mem _ hl')) h2
      refine ⟨j + 1, q, s, by simp; omega, ?_, ?_, ?_, h7, ?_⟩
      · have := SplitLines.lf (hl l (by simp)) h4
        simpa using this
      · intro hj
        rw [List.getElem?_cons_succ]
        exact h5 (by simp at hj; omega)
      · intro hj
        exact h6 (by simp at hj; omega)
      · intro i hi hp
        cases i with
        | zero => omega
        | succ i =>
          rw [List.take_succ_cons, List.flatMap_cons] at hp
          have := h8 i (by simp at hi; omega) ((List.prefix_append_right_inj _).mp hp)
          omega
    · refine ⟨0, u, s, by simp, ?_, ?_, by simp, ?_, ?_⟩
      · rw [List.take_zero, List.nil_append]
        split
        · rename_i he
          rw [he]
          exact .nil
        · rename_i he
          refine .last ?_ he
          intro c hc
          rcases List.mem_append.mp hc with hc | hc
          · exact hl l (by simp) c (by rw [h1]; exact List.mem_append_left _ hc)
          · exact hrb c hc
      · intro _
        simp [h1]
      · intro hn
        obtain ⟨c, v', hc, hc'⟩ := hv hn
        cases s with
        | nil =>
          rw [h2] at hc
          simp only [List.nil_append, List.singleton_append, List.cons.injEq] at hc
          rw [← hc.1] at hc'
          exact absurd hc' (by decide)
        | cons d s =>
          rw [h2] at hc
          simp only [List.cons_append, List.cons.injEq] at hc
          exact ⟨d, s, rfl, by rw [hc.1]; exact hc'⟩
      · intro i hi hp
        cases i with
        | zero => omega
        | succ i =>
          have := hp.length_le
          rw [List.take_succ_cons, List.flatMap_cons, h1] at this
          simp only [List.length_append, List.length_singleton] at this
          omega

/-- The lines of a file that is cut. -/
theorem yields_cut [TextIO] {lossy : Bool} {ls ms : List PyStr} {stop : Option PyErr} {k : Nat}
    (hl : ∀ l ∈ ls, ∀ c ∈ l, Clean c)
    (h : Yields lossy ((utf8 (ls.flatMap fun l => l ++ [10])).take k) ms stop) :
    ∃ (j : Nat) (q s r : PyStr) (rest : List PyStr),
      ms ++ rest = (ls.take j ++ if q ++ r = [] then [] else [q ++ r]) ∧ (stop = none → rest = []) ∧
      (j < ls.length → ls[j]? = some (q ++ s)) ∧ j ≤ ls.length ∧ (j = ls.length → q = [] ∧ r = []) ∧
      (∀ c ∈ r, 0x80 ≤ c.val) ∧ (r ≠ [] → ∃ c s', s = c :: s' ∧ 0x80 ≤ c.val) ∧
      (k < (utf8 (ls.flatMap fun l => l ++ [10])).length → j < ls.length) ∧
      ∀ i, i ≤ ls.length → (utf8 ((ls.take i).flatMap fun l => l ++ [10])).length ≤ k → i ≤ j := by
  obtain ⟨rest, hrest, hy⟩ : ∃ rest, (stop = none → rest = []) ∧
      Yields true ((utf8 (ls.flatMap fun l => l ++ [10])).take k) (ms ++ rest) none := by
    cases lossy with
    | true =>
      rcases h with h | ⟨h, _⟩
      · obtain ⟨text, h1, h2, _⟩ := h
        exact ⟨[], fun _ => rfl, .inl ⟨text, h1, by simpa using h2, rfl⟩⟩
      · cases h
    | false =>
      rcases yields_lossy h with ⟨h1, h2⟩ | ⟨h1, more, h2⟩
      · exact ⟨[], fun _ => rfl, by simpa using h2⟩
      · exact ⟨more, (fun h0 => by rw [h0] at h1; cases h1), h2⟩
  obtain ⟨text, hd, hsp⟩ : ∃ text, DecodesTo true ((utf8 (ls.flatMap fun l => l ++ [10])).take k) text ∧
      SplitLines text (ms ++ rest) := by
    rcases hy with hy | ⟨hy, _⟩
    · obtain ⟨t, a, b, _⟩ := hy
      exact ⟨t, a, b⟩
    · cases hy
  have hT : ∀ c ∈ ls.flatMap fun l => l ++ [10], c.val < 0xD800 ∨ 0xDFFF < c.val := by
    intro c hc
    obtain ⟨l, hl', hc⟩ := List.mem_flatMap.mp hc
    rcases List.mem_append.mp hc with hc | hc
    · exact (hl l hl' c hc).2.2
    · rw [List.mem_singleton] at hc; subst hc; decide
  obtain ⟨u, v, r, h1, h2, h3, h4, h5, h6⟩ := cut_decode hT k
  obtain ⟨j, q, s, g1, g2, g3, g4, g5, g6⟩ := cut_lines
    (fun l hl' c hc => ⟨(hl l hl' c hc).1, (hl l hl' c hc).2.1⟩) h1 h3 h4
  have htext : text = u ++ r := by
    have a := (decodeReplace_iff _ _).mpr (by simpa [DecodesTo] using hd)
    have b := (decodeReplace_iff _ _).mpr h2
    rw [← a, ← b]
  subst htext
  refine ⟨j, q, s, r, rest, splitLines_unique hsp g2, hrest, g3, g1, fun h => ⟨(g4 h).1, (g4 h).2.1⟩, h3, g5, ?_,
    ?_⟩
  · intro hk
    by_contra hj
    exact h5 hk (g4 (by omega)).2.2
  · intro i hi hk
    refine g6 i hi (h6 _ ?_ hk)
    conv => rhs; rw [← List.take_append_drop i ls, List.flatMap_append]
    exact List.prefix_append _ _

/-! ### The first blank -/

theorem first_unique {α : Type} {p : α → Bool} {x w : List α} {a b : α} {m n : List α}
    (h : x ++ a :: m = w ++ b :: n) (hx : ∀ c ∈ x, p c = false) (hw : ∀ c ∈ w, p c = false)
    (ha : p a = true) (hb : p b = true) : x = w ∧ a = b ∧ m = n := by
  induction x generalizing w with
  | nil =>
    cases w with
    | nil => cases h; exact ⟨rfl, rfl, rfl⟩
    | cons c w =>
      cases h
      have := hw a (by simp)
      rw [ha] at this
      cases this
  | cons c x ih =>
    cases w with
    | nil =>
      cases h
      have := hx b (by simp)
      rw [hb] at this
      cases this
    | cons d w =>
      rw [List.cons_append, List.cons_append, List.cons.injEq] at h
      obtain ⟨rfl, h⟩ := h
      obtain ⟨h1, h2⟩ := ih h (fun e he => hx e (List.mem_cons_of_mem _ he))
        (fun e he => hw e (List.mem_cons_of_mem _ he))
      exact ⟨by rw [h1], h2⟩

/-- The beginnings of texts separated by blanks. -/
theorem prefix_intercalate {ps : List PyStr} {q s : PyStr} (h : List.intercalate [32] ps = q ++ s)
    (hne : ps ≠ []) :
    ∃ (i : Nat) (p t : PyStr), ps[i]? = some (p ++ t) ∧ q = List.intercalate [32] (ps.take i ++ [p]) := by
  induction ps generalizing q with
  | nil => exact absurd rfl hne
  | cons p ps ih =>
    cases ps with
    | nil =>
      rw [← joinSp_eq] at h
      exact ⟨0, q, s, by simpa [joinSp] using h, by simp⟩
    | cons p' ps =>
      have hi : ∀ (x : PyStr) (xs : List PyStr), xs ≠ [] →
          List.intercalate [32] (x :: xs) = x ++ (32 :: List.intercalate [32] xs) := by
        intro x xs hx
        cases xs with
        | nil => exact absurd rfl hx
        | cons y ys => rw [← joinSp_eq, ← joinSp_eq, joinSp]; simp
      rw [hi _ _ (by simp)] at h
      rcases List.append_eq_append_iff.mp h with ⟨q', h1, h2⟩ | ⟨t, h1, h2⟩
      · cases q' with
        | nil =>
          refine ⟨0, p, [], by simp, ?_⟩
          rw [h1]; simp
        | cons c q' =>
          rw [List.cons_append, List.cons.injEq] at h2
          obtain ⟨rfl, h2⟩ := h2
          obtain ⟨i, p2, t, h3, h4⟩ := ih h2 (by simp)
          refine ⟨i + 1, p2, t, by rw [List.getElem?_cons_succ]; exact h3, ?_⟩
          rw [List.take_succ_cons, List.cons_append, hi _ _ (by simp), ← h4, h1]
      · exact ⟨0, q, t, by simp [h1], by simp⟩

/-- The beginning of the line with the dimensions does not announce zero rows. -/
theorem cut_dims {n cols : Nat} {q s : PyStr} {c : Int} (h : decimal n ++ [32] ++ decimal cols = q ++ s)
    (hd : DimsAre q 0 c) : n = 0 := by
  obtain ⟨t0, a, t1, b, t2, hq, h0, h1, _, ha, _, hane, _, h1ne, hr, _⟩ := hd
  have hdig : ∀ d ∈ decimal n, isSpace d = false := fun d hd => digit_not_space (decimal_digits n d hd)
  obtain ⟨x, t1, rfl⟩ := List.exists_cons_of_ne_nil h1ne
  have ht0 : t0 = [] := by
    cases t0 with
    | nil => rfl
    | cons y t0 =>
      exfalso
      have hy := h0 y (by simp)
      rw [hq] at h
      cases hn : decimal n with
      | nil => exact decimal_ne_nil n hn
      | cons d ds =>
        rw [hn] at h
        simp only [List.cons_append, List.cons.injEq] at h
        have := hdig d (by rw [hn]; simp)
        rw [h.1, hy] at this
        cases this
  subst ht0
  have h2 : a ++ x :: (t1 ++ b ++ t2 ++ s) = decimal n ++ 32 :: decimal cols := by
    have := h.symm
    rw [hq] at this
    simpa using this
  obtain ⟨rfl, _⟩ := first_unique h2 ha hdig (h1 x (by simp)) (by decide)
  have h3 := (pyInt_iff_of_none hdig).mpr hr
  rw [pyInt_decimal] at h3
  have := Except.ok.inj h3
  omega

/-! ### Rows -/

section
variable {K : Type} [NumText K]

theorem textRow_congr {cols : Nat} {l l' : PyStr} (h : rstrip l = rstrip l') :
    textRow (K := K) cols l = textRow cols l' := by
  unfold textRow
  rw [h]

/-- Which vectors the beginning of a row can stand for: the last number is cut, or everything after the
first, which may be cut itself. -/
theorem cut_row {cols : Nat} {sep w q s r : PyStr} {ps : List PyStr} {x : PyStr × List K}
    (hs : TextSep sep) (hw : ∀ c ∈ w, isAsciiSpace c = false) (hp : ∀ p ∈ ps, NumberText p)
    (hl : ps.length = cols) (hc : 1 ≤ cols) (h : rowText sep (w, ps) = q ++ s)
    (hr : ∀ c ∈ r, 0x80 ≤ c.val) (hrs : r ≠ [] → ∃ c s', s = c :: s' ∧ 0x80 ≤ c.val)
    (hx : ReadsAs cols (q ++ r) x) :
    x.1 = w ∧ ∃ p t y, p ≠ [] ∧ NumText.parse p = .ok y ∧
      ((ps.getLast? = some (p ++ t) ∧
          List.Forall₂ (fun p x => NumText.parse p = .ok x) (ps.dropLast ++ [p]) x.2) ∨
        (ps.head? = some (p ++ t) ∧ x.2 = List.replicate cols y)) := by
  have hps : ps ≠ [] := by rintro rfl; simp at hl; omega
  have hfree : ∀ c ∈ r, isAsciiSpace c = false := by
    intro c hcr
    have := hr c hcr
    exact ascii_space_iff.mpr (by omega)
  have hx' := hx
  obtain ⟨ps', xs, ⟨sp, hsp, hfl, t, _, hline, _⟩, hxs, hxl, hv⟩ := hx
  have hlen := hxs.length_eq
  have hne : ps' ≠ [] := by
    rintro rfl
    obtain rfl : xs = [] := List.length_eq_zero_iff.mp (by simpa using hlen.symm)
    rcases hv with hv | ⟨y, hy, _⟩
    · rw [hv] at hxl; simp at hxl; omega
    · cases hy
  -- a blank and something else after the word
  obtain ⟨a, q1, hq, ha, d, hd, hda⟩ : ∃ a q1, q ++ r = x.1 ++ a :: q1 ∧ isAsciiSpace a = true ∧
      ∃ d ∈ q1, isAsciiSpace d = false := by
    cases sp with
    | nil => exact absurd hsp.symm hne
    | cons y sp =>
      obtain ⟨h1, h2⟩ := hfl.seps y (by simp)
      obtain ⟨h3, h4⟩ := hfl.parts y (by simp)
      obtain ⟨y1, y2⟩ := y
      cases y1 with
      | nil => exact absurd rfl h1
      | cons a y1 =>
        cases y2 with
        | nil => exact absurd rfl h3
        | cons d y2 =>
          refine ⟨a, y1 ++ (d :: y2) ++ (sp.flatMap fun x => x.1 ++ x.2) ++ t, ?_, h2 a (by simp), d, by simp,
            h4 d (by simp)⟩
          rw [hline]
          simp
  obtain ⟨q2, hq2, hq12⟩ : ∃ q2, q = x.1 ++ a :: q2 ∧ q1 = q2 ++ r := by
    rcases List.append_eq_append_iff.mp hq with ⟨y, h1, h2⟩ | ⟨y, h1, h2⟩
    · have := hfree a (by rw [h2]; simp)
      rw [ha] at this
      cases this
    · cases y with
      | nil =>
        have := hfree a (by rw [List.nil_append] at h2; rw [← h2]; simp)
        rw [ha] at this
        cases this
      | cons b y =>
        rw [List.cons_append, List.cons.injEq] at h2
        obtain ⟨rfl, h2⟩ := h2
        exact ⟨y, h1, h2⟩
  obtain ⟨b, sep', rfl⟩ : ∃ b sep', sep = b :: sep' := List.exists_cons_of_ne_nil hs.1
  have hrow : x.1 ++ a :: (q2 ++ s) = w ++ b :: (sep' ++ List.intercalate [32] ps) := by
    have : rowText (b :: sep') (w, ps) = q ++ s := h
    rw [hq2] at this
    unfold rowText at this
    simpa using this.symm
  obtain ⟨hxw, hab, htail⟩ := first_unique hrow hfl.word hw ha (hs.ascii b (by simp))
  refine ⟨hxw, ?_⟩
  -- the cut is not inside a character
  have hr0 : r = [] := by
    by_contra hn
    obtain ⟨c, s', rfl, hcv⟩ := hrs hn
    have hm : c ∈ sep' ++ List.intercalate [32] ps := by rw [← htail]; simp
    rcases List.mem_append.mp hm with hm | hm
    · have := hs.2 c (by simp [hm]); omega
    · rcases mem_intercalate hm with rfl | ⟨p, hp', hcp⟩
      · exact absurd hcv (by decide)
      · have := (hp p hp').2 c hcp; omega
  subst hr0
  rw [List.append_nil] at hq12 hx'
  subst hq12
  obtain ⟨q3, hq3, hint⟩ : ∃ q3, q1 = sep' ++ q3 ∧ List.intercalate [32] ps = q3 ++ s := by
    rcases List.append_eq_append_iff.mp htail with ⟨y, h1, h2⟩ | ⟨y, h1, h2⟩
    · have := hs.ascii d (by rw [h1]; simp [hd])
      rw [hda] at this
      cases this
    · exact ⟨y, h1, h2⟩
  obtain ⟨i, p, t, hi, hq3'⟩ := prefix_intercalate hint hps
  have hnum : ∀ z ∈ ps.take i, NumberText z := fun z hz => hp z (List.mem_of_mem_take hz)
  have hib : i < ps.length := (List.getElem?_eq_some_iff.mp hi).1
  -- what the line reads as
  have key : ∀ qs : List PyStr, qs ≠ [] → (∀ z ∈ qs, NumberText z) →
      rstrip q = rstrip (w ++ (b :: sep') ++ List.intercalate [32] qs ++ [10]) →
      ∃ xs : List K, List.Forall₂ (fun p x => NumText.parse p = .ok x) qs xs ∧
        (x.2 = xs ∨ ∃ y, xs = [y] ∧ x.2 = List.replicate cols y) := by
    intro qs hqs hqn hrst
    have h1 := readsAs_iff.mp ((textRow_congr hrst).symm.trans (readsAs_iff.mpr hx'))
    obtain ⟨ps2, xs2, hf2, hx2, _, hv2⟩ := h1
    have := (C41_fields _).unique (y₁ := (x.1, ps2)) (y₂ := (w, qs)) hf2
      (hasFields_line hw hs hqn fun he => absurd he hqs)
    obtain ⟨_, rfl⟩ := Prod.mk.inj this
    exact ⟨xs2, hx2, hv2⟩
  have h10 : ∀ l : PyStr, rstrip l = rstrip (l ++ [10]) := fun l => (rstrip_append (by
    intro c hc
    rw [List.mem_singleton] at hc
    subst hc
    decide)).symm
  by_cases hpe : p = []
  · subst hpe
    have hi0 : i ≠ 0 := by
      rintro rfl
      have : q3 = [] := by rw [hq3']; simp
      subst this
      rw [List.append_nil] at hq3
      have := hs.ascii d (by rw [← hq3]; simp [hd])
      rw [hda] at this
      cases this
    have htne : ps.take i ≠ [] := by
      rw [Ne, List.take_eq_nil_iff]
      rintro (h | h)
      · exact hi0 h
      · exact hps h
    have hsp : ∀ zs : List PyStr, zs ≠ [] →
        List.intercalate [32] (zs ++ [[]]) = List.intercalate [32] zs ++ ([32] : PyStr) := by
      intro zs hz
      induction zs with
      | nil => exact absurd rfl hz
      | cons z zs ih =>
        cases zs with
        | nil => rw [← joinSp_eq, ← joinSp_eq]; simp [joinSp]
        | cons z' zs =>
          have := ih (by simp)
          rw [← joinSp_eq, ← joinSp_eq] at this ⊢
          simp only [List.cons_append, joinSp] at this ⊢
          rw [this]
          simp
    obtain ⟨xs2, h1, h2⟩ := key (ps.take i) htne hnum (by
      rw [hq2, hq3, hq3', hsp _ htne, hxw, hab]
      rw [← h10]
      have := rstrip_append (w := w ++ (b :: sep') ++ List.intercalate [32] (ps.take i)) (j := [32]) (by
        intro c hc
        rw [List.mem_singleton] at hc
        subst hc
        decide)
      rw [← this]
      simp)
    have hlen2 := h1.length_eq
    rw [List.length_take, min_eq_left (by omega)] at hlen2
    rcases h2 with h2 | ⟨y, rfl, hy⟩
    · rw [h2] at hxl; omega
    · obtain rfl : i = 1 := by simpa using hlen2
      cases ps with
      | nil => exact absurd rfl hps
      | cons p ps =>
        rw [List.take_succ_cons, List.take_zero] at h1
        cases h1 with
        | cons h1 _ => exact ⟨p, [], y, (hp p (by simp)).1, h1, .inr ⟨by simp, hy⟩⟩
  · have hpt := hp _ (List.mem_of_getElem? hi)
    obtain ⟨xs2, h1, h2⟩ := key (ps.take i ++ [p]) (by simp) (by
      intro z hz
      rcases List.mem_append.mp hz with hz | hz
      · exact hnum z hz
      · rw [List.mem_singleton] at hz
        subst hz
        exact ⟨hpe, fun c hc => hpt.2 c (List.mem_append_left _ hc)⟩) (by
      rw [hq2, hq3, hq3', hxw, hab, ← h10]
      simp)
    have hlen2 := h1.length_eq
    rw [List.length_append, List.length_take, min_eq_left (by omega), List.length_singleton] at hlen2
    obtain ⟨y, hy⟩ : ∃ y : K, NumText.parse p = .ok y := by
      have hmem : ∀ {ps : List PyStr} {ys : List K},
          List.Forall₂ (fun p x => NumText.parse p = .ok x) ps ys → p ∈ ps → ∃ y : K, NumText.parse p = .ok y := by
        intro ps ys hf
        induction hf with
        | nil => intro h; cases h
        | cons h _ ih =>
          intro hm
          rcases List.mem_cons.mp hm with rfl | hm
          · exact ⟨_, h⟩
          · exact ih hm
      exact hmem h1 (by simp)
    rcases h2 with h2 | ⟨y', rfl, hy'⟩
    · rw [← h2] at h1 hlen2
      refine ⟨p, t, y, hpe, hy, .inl ⟨?_, ?_⟩⟩
      · rw [List.getLast?_eq_getElem?, show ps.length - 1 = i by omega]
        exact hi
      · rw [List.dropLast_eq_take, show ps.length - 1 = i by omega]
        exact h1
    · obtain rfl : i = 0 := by simpa using hlen2
      rw [List.take_zero, List.nil_append] at h1
      cases h1 with
      | cons h1 _ => exact ⟨p, t, y', hpe, h1, .inr ⟨by rw [List.head?_eq_getElem?]; exact hi, hy'⟩⟩

end

end FF
