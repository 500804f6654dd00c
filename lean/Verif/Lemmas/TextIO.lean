import Verif.Model.TextIO
import Verif.Spec.TextIO
import Verif.Lemmas.Utf8Lossy
import Verif.Lemmas.TextLines
/-! Reading text files in pieces. -/

namespace FF

/-! ### The decoder -/

theorem utf8Step_good_append {b : UInt8} {bs : Bytes} {c k : Nat} (h : utf8Step b bs = .good c k)
    (y : Bytes) : utf8Step b (bs ++ y) = .good c k := by
  obtain ⟨hc, tl, rest', rfl, rfl, he, hs⟩ := utf8Step_good h
  obtain ⟨b', tl', h3, h4⟩ := utf8Step_encCode ⟨c, hc⟩ hs (rest' ++ y)
  rw [he] at h3
  cases h3
  rw [List.append_assoc, h4]

theorem utf8Step_outside {b : UInt8} {bs : Bytes} {k : Nat} (h : utf8Step b bs = .bad k)
    (hb : b.toNat < 0xC2 ∨ 0xF5 ≤ b.toNat) (y : Bytes) : utf8Step b y = .bad k := by
  unfold utf8Step at h ⊢
  simp only at h ⊢
  split at h
  · cases h
  rename_i h1
  rw [if_neg h1]
  split at h
  · rename_i h2
    rw [if_pos h2]; exact h
  rename_i h2
  rw [if_neg (by omega), if_neg (by omega), if_neg (by omega)] at h
  rw [if_neg h2, if_neg (by omega), if_neg (by omega), if_neg (by omega)]
  exact h

theorem utf8Step_bad_append {b : UInt8} {bs : Bytes} {k : Nat} (h : utf8Step b bs = .bad k)
    (hu : unfinished b bs k = false) (y : Bytes) : utf8Step b (bs ++ y) = .bad k := by
  by_cases hl : k + 1 ≤ bs.length
  · exact utf8Step_bad_congr h hl ((List.take_prefix _ _).trans (List.prefix_append _ _))
  · have hk := (utf8Step_bad h).1
    refine utf8Step_outside h ?_ _
    unfold unfinished at hu
    by_contra hc
    have e : bs.length = k := by omega
    have h1 : 194 ≤ b.toNat := by omega
    have h2 : b.toNat < 245 := by omega
    simp [e, h1, h2] at hu

theorem lead_completes (b : UInt8) (h1 : 0xC2 ≤ b.toNat) (h2 : b.toNat < 0xF5) :
    ∃ more c n, utf8Step b more = .good c n ∧ 0 < n := by
  by_cases h3 : b.toNat < 0xE0
  · refine ⟨[0x80], (b.toNat - 0xC0) * 64 + ((0x80 : UInt8).toNat - 0x80), 1, ?_, by omega⟩
    unfold utf8Step
    simp only
    rw [if_neg (by omega), if_neg (by omega), if_pos h3, if_pos (by decide)]
  by_cases h4 : b.toNat < 0xF0
  · refine ⟨[if b.toNat = 0xE0 then 0xA0 else 0x80, 0x80], ?c, 2, ?h, by omega⟩
    case h =>
      unfold utf8Step
      simp only
      rw [if_neg (by omega), if_neg (by omega), if_neg h3, if_pos h4, if_pos, if_pos (by decide)]
      unfold ok3
      split
      · decide
      · split <;> decide
  · refine ⟨[if b.toNat = 0xF0 then 0x90 else 0x80, 0x80, 0x80], ?d, 3, ?g, by omega⟩
    case g =>
      unfold utf8Step
      simp only
      rw [if_neg (by omega), if_neg (by omega), if_neg h3, if_neg h4, if_pos h2, if_pos,
        if_pos (by decide), if_pos (by decide)]
      unfold ok4
      split
      · decide
      · split <;> decide

theorem unfinished_spec {b : UInt8} {bs : Bytes} {k : Nat} (h : utf8Step b bs = .bad k)
    (hu : unfinished b bs k = true) : Unfinished (b :: bs) := by
  have ⟨⟨h1, h2⟩, h3⟩ : (0xC2 ≤ b.toNat ∧ b.toNat < 0xF5) ∧ bs.length = k := by
    simpa [unfinished] using hu
  have key : ∃ more c n, utf8Step b (bs ++ more) = .good c n ∧ bs.length ≤ n := by
    cases k with
    | zero =>
      have : bs = [] := List.length_eq_zero_iff.mp h3
      subst this
      obtain ⟨more, c, n, h, _⟩ := lead_completes b h1 h2
      exact ⟨more, c, n, h, by simp⟩
    | succ k =>
      obtain ⟨_, more, c, n, h4, h5⟩ := utf8Step_bad_complete h
      rw [List.take_of_length_le (by omega)] at h4
      exact ⟨more, c, n, h4, by omega⟩
  obtain ⟨more, c, n, h4, h5⟩ := key
  obtain ⟨hc, tl, rest', e1, e2, e3, e4⟩ := utf8Step_good h4
  have hp : bs <+: tl := by
    have hp : bs <+: tl ++ rest' := ⟨more, e1⟩
    exact List.prefix_of_prefix_length_le hp (List.prefix_append _ _) (by omega)
  refine .inr ⟨c, b :: tl, utf8Char_iff.mpr ⟨⟨c, hc⟩, rfl, e4, e3⟩, List.cons_prefix_cons.mpr ⟨rfl, hp⟩, ?_⟩
  by_contra hlt
  have hlen : tl.length ≤ bs.length := by simpa using hlt
  have : bs = tl := hp.eq_of_length (le_antisymm hp.length_le hlen)
  subst this
  obtain ⟨b', tl', h6, h7⟩ := utf8Step_encCode ⟨c, hc⟩ e4 []
  rw [e3] at h6
  cases h6
  rw [List.append_nil, h] at h7
  cases h7

theorem unfinished_of {b : UInt8} {bs : Bytes} (h : Unfinished (b :: bs)) :
    ∃ k, utf8Step b bs = .bad k ∧ unfinished b bs k = true := by
  rcases h with h | ⟨n, enc, hc, ⟨more, rfl⟩, hl⟩
  · cases h
  obtain ⟨c, rfl, hs, he⟩ := utf8Char_iff.mp hc
  obtain ⟨b', tl, h3, h4⟩ := utf8Step_encCode c hs []
  rw [he] at h3
  simp only [List.cons_append, List.cons.injEq] at h3
  obtain ⟨rfl, rfl⟩ := h3
  rw [List.append_nil] at h4
  cases hst : utf8Step b bs with
  | good c' k =>
    have := utf8Step_good_append hst more
    rw [h4] at this
    obtain ⟨hc', tl, rest', rfl, rfl, _, _⟩ := utf8Step_good hst
    have h1 := (Step.good.inj this).2
    simp only [List.length_append, List.length_cons] at h1 hl
    omega
  | bad k =>
    refine ⟨k, rfl, ?_⟩
    by_contra hu
    have := utf8Step_bad_append hst (by simpa using hu) more
    rw [h4] at this
    cases this

/-- Decoding with `k` bytes to be skipped. -/
def decodeLossyAux (lossy : Bool) (k : Nat) (bs : Bytes) : Res PyStr :=
  if lossy then .ok (decodeReplaceAux k bs) else decodeAux k bs

theorem decodeLossyAux_zero (lossy : Bool) (bs : Bytes) :
    decodeLossyAux lossy 0 bs = decodeLossy lossy bs := rfl

theorem decodeLossyAux_succ (lossy : Bool) (k : Nat) (b : UInt8) (bs : Bytes) :
    decodeLossyAux lossy (k + 1) (b :: bs) = decodeLossyAux lossy k bs := by
  unfold decodeLossyAux
  cases lossy <;> rfl

theorem decodeLossyAux_good {lossy : Bool} {b : UInt8} {bs : Bytes} {c k : Nat}
    (h : utf8Step b bs = .good c k) :
    decodeLossyAux lossy 0 (b :: bs) = (decodeLossyAux lossy k bs).map (toCode c :: ·) := by
  unfold decodeLossyAux
  cases lossy
  · simp only [decodeAux, h, Bool.false_eq_true, if_false]
    cases decodeAux k bs <;> rfl
  · simp only [decodeReplaceAux, h, if_true]
    rfl

theorem decodeLossyAux_bad {lossy : Bool} {b : UInt8} {bs : Bytes} {k : Nat}
    (h : utf8Step b bs = .bad k) :
    decodeLossyAux lossy 0 (b :: bs) =
      if lossy then (decodeLossyAux lossy k bs).map (replacementChar :: ·)
      else .error .unicodeDecodeError := by
  unfold decodeLossyAux
  cases lossy
  · simp only [decodeAux, h, Bool.false_eq_true, if_false]
  · simp only [decodeReplaceAux, h, if_true]
    rfl

theorem decodePartAux_ok {lossy : Bool} {bs : Bytes} : ∀ {k : Nat} {s : PyStr} {r : Bytes},
    k ≤ bs.length → decodePartAux lossy k bs = .ok (s, r) → ∀ y,
    decodeLossyAux lossy k (bs ++ y) = (decodeLossy lossy (r ++ y)).map (s ++ ·) := by
  induction bs with
  | nil =>
    intro k s r hk h y
    have : k = 0 := by simpa using hk
    subst this
    cases h
    rw [List.nil_append, decodeLossyAux_zero]
    cases decodeLossy lossy y <;> rfl
  | cons b bs ih =>
    intro k s r hk h y
    cases k with
    | succ k =>
      rw [List.cons_append, decodeLossyAux_succ]
      exact ih (by simpa using hk) h y
    | zero =>
      rw [decodePartAux] at h
      rw [List.cons_append]
      split at h
      · rename_i c k hst
        have hkl : k ≤ bs.length := by
          obtain ⟨_, tl, rest', rfl, rfl, _⟩ := utf8Step_good hst
          simp
        rw [decodeLossyAux_good (utf8Step_good_append hst y)]
        cases hd : decodePartAux lossy k bs with
        | error x => rw [hd] at h; cases h
        | ok p =>
          rw [hd, res_bind_ok] at h
          cases h
          rw [ih hkl hd y]
          cases decodeLossy lossy (p.2 ++ y) <;> rfl
      · rename_i k hst
        split at h
        · cases h
          rw [List.cons_append, decodeLossyAux_zero]
          cases decodeLossy lossy (b :: (bs ++ y)) <;> rfl
        · rename_i hu
          split at h
          · rename_i hlo
            subst hlo
            rw [decodeLossyAux_bad (utf8Step_bad_append hst (by simpa using hu) y), if_pos rfl]
            cases hd : decodePartAux true k bs with
            | error x => rw [hd] at h; cases h
            | ok p =>
              rw [hd, res_bind_ok] at h
              cases h
              rw [ih (utf8Step_bad hst).1 hd y]
              cases decodeLossy true (p.2 ++ y) <;> rfl
          · cases h

theorem decodePartAux_err {lossy : Bool} {bs : Bytes} : ∀ {k : Nat} {x : PyErr},
    k ≤ bs.length → decodePartAux lossy k bs = .error x → lossy = false ∧ x = .unicodeDecodeError ∧ ∀ y,
    decodeAux k (bs ++ y) = .error .unicodeDecodeError := by
  induction bs with
  | nil =>
    intro k x hk h
    have : k = 0 := by simpa using hk
    subst this
    cases h
  | cons b bs ih =>
    intro k x hk h
    cases k with
    | succ k => exact ih (by simpa using hk) h
    | zero =>
      rw [decodePartAux] at h
      split at h
      · rename_i c k hst
        have hkl : k ≤ bs.length := by
          obtain ⟨_, tl, rest', rfl, rfl, _⟩ := utf8Step_good hst
          simp
        cases hd : decodePartAux lossy k bs with
        | ok p => rw [hd] at h; cases h
        | error x' =>
          rw [hd] at h
          cases h
          obtain ⟨h1, h2, h3⟩ := ih hkl hd
          refine ⟨h1, h2, fun y => ?_⟩
          rw [List.cons_append, decodeAux, utf8Step_good_append hst y]
          simp only
          rw [h3]
      · rename_i k hst
        split at h
        · cases h
        · rename_i hu
          split at h
          · cases hd : decodePartAux lossy k bs with
            | ok p => rw [hd] at h; cases h
            | error x' =>
              rename_i hlo
              have := (ih (utf8Step_bad hst).1 hd).1
              rw [hlo] at this
              cases this
          · rename_i hlo
            cases h
            refine ⟨by simpa using hlo, rfl, fun y => ?_⟩
            rw [List.cons_append, decodeAux, utf8Step_bad_append hst (by simpa using hu) y]

theorem decodePartAux_rest {lossy : Bool} {bs : Bytes} : ∀ {k : Nat} {s : PyStr} {r : Bytes},
    k ≤ bs.length → decodePartAux lossy k bs = .ok (s, r) → Unfinished r := by
  induction bs with
  | nil => intro k s r _ h; cases k <;> (cases h; exact .inl rfl)
  | cons b bs ih =>
    intro k s r hk h
    cases k with
    | succ k => exact ih (by simpa using hk) h
    | zero =>
      rw [decodePartAux] at h
      split at h
      · rename_i c k hst
        have hkl : k ≤ bs.length := by
          obtain ⟨_, tl, rest', rfl, rfl, _⟩ := utf8Step_good hst
          simp
        cases hd : decodePartAux lossy k bs with
        | error x => rw [hd] at h; cases h
        | ok p => rw [hd, res_bind_ok] at h; cases h; exact ih hkl hd
      · rename_i k hst
        split at h
        · rename_i hu
          cases h
          exact unfinished_spec hst hu
        · split at h
          · cases hd : decodePartAux lossy k bs with
            | error x => rw [hd] at h; cases h
            | ok p => rw [hd, res_bind_ok] at h; cases h; exact ih (utf8Step_bad hst).1 hd
          · cases h

theorem decodePart_ok {lossy : Bool} {bs : Bytes} {s : PyStr} {r : Bytes}
    (h : decodePart lossy bs = .ok (s, r)) (y : Bytes) :
    decodeLossy lossy (bs ++ y) = (decodeLossy lossy (r ++ y)).map (s ++ ·) :=
  decodePartAux_ok (Nat.zero_le _) h y

theorem decodePart_err {lossy : Bool} {bs : Bytes} {x : PyErr} (h : decodePart lossy bs = .error x) :
    lossy = false ∧ x = .unicodeDecodeError ∧ ∀ y, decode (bs ++ y) = .error .unicodeDecodeError :=
  decodePartAux_err (Nat.zero_le _) h

theorem utf8Text_append {s t : PyStr} {a b : Bytes} (h : Utf8Text s a) (h' : Utf8Text t b) :
    Utf8Text (s ++ t) (a ++ b) := by
  induction h with
  | nil => exact h'
  | cons hc _ ih => rw [List.append_assoc]; exact .cons hc ih

theorem decodePartAux_skip (lossy : Bool) (xs ys : Bytes) :
    decodePartAux lossy xs.length (xs ++ ys) = decodePartAux lossy 0 ys := by
  induction xs with
  | nil => rfl
  | cons x xs ih => exact ih

/-- Strict decoding of a part, exactly. -/
theorem decodePart_iff {bs : Bytes} {s : PyStr} {r : Bytes} :
    decodePart false bs = .ok (s, r) ↔ ∃ b, bs = b ++ r ∧ Utf8Text s b ∧ Unfinished r := by
  constructor
  · induction hn : bs.length using Nat.strong_induction_on generalizing bs s with
    | _ n ih =>
      intro h
      cases bs with
      | nil => cases h; exact ⟨[], rfl, .nil, .inl rfl⟩
      | cons b rest =>
        unfold decodePart at h
        rw [decodePartAux] at h
        split at h
        · rename_i c k hst
          obtain ⟨hc, tl, rest', rfl, rfl, e3, e4⟩ := utf8Step_good hst
          rw [decodePartAux_skip] at h
          cases hd : decodePartAux false 0 rest' with
          | error x => rw [hd] at h; cases h
          | ok p =>
            rw [hd, res_bind_ok] at h
            cases h
            have hlen : rest'.length < n := by simp at hn; omega
            obtain ⟨b', h1, h2, h3⟩ := ih rest'.length hlen rfl hd
            refine ⟨(b :: tl) ++ b', ?_, ?_, h3⟩
            · rw [h1]; simp
            · have e1 : toCode c = ⟨c, hc⟩ := by simp [toCode, hc]
              rw [e1]
              exact .cons (utf8Char_iff.mpr ⟨⟨c, hc⟩, rfl, e4, e3⟩) h2
        · rename_i k hst
          split at h
          · rename_i hu
            cases h
            exact ⟨[], rfl, .nil, unfinished_spec hst hu⟩
          · rw [if_neg (by decide)] at h; cases h
  · rintro ⟨b, rfl, ht, hu⟩
    induction ht with
    | nil =>
      cases r with
      | nil => rfl
      | cons b r =>
        obtain ⟨k, h1, h2⟩ := unfinished_of hu
        unfold decodePart
        rw [List.nil_append, decodePartAux, h1]
        simp only
        rw [if_pos h2]
    | cons hc _ ih =>
      rename_i c enc s bs _
      obtain ⟨c', e1, hs, he⟩ := utf8Char_iff.mp hc
      have : c' = c := Fin.ext e1
      subst this
      obtain ⟨b', tl, h3, h4⟩ := utf8Step_encCode c' hs (bs ++ r)
      rw [← he, h3]
      unfold decodePart at ih ⊢
      rw [List.cons_append, List.cons_append, decodePartAux, List.append_assoc, h4]
      simp only
      rw [decodePartAux_skip, ih, res_bind_ok]
      rw [toCode_val]
      rfl

/-! ### Newlines -/

theorem newlines_append' {a b : PyStr} (h : a.getLast? ≠ some 13 ∨ b.head? ≠ some 10) :
    newlines (a ++ b) = newlines a ++ newlines b := by
  induction hn : a.length using Nat.strong_induction_on generalizing a with
  | _ n ih =>
    match a, h with
    | [], _ => rfl
    | [c], h =>
      by_cases hc : c = 13
      · subst hc
        have hb : b.head? ≠ some 10 := by
          rcases h with h | h
          · exact absurd rfl h
          · exact h
        rw [List.singleton_append, newlines_cr hb, newlines_cr (by simp)]
        rfl
      · rw [List.singleton_append, newlines.eq_def]
        simp only
        rw [if_neg hc]
        conv_rhs => rw [newlines.eq_def]
        simp only
        rw [if_neg hc]
        rfl
    | c :: d :: a, h =>
      have h1 : (d :: a).getLast? ≠ some 13 ∨ b.head? ≠ some 10 := by
        rw [List.getLast?_cons_cons] at h; exact h
      have i1 := ih (d :: a).length (by simp at hn ⊢; omega) h1 rfl
      by_cases hc : c = 13
      · subst hc
        by_cases hd : d = 10
        · subst hd
          rw [List.cons_append, List.cons_append, newlines_crlf, newlines_crlf]
          have h2 : a.getLast? ≠ some 13 ∨ b.head? ≠ some 10 := by
            cases a with
            | nil => exact .inl (by simp)
            | cons x a => rw [List.getLast?_cons_cons] at h1; exact h1
          rw [ih a.length (by simp at hn ⊢; omega) h2 rfl]
          rfl
        · rw [List.cons_append, newlines_cr (by simpa using hd), i1, newlines_cr (by simpa using hd)]
          rfl
      · rw [List.cons_append, newlines.eq_def]
        simp only
        rw [if_neg hc, i1]
        conv_rhs => rw [newlines.eq_def]
        simp only
        rw [if_neg hc]
        rfl

/-- The carriage return that is kept back. -/
def crText (cr : Bool) : PyStr := if cr then [13] else []

theorem newlinesPart_false (cr : Bool) (s y : PyStr) :
    newlines (crText cr ++ s ++ y) =
      (newlinesPart false cr s).1 ++ newlines (crText (newlinesPart false cr s).2 ++ y) := by
  have key : ∀ out : PyStr, newlines (out ++ y) =
      (if out.getLast? = some 13 then (newlines out.dropLast, true) else (newlines out, false)).1 ++
      newlines (crText (if out.getLast? = some 13 then (newlines out.dropLast, true)
        else (newlines out, false)).2 ++ y) := by
    intro out
    by_cases h : out.getLast? = some 13
    · rw [if_pos h]
      have e : out = out.dropLast ++ [13] := (List.dropLast_append_getLast? _ h).symm
      conv_lhs => rw [e, List.append_assoc]
      rw [newlines_append' (.inr (by simp))]
      rfl
    · rw [if_neg h]
      exact newlines_append' (.inl h)
  unfold newlinesPart
  cases cr
  · simp only [Bool.false_and, Bool.false_eq_true, if_false, Bool.not_false, Bool.and_true,
      decide_eq_true_eq]
    exact key s
  · by_cases hs : s = []
    · subst hs
      simp [crText, newlines]
    · simp only [hs, ne_eq, not_false_eq_true, decide_true, Bool.true_or, Bool.and_true, if_true,
        Bool.not_false, decide_eq_true_eq, Bool.not_true, Bool.and_false]
      exact key (13 :: s)

theorem newlinesPart_true (cr : Bool) (s : PyStr) :
    (newlinesPart true cr s).1 = newlines (crText cr ++ s) := by
  unfold newlinesPart
  cases cr <;> simp [crText]

/-- The part of the translated text that does not depend on what follows. -/
def soFar (s : PyStr) : PyStr := if s.getLast? = some 13 then newlines s.dropLast else newlines s

theorem soFar_cr (cr : Bool) : soFar (crText cr) = [] := by cases cr <;> rfl

theorem soFar_append (cr : Bool) (s y : PyStr) :
    soFar (crText cr ++ s ++ y) =
      (newlinesPart false cr s).1 ++ soFar (crText (newlinesPart false cr s).2 ++ y) := by
  cases y using List.reverseRecOn with
  | nil =>
    rw [List.append_nil, List.append_nil, soFar_cr, List.append_nil]
    unfold newlinesPart
    cases cr
    · simp only [crText, Bool.false_and, Bool.false_eq_true, if_false, Bool.not_false, Bool.and_true,
        decide_eq_true_eq, List.nil_append]
      unfold soFar
      split <;> rfl
    · by_cases hs : s = []
      · subst hs; rfl
      · simp only [crText, hs, ne_eq, not_false_eq_true, decide_true, Bool.true_or, Bool.and_true, if_true,
          Bool.not_false, decide_eq_true_eq, Bool.not_true, Bool.and_false]
        show soFar (13 :: s) = _
        unfold soFar
        split <;> rfl
  | append_singleton y c _ =>
    have e1 : crText cr ++ s ++ (y ++ [c]) = crText cr ++ s ++ y ++ [c] := by simp
    have e2 : ∀ z : PyStr, z ++ (y ++ [c]) = z ++ y ++ [c] := by simp
    unfold soFar
    rw [e1, e2]
    simp only [List.getLast?_append, List.getLast?_singleton, Option.some_or, Option.some.injEq,
      List.dropLast_concat]
    split
    · exact newlinesPart_false cr s y
    · rw [← e1, ← e2]
      exact newlinesPart_false cr s (y ++ [c])

/-! ### Pieces -/

/-- A file that can be decoded is read as if it were decoded at once. -/
theorem readPieces_ok {lossy : Bool} {ps : List Bytes} : ∀ {pend : Bytes} {cr : Bool} {text : PyStr},
    decodeLossy lossy (pend ++ ps.flatten) = .ok text →
    readPieces lossy pend cr ps = (newlines (crText cr ++ text), none) := by
  induction ps with
  | nil =>
    intro pend cr text h
    rw [List.flatten_nil, List.append_nil] at h
    rw [readPieces, h]
    simp only
    rw [newlinesPart_true]
  | cons p ps ih =>
    intro pend cr text h
    rw [List.flatten_cons, ← List.append_assoc] at h
    rw [readPieces]
    cases hd : decodePart lossy (pend ++ p) with
    | error x =>
      obtain ⟨rfl, _, h3⟩ := decodePart_err hd
      have := h3 ps.flatten
      rw [show decode _ = decodeLossy false _ from rfl, h] at this
      cases this
    | ok q =>
      obtain ⟨s, pend'⟩ := q
      rw [decodePart_ok hd] at h
      cases hr : decodeLossy lossy (pend' ++ ps.flatten) with
      | error x => rw [hr] at h; cases h
      | ok t =>
        rw [hr] at h
        cases h
        simp only
        rw [ih hr, ← List.append_assoc, newlinesPart_false]

theorem beginsText_step {pend p : Bytes} {text : PyStr} {y : Bytes}
    (h : decodePart false (pend ++ p) = .ok (text, y)) : BeginsText (pend ++ p) text :=
  let ⟨b, h1, h2, h3⟩ := decodePart_iff.mp h
  ⟨b, y, h1, h2, h3⟩

theorem BeginsText.decodePart {bs : Bytes} {text : PyStr} (h : BeginsText bs text) :
    ∃ r, decodePart false bs = .ok (text, r) :=
  let ⟨b, r, h1, h2, h3⟩ := h
  ⟨r, decodePart_iff.mpr ⟨b, h1, h2, h3⟩⟩

theorem decodePart_append {a y r : Bytes} {s : PyStr} (h : decodePart false a = .ok (s, r)) :
    decodePart false (a ++ y) = (decodePart false (r ++ y)).map fun q => (s ++ q.1, q.2) := by
  obtain ⟨b, rfl, h2, _⟩ := decodePart_iff.mp h
  rw [List.append_assoc]
  cases hd : FF.decodePart false (r ++ y) with
  | ok q =>
    obtain ⟨b', h3, h4, h5⟩ := decodePart_iff.mp hd
    exact decodePart_iff.mpr ⟨b ++ b', by rw [h3, List.append_assoc], utf8Text_append h2 h4, h5⟩
  | error x =>
    cases he : FF.decodePart false (b ++ (r ++ y)) with
    | error x' => rw [(decodePart_err hd).2.1, (decodePart_err he).2.1]; rfl
    | ok q =>
      exfalso
      have k1 := decodePart_ok he
      -- completing the kept bytes gives a text, of which the beginning is known
      obtain ⟨b', h3, h4, h5⟩ := decodePart_iff.mp he
      have hmore : ∃ z t, Utf8Text t (q.2 ++ z) := by
        rcases h5 with h5 | ⟨n, enc, hc, ⟨z, hz⟩, _⟩
        · exact ⟨[], [], by rw [h5]; exact .nil⟩
        · refine ⟨z, [toCode n], ?_⟩
          rw [hz]
          have : (toCode n).val = n := by
            obtain ⟨c, rfl, _⟩ := utf8Char_iff.mp hc
            rw [toCode_val]
          have := Utf8Text.cons (c := toCode n) (by rw [this]; exact hc) .nil
          rwa [List.append_nil] at this
      obtain ⟨z, t, ht⟩ := hmore
      have hw : decode (b ++ (r ++ y) ++ z) = .ok (q.1 ++ t) := by
        rw [decode_iff, h3, List.append_assoc]
        exact utf8Text_append h4 ht
      obtain ⟨hb1, hb2⟩ := utf8Text_iff.mp h2
      rw [List.append_assoc, hb1, decode_utf8_append s hb2] at hw
      have := (decodePart_err hd).2.2 z
      rw [this] at hw
      cases hw

/-- A file that cannot be decoded: the lines of some of the pieces come before the exception, and the next
piece, if there is one, is what cannot be decoded. -/
theorem readPieces_err {ps : List Bytes} : ∀ {pend : Bytes} {cr : Bool} {x : PyErr},
    Unfinished pend → decode (pend ++ ps.flatten) = .error x →
    ∃ k text, k ≤ ps.length ∧ BeginsText (pend ++ (ps.take k).flatten) text ∧
      (∀ j text', k < j → j ≤ ps.length → ¬ BeginsText (pend ++ (ps.take j).flatten) text') ∧
      readPieces false pend cr ps = (soFar (crText cr ++ text), some .unicodeDecodeError) := by
  induction ps with
  | nil =>
    intro pend cr x hu h
    rw [List.flatten_nil, List.append_nil] at h
    refine ⟨0, [], le_refl _, ⟨[], pend, by simp, .nil, hu⟩, fun j _ h1 h2 => by simp at h2; omega, ?_⟩
    rw [readPieces, show decodeLossy false pend = decode pend from rfl, h]
    have : x = .unicodeDecodeError := by
      have hx : ∀ (bs : Bytes) (k : Nat) (x : PyErr), decodeAux k bs = .error x →
          x = .unicodeDecodeError := by
        intro bs
        induction bs with
        | nil => intro k x h; cases k <;> cases h
        | cons b bs ih =>
          intro k x h
          cases k with
          | succ k => exact ih k x h
          | zero =>
            rw [decodeAux] at h
            split at h
            · split at h
              · cases h
              · cases h; rename_i he; exact ih _ _ he
            · cases h; rfl
      exact hx _ _ _ h
    rw [this, List.append_nil, soFar_cr]
  | cons p ps ih =>
    intro pend cr x hu h
    rw [List.flatten_cons, ← List.append_assoc] at h
    rw [readPieces]
    cases hd : decodePart false (pend ++ p) with
    | error x' =>
      obtain ⟨_, rfl, h3⟩ := decodePart_err hd
      refine ⟨0, [], Nat.zero_le _, ⟨[], pend, by simp, .nil, hu⟩, ?_, ?_⟩
      · intro j text' h1 h2 hb
        cases j with
        | zero => omega
        | succ j =>
          obtain ⟨r, hr⟩ := hb.decodePart
          rw [List.take_succ_cons, List.flatten_cons, ← List.append_assoc] at hr
          have k1 := decodePart_ok hr
          obtain ⟨b', e1, e2, e3⟩ := decodePart_iff.mp hr
          rcases e3 with e3 | ⟨n, enc, hc, ⟨z, hz⟩, _⟩
          · have := h3 (ps.take j).flatten
            rw [e1, e3, List.append_nil, decode_iff.mpr e2] at this
            cases this
          · have := h3 ((ps.take j).flatten ++ z)
            obtain ⟨hb1, hb2⟩ := utf8Text_iff.mp e2
            rw [← List.append_assoc, e1, List.append_assoc, hz, hb1, decode_utf8_append text' hb2] at this
            obtain ⟨c, rfl, _⟩ := utf8Char_iff.mp hc
            have := decode_iff.mpr (Utf8Text.cons hc .nil)
            rw [List.append_nil] at this
            simp_all
      · rw [List.append_nil, soFar_cr]
    | ok q =>
      obtain ⟨s, pend'⟩ := q
      have hk := decodePart_ok hd ps.flatten
      rw [show decodeLossy false _ = decode _ from rfl, h] at hk
      obtain ⟨b, e1, e2, e3⟩ := decodePart_iff.mp hd
      cases hr : decode (pend' ++ ps.flatten) with
      | ok t => rw [show decodeLossy false _ = decode _ from rfl, hr] at hk; cases hk
      | error x' =>
        obtain ⟨k, text, h1, h2, h3, h4⟩ := ih (cr := (newlinesPart false cr s).2) e3 hr
        refine ⟨k + 1, s ++ text, by simpa using h1, ?_, ?_, ?_⟩
        · obtain ⟨r, hr⟩ := h2.decodePart
          rw [List.take_succ_cons, List.flatten_cons, ← List.append_assoc]
          have := decodePart_append (y := (ps.take k).flatten) hd
          rw [hr] at this
          obtain ⟨b, q1, q2, q3⟩ := decodePart_iff.mp this
          exact ⟨b, r, q1, q2, q3⟩
        · intro j text' h5 h6 hb
          cases j with
          | zero => omega
          | succ j =>
            obtain ⟨r, hr⟩ := hb.decodePart
            rw [List.take_succ_cons, List.flatten_cons, ← List.append_assoc] at hr
            have := decodePart_append (y := (ps.take j).flatten) hd
            rw [hr] at this
            cases hq : FF.decodePart false (pend' ++ (ps.take j).flatten) with
            | error x => rw [hq] at this; cases this
            | ok q =>
              obtain ⟨b, q1, q2, q3⟩ := decodePart_iff.mp hq
              exact h3 j q.1 (by omega) (by simpa using h6) ⟨b, q.2, q1, q2, q3⟩
        · simp only
          rw [h4, ← List.append_assoc, soFar_append]

/-! ### Lines -/

theorem linesSoFar_total (text : PyStr) : ∃ ls, LinesSoFar text ls := by
  generalize hn : text.length = n
  induction n using Nat.strong_induction_on generalizing text with
  | _ n ih =>
    rcases break_or text with h | ⟨l, c, rest, h1, h2, rfl⟩
    · exact ⟨[], .rest h⟩
    · rw [List.length_append, List.length_cons] at hn
      rcases h2 with rfl | rfl
      · obtain ⟨ls, h⟩ := ih rest.length (by omega) rest rfl
        exact ⟨l :: ls, .lf h1 h⟩
      · cases rest with
        | nil => exact ⟨[], .pending h1⟩
        | cons d rest =>
          rw [List.length_cons] at hn
          by_cases hd : d = 10
          · subst hd
            obtain ⟨ls, h⟩ := ih rest.length (by omega) rest rfl
            exact ⟨l :: ls, .crlf h1 h⟩
          · obtain ⟨ls, h⟩ := ih (rest.length + 1) (by omega) (d :: rest) (by simp)
            exact ⟨l :: ls, .cr h1 (by simp) (by simpa using hd) h⟩

/-- The complete lines of a text. -/
def completeLines (t : PyStr) : List PyStr := (linesOf t).filter fun l => l.getLast? = some 10

theorem completeLines_rest {l : PyStr} (h : NoBreak l) : completeLines l = [] := by
  unfold completeLines
  by_cases hl : l = []
  · subst hl; rfl
  · rw [linesOf_last h hl]
    have : l.getLast? ≠ some 10 := by
      intro hc
      exact (h 10 (List.mem_of_getLast? hc)).1 rfl
    simp [this]

theorem completeLines_line {l rest : PyStr} (h : NoBreak l) :
    completeLines (l ++ 10 :: rest) = (l ++ [10]) :: completeLines rest := by
  unfold completeLines
  rw [linesOf_line fun c hc => (h c hc).1]
  simp

theorem linesSoFar_lines {text : PyStr} {ls : List PyStr} (h : LinesSoFar text ls) :
    completeLines (soFar text) = ls.map fun l => l ++ [10] := by
  have drop : ∀ {l rest : PyStr} {c : Code}, rest ≠ [] →
      soFar (l ++ c :: rest) = if rest.getLast? = some 13 then newlines (l ++ c :: rest.dropLast)
        else newlines (l ++ c :: rest) := by
    intro l rest c hne
    unfold soFar
    have e1 : (l ++ c :: rest).getLast? = rest.getLast? := by
      rw [List.getLast?_append, List.getLast?_cons]
      cases rest with
      | nil => exact absurd rfl hne
      | cons d r => rw [List.getLast?_cons]; rfl
    have e2 : (l ++ c :: rest).dropLast = l ++ c :: rest.dropLast := by
      rw [List.dropLast_append_of_ne_nil (by simp), List.dropLast_cons_of_ne_nil hne]
    rw [e1, e2]
  induction h with
  | rest h =>
    rename_i l
    have e : newlines l = l := newlines_self fun c hc => (h c hc).2
    unfold soFar
    rw [if_neg (fun hc => (h 13 (List.mem_of_getLast? hc)).2 rfl), e]
    exact completeLines_rest h
  | pending h =>
    rename_i l
    have e : newlines l = l := newlines_self fun c hc => (h c hc).2
    unfold soFar
    rw [if_pos (by simp), List.dropLast_concat, e]
    exact completeLines_rest h
  | lf h _ ih =>
    rename_i l rest ls _
    have : soFar (l ++ 10 :: rest) = l ++ 10 :: soFar rest := by
      by_cases hr : rest = []
      · subst hr
        unfold soFar
        rw [if_neg (by simp), if_neg (by simp), newlines_append h, newlines_lf]
      · rw [drop hr]
        unfold soFar
        split <;> rw [newlines_append h, newlines_lf]
    rw [this, completeLines_line h, ih]
    rfl
  | crlf h _ ih =>
    rename_i l rest ls _
    have : soFar (l ++ 13 :: 10 :: rest) = l ++ 10 :: soFar rest := by
      by_cases hr : rest = []
      · subst hr
        unfold soFar
        rw [if_neg (by simp), if_neg (by simp), newlines_append h, newlines_crlf]
      · have e := drop (l := l ++ [13]) (c := 10) hr
        rw [List.append_assoc, List.append_assoc] at e
        rw [show l ++ 13 :: 10 :: rest = l ++ ([13] ++ 10 :: rest) from rfl, e]
        unfold soFar
        split <;> (rw [show ∀ y : PyStr, l ++ ([13] ++ 10 :: y) = l ++ 13 :: 10 :: y from fun _ => rfl,
          newlines_append h, newlines_crlf])
    rw [this, completeLines_line h, ih]
    rfl
  | cr h hne hh _ ih =>
    rename_i l rest ls _
    have : soFar (l ++ 13 :: rest) = l ++ 10 :: soFar rest := by
      rw [drop hne]
      unfold soFar
      split
      · rename_i h13
        have hh' : rest.dropLast.head? ≠ some 10 := by
          match rest, hne with
          | [c], _ => simp
          | c :: d :: r, _ => simpa using hh
        rw [newlines_append h, newlines_cr hh']
      · rw [newlines_append h, newlines_cr hh]
    rw [this, completeLines_line h, ih]
    rfl

section
variable [TextIO]

theorem textLines_of_decode {lossy : Bool} {bs : Bytes} {text : PyStr}
    (h : decodeLossy lossy bs = .ok text) :
    textLines lossy bs = ⟨linesOf (newlines text), none⟩ := by
  unfold textLines
  rw [readPieces_ok (pend := []) (text := text) (by rw [List.nil_append, TextIO.flatten_cut]; exact h)]
  rfl

theorem textLines_split {lossy : Bool} {bs : Bytes} {text : PyStr} {ls : List PyStr}
    (hd : decodeLossy lossy bs = .ok text) (h : SplitLines text ls) :
    ∃ ls', textLines lossy bs = ⟨ls', none⟩ ∧ List.Forall₂ Ended ls' ls :=
  ⟨_, textLines_of_decode hd, splitLines_lines h⟩

theorem textLines_lossy (bs : Bytes) : (textLines true bs).stop = none := by
  rw [textLines_of_decode (text := decodeReplace bs) rfl]

/-- The lines of a file that cannot be decoded. -/
theorem textLines_stop {bs : Bytes} {x : PyErr} (h : decode bs = .error x) :
    ∃ k text ls, k ≤ (TextIO.cut bs).length ∧ BeginsText ((TextIO.cut bs).take k).flatten text ∧
      (∀ j text', k < j → j ≤ (TextIO.cut bs).length →
        ¬ BeginsText ((TextIO.cut bs).take j).flatten text') ∧
      LinesSoFar text ls ∧
      textLines false bs = ⟨ls.map fun l => l ++ [10], some .unicodeDecodeError⟩ := by
  obtain ⟨k, text, h1, h2, h3, h4⟩ := readPieces_err (pend := []) (cr := false) (ps := TextIO.cut bs)
    (.inl rfl) (by rw [List.nil_append, TextIO.flatten_cut]; exact h)
  obtain ⟨ls, hls⟩ := linesSoFar_total text
  refine ⟨k, text, ls, h1, h2, h3, hls, ?_⟩
  unfold textLines
  rw [h4]
  simp only
  have := linesSoFar_lines hls
  unfold completeLines at this
  rw [show crText false ++ text = text from rfl, this]

/-! ### What is yielded -/

omit [TextIO] in
theorem linesSoFar_unique {text : PyStr} {ls ms : List PyStr} (h : LinesSoFar text ls)
    (h' : LinesSoFar text ms) : ls = ms := by
  have := (linesSoFar_lines h).symm.trans (linesSoFar_lines h')
  exact List.map_injective_iff.mpr (fun a b e => List.append_cancel_right e) this

omit [TextIO] in
theorem linesSoFar_prefix {text : PyStr} {ls : List PyStr} (h : LinesSoFar text ls) :
    ∀ y : PyStr, (∀ ms, SplitLines (text ++ y) ms → ls <+: ms) ∧
      ∀ ms, LinesSoFar (text ++ y) ms → ls <+: ms := by
  induction h with
  | rest => exact fun y => ⟨fun ms _ => List.nil_prefix, fun ms _ => List.nil_prefix⟩
  | pending => exact fun y => ⟨fun ms _ => List.nil_prefix, fun ms _ => List.nil_prefix⟩
  | lf hl _ ih =>
    rename_i l rest ls _
    intro y
    rw [List.append_assoc, List.cons_append]
    obtain ⟨a, ha⟩ := splitLines_total (rest ++ y)
    obtain ⟨b, hb⟩ := linesSoFar_total (rest ++ y)
    exact ⟨fun ms hm => splitLines_unique (.lf hl ha) hm ▸ List.cons_prefix_cons.mpr ⟨rfl, (ih y).1 a ha⟩,
      fun ms hm => linesSoFar_unique (.lf hl hb) hm ▸ List.cons_prefix_cons.mpr ⟨rfl, (ih y).2 b hb⟩⟩
  | crlf hl _ ih =>
    rename_i l rest ls _
    intro y
    rw [List.append_assoc, List.cons_append, List.cons_append]
    obtain ⟨a, ha⟩ := splitLines_total (rest ++ y)
    obtain ⟨b, hb⟩ := linesSoFar_total (rest ++ y)
    exact ⟨fun ms hm => splitLines_unique (.crlf hl ha) hm ▸ List.cons_prefix_cons.mpr ⟨rfl, (ih y).1 a ha⟩,
      fun ms hm => linesSoFar_unique (.crlf hl hb) hm ▸ List.cons_prefix_cons.mpr ⟨rfl, (ih y).2 b hb⟩⟩
  | cr hl hne hh _ ih =>
    rename_i l rest ls _
    intro y
    rw [List.append_assoc, List.cons_append]
    obtain ⟨a, ha⟩ := splitLines_total (rest ++ y)
    obtain ⟨b, hb⟩ := linesSoFar_total (rest ++ y)
    have hh' : (rest ++ y).head? ≠ some 10 := by
      cases rest with
      | nil => exact absurd rfl hne
      | cons c r => simpa using hh
    exact ⟨fun ms hm => splitLines_unique (.cr hl hh' ha) hm ▸
        List.cons_prefix_cons.mpr ⟨rfl, (ih y).1 a ha⟩,
      fun ms hm => linesSoFar_unique (.cr hl (by simp [hne]) hh' hb) hm ▸
        List.cons_prefix_cons.mpr ⟨rfl, (ih y).2 b hb⟩⟩

omit [TextIO] in
theorem BeginsText.unique {bs : Bytes} {s t : PyStr} (h : BeginsText bs s) (h' : BeginsText bs t) :
    s = t := by
  obtain ⟨r, h⟩ := h.decodePart
  obtain ⟨r', h'⟩ := h'.decodePart
  rw [h] at h'
  exact (Prod.mk.inj (Except.ok.inj h')).1

omit [TextIO] in
/-- What a part of a file begins with, a longer part begins with as well. -/
theorem BeginsText.prefix {a y : Bytes} {s t : PyStr} (h : BeginsText a s) (h' : BeginsText (a ++ y) t) :
    s <+: t := by
  obtain ⟨r, h⟩ := h.decodePart
  obtain ⟨r', h'⟩ := h'.decodePart
  rw [decodePart_append h] at h'
  cases hd : FF.decodePart false (r ++ y) with
  | error x => rw [hd] at h'; cases h'
  | ok q => rw [hd] at h'; cases h'; exact List.prefix_append _ _

omit [TextIO] in
theorem BeginsText.whole {bs : Bytes} {s : PyStr} (h : Utf8Text s bs) : BeginsText bs s :=
  ⟨bs, [], by simp, h, .inl rfl⟩

omit [TextIO] in
theorem take_flatten_append {ps : List Bytes} {j k : Nat} (h : j ≤ k) :
    ∃ y, (ps.take k).flatten = (ps.take j).flatten ++ y := by
  obtain ⟨z, hz⟩ := List.take_prefix_take_left (l := ps) h
  exact ⟨z.flatten, by rw [← hz, List.flatten_append]⟩

omit [TextIO] in
theorem decode_error_iff {bs : Bytes} : (∃ x, decode bs = .error x) ↔ ¬ ∃ text, Utf8Text text bs := by
  constructor
  · rintro ⟨x, h⟩ ⟨text, ht⟩
    rw [decode_iff.mpr ht] at h
    cases h
  · intro h
    cases hd : decode bs with
    | error x => exact ⟨x, rfl⟩
    | ok s => exact absurd ⟨s, decode_iff.mp hd⟩ h

theorem textLines_yields {lossy : Bool} {bs : Bytes} {ls : List PyStr} {stop : Option PyErr}
    (h : Yields lossy bs ls stop) :
    ∃ ls', textLines lossy bs = ⟨ls', stop⟩ ∧ List.Forall₂ Ended ls' ls := by
  rcases h with ⟨text, hd, hs, rfl⟩ | ⟨rfl, hn, rfl, k, text, hk, hb, hm, hl⟩
  · exact textLines_split (decodeLossy_iff.mpr hd) hs
  · obtain ⟨x, hx⟩ := decode_error_iff.mpr hn
    obtain ⟨k', text', ls', q1, q2, q3, q4, q5⟩ := textLines_stop hx
    have hkk : k = k' := by
      rcases Nat.lt_trichotomy k k' with h | h | h
      · exact absurd q2 (hm k' text' h q1)
      · exact h
      · exact absurd hb (q3 k text h hk)
    subst hkk
    obtain rfl := hb.unique q2
    obtain rfl := linesSoFar_unique hl q4
    refine ⟨_, q5, ?_⟩
    rw [List.forall₂_map_left_iff, List.forall₂_same]
    exact fun l _ => .inl rfl

theorem yields_total (lossy : Bool) (bs : Bytes) : ∃ ls stop, Yields lossy bs ls stop := by
  cases hd : decodeLossy lossy bs with
  | ok text =>
    obtain ⟨ls, hs⟩ := splitLines_total text
    exact ⟨ls, none, .inl ⟨text, decodeLossy_iff.mp hd, hs, rfl⟩⟩
  | error x =>
    cases lossy with
    | true => cases hd
    | false =>
      obtain ⟨k, text, ls, q1, q2, q3, q4, q5⟩ := textLines_stop hd
      exact ⟨ls, _, .inr ⟨rfl, decode_error_iff.mp ⟨x, hd⟩, rfl, k, text, q1, q2, q3, q4⟩⟩

theorem yields_noBreak {lossy : Bool} {bs : Bytes} {ls : List PyStr} {stop : Option PyErr}
    (h : Yields lossy bs ls stop) : ∀ l ∈ ls, NoBreak l := by
  rcases h with ⟨text, hd, hs, rfl⟩ | ⟨rfl, hn, rfl, k, text, hk, hb, hm, hl⟩
  · exact splitLines_noBreak hs
  · clear hb hm
    induction hl with
    | rest _ => intro l hl; cases hl
    | pending _ => intro l hl; cases hl
    | lf h _ ih | crlf h _ ih =>
      intro l hl
      rcases List.mem_cons.mp hl with rfl | hl
      · exact h
      · exact ih l hl
    | cr h _ _ _ ih =>
      intro l hl
      rcases List.mem_cons.mp hl with rfl | hl
      · exact h
      · exact ih l hl

theorem yields_unique {lossy : Bool} {bs : Bytes} {ls ms : List PyStr} {s t : Option PyErr}
    (h : Yields lossy bs ls s) (h' : Yields lossy bs ms t) : ls = ms ∧ s = t := by
  obtain ⟨a, h1, h2⟩ := textLines_yields h
  obtain ⟨b, h3, h4⟩ := textLines_yields h'
  rw [h1] at h3
  cases h3
  refine ⟨?_, rfl⟩
  have n1 := yields_noBreak h
  have n2 := yields_noBreak h'
  clear h h' h1
  induction h2 generalizing ms with
  | nil => cases h4; rfl
  | cons e _ ih =>
    cases h4 with
    | cons e' h4 =>
      rw [e.unique (n1 _ (by simp)) (n2 _ (by simp)) e',
        ih h4 (fun l hl => n1 l (List.mem_cons_of_mem _ hl)) fun l hl => n2 l (List.mem_cons_of_mem _ hl)]

/-- The first lines of a file. -/
theorem yieldsFirst_iff {lossy : Bool} {bs : Bytes} {ls : List PyStr} :
    YieldsFirst lossy bs ls ↔ ∃ rest stop, Yields lossy bs (ls ++ rest) stop := by
  constructor
  · rintro (⟨text, rest, hd, hs⟩ | ⟨rfl, k, text, rest, hb, hl⟩)
    · exact ⟨rest, none, .inl ⟨text, hd, hs, rfl⟩⟩
    · have hpre : ls <+: ls ++ rest := List.prefix_append _ _
      obtain ⟨ms, stop, hy⟩ := yields_total false bs
      suffices ls ++ rest <+: ms by
        obtain ⟨more, rfl⟩ := hpre.trans this
        exact ⟨more, stop, hy⟩
      rcases hy with ⟨text', hd, hs, rfl⟩ | ⟨_, hn, rfl, k', text', hk', hb', hm, hl'⟩
      · have hd : Utf8Text text' bs := hd
        have hpt : text <+: text' := by
          have : BeginsText (((TextIO.cut bs).take k).flatten ++ ((TextIO.cut bs).drop k).flatten) text' := by
            rw [← List.flatten_append, List.take_append_drop, TextIO.flatten_cut]
            exact .whole hd
          exact hb.prefix this
        obtain ⟨y, rfl⟩ := hpt
        exact (linesSoFar_prefix hl y).1 ms hs
      · have hle : min k (TextIO.cut bs).length ≤ k' := by
          by_contra hlt
          refine hm (min k (TextIO.cut bs).length) text (by omega) (by omega) ?_
          have : (TextIO.cut bs).take (min k (TextIO.cut bs).length) = (TextIO.cut bs).take k := by
            rcases Nat.le_total k (TextIO.cut bs).length with h | h
            · rw [min_eq_left h]
            · rw [min_eq_right h, List.take_length, List.take_of_length_le h]
          rw [this]
          exact hb
        have hb2 : BeginsText ((TextIO.cut bs).take (min k (TextIO.cut bs).length)).flatten text := by
          have : (TextIO.cut bs).take (min k (TextIO.cut bs).length) = (TextIO.cut bs).take k := by
            rcases Nat.le_total k (TextIO.cut bs).length with h | h
            · rw [min_eq_left h]
            · rw [min_eq_right h, List.take_length, List.take_of_length_le h]
          rw [this]
          exact hb
        obtain ⟨y, hy⟩ := take_flatten_append (ps := TextIO.cut bs) hle
        rw [hy] at hb'
        obtain ⟨z, rfl⟩ := hb2.prefix hb'
        exact (linesSoFar_prefix hl z).2 ms hl'
  · rintro ⟨rest, stop, ⟨text, hd, hs, rfl⟩ | ⟨rfl, hn, rfl, k, text, hk, hb, hm, hl⟩⟩
    · exact .inl ⟨text, rest, hd, hs⟩
    · exact .inr ⟨rfl, k, text, rest, hb, hl⟩

/-- The lines before malformed bytes are there in lossy mode as well. -/
theorem yields_lossy {bs : Bytes} {ls : List PyStr} {stop : Option PyErr} (h : Yields false bs ls stop) :
    (stop = none ∧ Yields true bs ls none) ∨
    (stop = some .unicodeDecodeError ∧ ∃ more, Yields true bs (ls ++ more) none) := by
  rcases h with ⟨text, hd, hs, rfl⟩ | ⟨_, hn, rfl, k, text, hk, hb, hm, hl⟩
  · refine .inl ⟨rfl, .inl ⟨text, ?_, hs, rfl⟩⟩
    have hd : Utf8Text text bs := hd
    exact decodeLossy_iff.mp (by
      show Except.ok (decodeReplace bs) = _
      rw [decodeReplace_eq (decode_iff.mpr hd)])
  · right
    obtain ⟨b, tail, e1, e2, _⟩ := hb
    have hw : bs = b ++ (tail ++ ((TextIO.cut bs).drop k).flatten) := by
      rw [← List.append_assoc, ← e1, ← List.flatten_append, List.take_append_drop, TextIO.flatten_cut]
    obtain ⟨y, hy⟩ : ∃ y, decodeReplace bs = text ++ y := by
      rw [hw]
      generalize tail ++ ((TextIO.cut bs).drop k).flatten = z
      clear hl hm e1 hw
      induction e2 with
      | nil => exact ⟨_, rfl⟩
      | cons hc _ ih =>
        rename_i c enc s bs' _
        obtain ⟨y, hy⟩ := ih
        obtain ⟨c', q1, hs, he⟩ := utf8Char_iff.mp hc
        have : c' = c := Fin.ext q1
        subst this
        obtain ⟨b', tl, h3, h4⟩ := utf8Step_encCode c' hs (bs' ++ z)
        refine ⟨y, ?_⟩
        rw [← he, h3]
        unfold decodeReplace at hy ⊢
        rw [List.cons_append, List.cons_append, decodeReplaceAux, List.append_assoc, h4]
        simp only
        rw [decodeReplaceAux_skip, hy, toCode_val]
        rfl
    obtain ⟨ms, hms⟩ := splitLines_total (decodeReplace bs)
    have := hms
    rw [hy] at this
    obtain ⟨more, rfl⟩ := (linesSoFar_prefix hl y).1 ms this
    exact ⟨rfl, more, .inl ⟨decodeReplace bs, decodeLossy_iff.mp rfl, hms, rfl⟩⟩

end

end FF
