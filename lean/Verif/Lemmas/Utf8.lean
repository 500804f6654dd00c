import Mathlib.Tactic.Linarith
import Verif.Model.Utf8
/-! Lemmas on the UTF-8 codec. -/

namespace FF

theorem u8_toNat_ofNat {n : Nat} (h : n < 256) : (UInt8.ofNat n).toNat = n := by
  rw [UInt8.toNat_ofNat']; omega

theorem isSurrogate_false {c : Code} : isSurrogate c = false ↔ c.val < 0xD800 ∨ 0xDFFF < c.val := by
  simp [isSurrogate]; omega

theorem utf8Step_encCode (c : Code) (h : isSurrogate c = false) (rest : Bytes) :
    ∃ b tl, encCode c = b :: tl ∧ utf8Step b (tl ++ rest) = .good c.val tl.length := by
  rw [isSurrogate_false] at h
  obtain ⟨n, hn⟩ := c
  simp only at h
  unfold encCode
  simp only
  by_cases h1 : n < 0x80
  · rw [if_pos h1]
    refine ⟨_, _, rfl, ?_⟩
    have e0 := u8_toNat_ofNat (n := n) (by omega)
    simp [utf8Step, e0, h1]
  rw [if_neg h1]
  by_cases h2 : n < 0x800
  · rw [if_pos h2]
    refine ⟨_, _, rfl, ?_⟩
    have e0 := u8_toNat_ofNat (n := 0xC0 + n / 64) (by omega)
    have e1 := u8_toNat_ofNat (n := 0x80 + n % 64) (by omega)
    have a1 : ¬ (0xC0 + n / 64 < 0x80) := by omega
    have a2 : ¬ (0xC0 + n / 64 < 0xC2) := by omega
    have a3 : 0xC0 + n / 64 < 0xE0 := by omega
    have a4 : 0x80 ≤ 0x80 + n % 64 ∧ 0x80 + n % 64 ≤ 0xBF := by omega
    simp only [utf8Step, e0, e1, a1, a2, a3, if_true, if_false, List.cons_append, List.nil_append, isCont,
      a4.1, a4.2, decide_true, Bool.and_self, List.length_cons, List.length_nil]
    have hv : (0xC0 + n / 64 - 0xC0) * 64 + (0x80 + n % 64 - 0x80) = n := by omega
    rw [hv]
  rw [if_neg h2]
  by_cases h3 : n < 0x10000
  · rw [if_pos h3]
    refine ⟨_, _, rfl, ?_⟩
    have e0 := u8_toNat_ofNat (n := 0xE0 + n / 4096) (by omega)
    have e1 := u8_toNat_ofNat (n := 0x80 + n / 64 % 64) (by omega)
    have e2 := u8_toNat_ofNat (n := 0x80 + n % 64) (by omega)
    have a1 : ¬ (0xE0 + n / 4096 < 0x80) := by omega
    have a2 : ¬ (0xE0 + n / 4096 < 0xC2) := by omega
    have a3 : ¬ (0xE0 + n / 4096 < 0xE0) := by omega
    have a4 : 0xE0 + n / 4096 < 0xF0 := by omega
    have a5 : 0x80 ≤ 0x80 + n % 64 ∧ 0x80 + n % 64 ≤ 0xBF := by omega
    have a6 : ok3 (0xE0 + n / 4096) (0x80 + n / 64 % 64) = true := by
      unfold ok3
      split
      · simp only [Bool.and_eq_true, decide_eq_true_eq]; omega
      · split
        · simp only [Bool.and_eq_true, decide_eq_true_eq]; omega
        · simp only [Bool.and_eq_true, decide_eq_true_eq]; omega
    simp only [utf8Step, e0, e1, e2, a1, a2, a3, a4, a6, if_true, if_false, List.cons_append,
      List.nil_append, isCont, a5.1, a5.2, decide_true, Bool.and_self, List.length_cons,
      List.length_nil]
    have hv : (0xE0 + n / 4096 - 0xE0) * 4096 + (0x80 + n / 64 % 64 - 0x80) * 64
        + (0x80 + n % 64 - 0x80) = n := by omega
    rw [hv]
  rw [if_neg h3]
  refine ⟨_, _, rfl, ?_⟩
  have e0 := u8_toNat_ofNat (n := 0xF0 + n / 262144) (by omega)
  have e1 := u8_toNat_ofNat (n := 0x80 + n / 4096 % 64) (by omega)
  have e2 := u8_toNat_ofNat (n := 0x80 + n / 64 % 64) (by omega)
  have e3 := u8_toNat_ofNat (n := 0x80 + n % 64) (by omega)
  have a1 : ¬ (0xF0 + n / 262144 < 0x80) := by omega
  have a2 : ¬ (0xF0 + n / 262144 < 0xC2) := by omega
  have a3 : ¬ (0xF0 + n / 262144 < 0xE0) := by omega
  have a4 : ¬ (0xF0 + n / 262144 < 0xF0) := by omega
  have a4' : 0xF0 + n / 262144 < 0xF5 := by omega
  have a5 : 0x80 ≤ 0x80 + n % 64 ∧ 0x80 + n % 64 ≤ 0xBF := by omega
  have a5' : 0x80 ≤ 0x80 + n / 64 % 64 ∧ 0x80 + n / 64 % 64 ≤ 0xBF := by omega
  have a6 : ok4 (0xF0 + n / 262144) (0x80 + n / 4096 % 64) = true := by
    unfold ok4
    split
    · simp only [Bool.and_eq_true, decide_eq_true_eq]; omega
    · split
      · simp only [Bool.and_eq_true, decide_eq_true_eq]; omega
      · simp only [Bool.and_eq_true, decide_eq_true_eq]; omega
  simp only [utf8Step, e0, e1, e2, e3, a1, a2, a3, a4, a4', a6, if_true, if_false, List.cons_append,
    List.nil_append, isCont, a5.1, a5.2, a5'.1, a5'.2, decide_true, Bool.and_self, List.length_cons,
    List.length_nil]
  have hv : (0xF0 + n / 262144 - 0xF0) * 262144 + (0x80 + n / 4096 % 64 - 0x80) * 4096
      + (0x80 + n / 64 % 64 - 0x80) * 64 + (0x80 + n % 64 - 0x80) = n := by omega
  rw [hv]

theorem decodeAux_skip (xs ys : Bytes) : decodeAux xs.length (xs ++ ys) = decodeAux 0 ys := by
  induction xs with
  | nil => rfl
  | cons x xs ih => simpa [decodeAux] using ih

theorem decodeReplaceAux_skip (xs ys : Bytes) :
    decodeReplaceAux xs.length (xs ++ ys) = decodeReplaceAux 0 ys := by
  induction xs with
  | nil => rfl
  | cons x xs ih => simpa [decodeReplaceAux] using ih

theorem toCode_val (c : Code) : toCode c.val = c := by
  simp [toCode, c.isLt]

theorem decode_encCode_append (c : Code) (h : isSurrogate c = false) (rest : Bytes) :
    decode (encCode c ++ rest) = match decode rest with
      | .ok s => .ok (c :: s)
      | .error e => .error e := by
  obtain ⟨b, tl, hb, hs⟩ := utf8Step_encCode c h rest
  rw [hb]
  simp only [decode, List.cons_append, decodeAux, hs, decodeAux_skip, toCode_val]
  cases decodeAux 0 rest <;> rfl

/-- Decoding undoes encoding, even in front of other bytes. -/
theorem decode_utf8_append (s : PyStr) (h : s.any isSurrogate = false) (rest : Bytes) :
    decode (utf8 s ++ rest) = match decode rest with
      | .ok t => .ok (s ++ t)
      | .error e => .error e := by
  induction s with
  | nil => simp only [utf8, List.nil_append]; cases decode rest <;> rfl
  | cons c cs ih =>
    simp only [List.any_cons, Bool.or_eq_false_iff] at h
    simp only [utf8, List.append_assoc]
    rw [decode_encCode_append c h.1, ih h.2]
    cases decode rest <;> rfl

theorem decode_utf8 (s : PyStr) (h : s.any isSurrogate = false) : decode (utf8 s) = .ok s := by
  have := decode_utf8_append s h []
  simpa [decode, decodeAux] using this

theorem encode_ok {s : PyStr} {b : Bytes} (h : encode s = .ok b) :
    b = utf8 s ∧ s.any isSurrogate = false := by
  unfold encode at h
  split at h
  · cases h
  · rename_i hs
    cases h
    exact ⟨rfl, by simpa using hs⟩

theorem decode_encode {s : PyStr} {b : Bytes} (h : encode s = .ok b) : decode b = .ok s := by
  obtain ⟨rfl, hs⟩ := encode_ok h
  exact decode_utf8 s hs

/-- What a successful step says about the bytes. -/
theorem utf8Step_good {b : UInt8} {rest : Bytes} {c k : Nat} (h : utf8Step b rest = .good c k) :
    ∃ (hc : c < 0x110000) (tl rest' : Bytes), rest = tl ++ rest' ∧ tl.length = k ∧
      encCode ⟨c, hc⟩ = b :: tl ∧ isSurrogate ⟨c, hc⟩ = false := by
  have hb := b.toNat_lt
  have key : ∀ (x : UInt8) (n : Nat), x.toNat = n → UInt8.ofNat n = x := by
    intro x n hn; subst hn; simp
  unfold utf8Step at h
  simp only at h
  split at h
  · rename_i h1
    cases h
    refine ⟨by omega, [], rest, rfl, rfl, ?_, ?_⟩
    · simp [encCode, h1]
    · rw [isSurrogate_false]; simp only; omega
  split at h
  · cases h
  split at h
  · -- two bytes
    split at h
    · rename_i h1 h2 h3 _ b1 r1
      have hb1 := b1.toNat_lt
      split at h
      · rename_i hcont
        simp only [isCont, Bool.and_eq_true, decide_eq_true_eq] at hcont
        injection h with hc1 hk1
        subst hc1 hk1
        refine ⟨by omega, [b1], r1, rfl, rfl, ?_, ?_⟩
        · have c1 : ¬ ((b.toNat - 0xC0) * 64 + (b1.toNat - 0x80) < 0x80) := by omega
          have c2 : (b.toNat - 0xC0) * 64 + (b1.toNat - 0x80) < 0x800 := by omega
          simp only [encCode, if_neg c1, if_pos c2]
          rw [key b _ (by omega), key b1 _ (by omega)]
        · rw [isSurrogate_false]; simp only; omega
      · cases h
    · cases h
  split at h
  · split at h
    · rename_i h1 h2 h3 h4 _ b1 r1
      have hb1 := b1.toNat_lt
      split at h
      · rename_i hok
        split at h
        · rename_i b2 r2
          have hb2 := b2.toNat_lt
          split at h
          · rename_i hcont
            simp only [isCont, Bool.and_eq_true, decide_eq_true_eq] at hcont
            have hok' : 0x80 ≤ b1.toNat ∧ b1.toNat ≤ 0xBF ∧ (b.toNat = 0xE0 → 0xA0 ≤ b1.toNat) ∧
                (b.toNat = 0xED → b1.toNat ≤ 0x9F) := by
              unfold ok3 at hok
              split at hok
              · simp only [Bool.and_eq_true, decide_eq_true_eq] at hok; omega
              · split at hok
                · simp only [Bool.and_eq_true, decide_eq_true_eq] at hok; omega
                · simp only [Bool.and_eq_true, decide_eq_true_eq] at hok; omega
            injection h with hc1 hk1
            subst hc1 hk1
            refine ⟨by omega, [b1, b2], r2, rfl, rfl, ?_, ?_⟩
            · have c1 : ¬ ((b.toNat - 0xE0) * 4096 + (b1.toNat - 0x80) * 64 + (b2.toNat - 0x80) < 0x80) := by
                omega
              have c2 : ¬ ((b.toNat - 0xE0) * 4096 + (b1.toNat - 0x80) * 64 + (b2.toNat - 0x80) < 0x800) := by
                omega
              have c3 : (b.toNat - 0xE0) * 4096 + (b1.toNat - 0x80) * 64 + (b2.toNat - 0x80) < 0x10000 := by
                omega
              simp only [encCode, if_neg c1, if_neg c2, if_pos c3]
              rw [key b _ (by omega), key b1 _ (by omega), key b2 _ (by omega)]
            · rw [isSurrogate_false]; simp only; omega
          · cases h
        · cases h
      · cases h
    · cases h
  split at h
  · split at h
    · rename_i h1 h2 h3 h4 h5 _ b1 r1
      have hb1 := b1.toNat_lt
      split at h
      · rename_i hok
        split at h
        · rename_i b2 r2
          have hb2 := b2.toNat_lt
          split at h
          · rename_i hcont
            simp only [isCont, Bool.and_eq_true, decide_eq_true_eq] at hcont
            split at h
            · rename_i b3 r3
              have hb3 := b3.toNat_lt
              split at h
              · rename_i hcont3
                simp only [isCont, Bool.and_eq_true, decide_eq_true_eq] at hcont3
                have hok' : 0x80 ≤ b1.toNat ∧ b1.toNat ≤ 0xBF ∧ (b.toNat = 0xF0 → 0x90 ≤ b1.toNat) ∧
                    (b.toNat = 0xF4 → b1.toNat ≤ 0x8F) := by
                  unfold ok4 at hok
                  split at hok
                  · simp only [Bool.and_eq_true, decide_eq_true_eq] at hok; omega
                  · split at hok
                    · simp only [Bool.and_eq_true, decide_eq_true_eq] at hok; omega
                    · simp only [Bool.and_eq_true, decide_eq_true_eq] at hok; omega
                injection h with hc1 hk1
                subst hc1 hk1
                refine ⟨by omega, [b1, b2, b3], r3, rfl, rfl, ?_, ?_⟩
                · have c1 : ¬ ((b.toNat - 0xF0) * 262144 + (b1.toNat - 0x80) * 4096
                      + (b2.toNat - 0x80) * 64 + (b3.toNat - 0x80) < 0x80) := by omega
                  have c2 : ¬ ((b.toNat - 0xF0) * 262144 + (b1.toNat - 0x80) * 4096
                      + (b2.toNat - 0x80) * 64 + (b3.toNat - 0x80) < 0x800) := by omega
                  have c3 : ¬ ((b.toNat - 0xF0) * 262144 + (b1.toNat - 0x80) * 4096
                      + (b2.toNat - 0x80) * 64 + (b3.toNat - 0x80) < 0x10000) := by omega
                  simp only [encCode, if_neg c1, if_neg c2, if_neg c3]
                  rw [key b _ (by omega), key b1 _ (by omega), key b2 _ (by omega),
                    key b3 _ (by omega)]
                · rw [isSurrogate_false]; simp only; omega
              · cases h
            · cases h
          · cases h
        · cases h
      · cases h
    · cases h
  · cases h

/-- Decoding is injective: what strict decoding accepts is exactly the encoding. -/
theorem utf8_of_decode (bs : Bytes) : ∀ {s : PyStr}, decode bs = .ok s →
    utf8 s = bs ∧ s.any isSurrogate = false := by
  induction hn : bs.length using Nat.strong_induction_on generalizing bs with
  | _ n ih =>
    intro s h
    cases bs with
    | nil =>
      simp [decode, decodeAux] at h
      subst h
      exact ⟨rfl, rfl⟩
    | cons b rest =>
      simp only [decode, decodeAux] at h
      cases hst : utf8Step b rest with
      | bad k => rw [hst] at h; cases h
      | good c k =>
        rw [hst] at h
        obtain ⟨hc, tl, rest', hr, hl, he, hs⟩ := utf8Step_good hst
        simp only at h
        subst hr hl
        rw [decodeAux_skip] at h
        cases hd : decodeAux 0 rest' with
        | error e => rw [hd] at h; cases h
        | ok t =>
          rw [hd] at h
          simp only at h
          cases h
          have hlen : rest'.length < n := by simp at hn; omega
          obtain ⟨i1, i2⟩ := ih rest'.length hlen rest' rfl hd
          have e1 : toCode c = ⟨c, hc⟩ := by simp [toCode, hc]
          refine ⟨?_, ?_⟩
          · simp only [utf8, e1, he, i1, List.cons_append]
          · rw [List.any_cons, e1, hs, i2]; rfl

theorem encode_decode {bs : Bytes} {s : PyStr} (h : decode bs = .ok s) : encode s = .ok bs := by
  obtain ⟨h1, h2⟩ := utf8_of_decode bs h
  simp [encode, h2, h1]

/-- Lossy decoding agrees with strict decoding where the latter succeeds. -/
theorem decodeReplaceAux_eq (bs : Bytes) : ∀ (k : Nat) (s : PyStr), decodeAux k bs = .ok s →
    decodeReplaceAux k bs = s := by
  induction bs with
  | nil => intro k s h; cases k <;> (simp [decodeAux] at h; simp [decodeReplaceAux, h])
  | cons b bs ih =>
    intro k s h
    cases k with
    | succ k => simp only [decodeAux] at h; simp only [decodeReplaceAux]; exact ih k s h
    | zero =>
      simp only [decodeAux] at h
      simp only [decodeReplaceAux]
      cases hst : utf8Step b bs with
      | bad k => rw [hst] at h; cases h
      | good c k =>
        rw [hst] at h
        simp only at h
        cases hd : decodeAux k bs with
        | error e => rw [hd] at h; cases h
        | ok t =>
          rw [hd] at h
          simp only at h
          cases h
          simp [ih k t hd]

theorem decodeReplace_eq {bs : Bytes} {s : PyStr} (h : decode bs = .ok s) : decodeReplace bs = s :=
  decodeReplaceAux_eq bs 0 s h

theorem utf8_append (s t : PyStr) : utf8 (s ++ t) = utf8 s ++ utf8 t := by
  induction s with
  | nil => rfl
  | cons c cs ih => simp [utf8, ih]

theorem encCode_ne_nil (c : Code) : encCode c ≠ [] := by
  unfold encCode
  simp only
  split
  · simp
  · split
    · simp
    · split <;> simp

end FF
