import Verif.Spec.Utf8
import Verif.Lemmas.Utf8
/-! The decoder meets the definition of UTF-8 with replacement. -/

namespace FF

theorem utf8Char_iff {n : Nat} {enc : Bytes} :
    Utf8Char n enc ↔ ∃ c : Code, c.val = n ∧ isSurrogate c = false ∧ encCode c = enc := by
  have key : ∀ (x : UInt8) (n : Nat), x.toNat = n → UInt8.ofNat n = x := by
    intro x n hn; subst hn; simp
  constructor
  · intro h
    cases h with
    | one b h =>
      refine ⟨⟨b.toNat, by omega⟩, rfl, isSurrogate_false.mpr (by simp only; omega), ?_⟩
      unfold encCode
      simp only
      rw [if_pos h, key b _ rfl]
    | two b c x y hx hy hb hc h =>
      refine ⟨⟨64 * x + y, by omega⟩, rfl, isSurrogate_false.mpr (by simp only; omega), ?_⟩
      unfold encCode
      simp only
      rw [if_neg (by omega), if_pos (by omega), key b _ (by omega), key c _ (by omega)]
    | three b c d x y z hx hy hz hb hc hd h hs =>
      unfold Scalar at hs
      refine ⟨⟨64 * (64 * x + y) + z, by omega⟩, rfl, isSurrogate_false.mpr (by simp only; omega), ?_⟩
      unfold encCode
      simp only
      rw [if_neg (by omega), if_neg (by omega), if_pos (by omega), key b _ (by omega), key c _ (by omega),
        key d _ (by omega)]
    | four b c d e w x y z hw hx hy hz hb hc hd he h hs =>
      unfold Scalar at hs
      refine ⟨⟨64 * (64 * (64 * w + x) + y) + z, by omega⟩, rfl, isSurrogate_false.mpr (by simp only; omega), ?_⟩
      unfold encCode
      simp only
      rw [if_neg (by omega), if_neg (by omega), if_neg (by omega), key b _ (by omega), key c _ (by omega),
        key d _ (by omega), key e _ (by omega)]
  · rintro ⟨⟨n, hn⟩, rfl, hs, rfl⟩
    rw [isSurrogate_false] at hs
    simp only at hs
    have hu : ∀ m, m < 256 → (UInt8.ofNat m).toNat = m := fun m h => u8_toNat_ofNat h
    unfold encCode
    simp only
    split
    · have := Utf8Char.one (UInt8.ofNat n) (by rw [hu _ (by omega)]; omega)
      rw [hu _ (by omega)] at this
      exact this
    · split
      · have := Utf8Char.two (UInt8.ofNat (0xC0 + n / 64)) (UInt8.ofNat (0x80 + n % 64)) (n / 64) (n % 64)
          (by omega) (by omega) (hu _ (by omega)) (hu _ (by omega)) (by omega)
        rw [show 64 * (n / 64) + n % 64 = n by omega] at this
        exact this
      · split
        · have e : 64 * (64 * (n / 4096) + n / 64 % 64) + n % 64 = n := by omega
          have := Utf8Char.three (UInt8.ofNat (0xE0 + n / 4096)) (UInt8.ofNat (0x80 + n / 64 % 64))
            (UInt8.ofNat (0x80 + n % 64)) (n / 4096) (n / 64 % 64) (n % 64)
            (by omega) (by omega) (by omega) (hu _ (by omega)) (hu _ (by omega)) (hu _ (by omega))
            (by rw [e]; omega) (by rw [e]; unfold Scalar; omega)
          rw [e] at this
          exact this
        · have e : 64 * (64 * (64 * (n / 262144) + n / 4096 % 64) + n / 64 % 64) + n % 64 = n := by omega
          have := Utf8Char.four (UInt8.ofNat (0xF0 + n / 262144)) (UInt8.ofNat (0x80 + n / 4096 % 64))
            (UInt8.ofNat (0x80 + n / 64 % 64)) (UInt8.ofNat (0x80 + n % 64)) (n / 262144) (n / 4096 % 64)
            (n / 64 % 64) (n % 64)
            (by omega) (by omega) (by omega) (by omega) (hu _ (by omega)) (hu _ (by omega)) (hu _ (by omega))
            (hu _ (by omega)) (by rw [e]; omega) (by rw [e]; unfold Scalar; omega)
          rw [e] at this
          exact this

theorem utf8Text_iff {s : PyStr} {bs : Bytes} :
    Utf8Text s bs ↔ bs = utf8 s ∧ s.any isSurrogate = false := by
  constructor
  · intro h
    induction h with
    | nil => exact ⟨rfl, rfl⟩
    | cons hc hs ih =>
      obtain ⟨c', h1, h2, h3⟩ := utf8Char_iff.mp hc
      have := Fin.ext h1
      subst this
      rw [utf8, h3, ← ih.1]
      exact ⟨rfl, by rw [List.any_cons, h2, ih.2]; rfl⟩
  · rintro ⟨rfl, h⟩
    induction s with
    | nil => exact .nil
    | cons c s ih =>
      rw [List.any_cons, Bool.or_eq_false_iff] at h
      exact .cons (utf8Char_iff.mpr ⟨c, rfl, h.1, rfl⟩) (ih h.2)

theorem decode_iff {bs : Bytes} {s : PyStr} : decode bs = .ok s ↔ Utf8Text s bs := by
  rw [utf8Text_iff]
  constructor
  · intro h
    obtain ⟨h1, h2⟩ := utf8_of_decode bs h
    exact ⟨h1.symm, h2⟩
  · rintro ⟨rfl, h⟩
    exact decode_utf8 s h

/-- A failed step looks at no more than one byte after the ill-formed sequence. -/
theorem utf8Step_bad_congr {b : UInt8} {rest rest' : Bytes} {k : Nat} (h : utf8Step b rest = .bad k)
    (hl : k + 1 ≤ rest.length) (he : rest.take (k + 1) <+: rest') : utf8Step b rest' = .bad k := by
  unfold utf8Step at h ⊢
  simp only at h ⊢
  split at h
  · cases h
  rename_i h1
  rw [if_neg h1]
  split at h
  · rename_i h2
    rw [if_pos h2]; exact h
  rename_i h2
  rw [if_neg h2]
  split at h
  · rename_i h3
    rw [if_pos h3]
    match rest, hl with
    | b1 :: r1, hl =>
      dsimp only at h
      split at h
      · cases h
      · rename_i hc
        cases h
        obtain ⟨t, rfl⟩ := he
        simp only [List.take_succ_cons, List.cons_append]
        rw [if_neg hc]
  rename_i h3
  rw [if_neg h3]
  split at h
  · rename_i h4
    rw [if_pos h4]
    match rest, hl with
    | b1 :: r1, hl =>
      dsimp only at h
      split at h
      · rename_i hc
        match r1, hl, h with
        | [], hl, h => cases h; simp at hl
        | b2 :: r2, hl, h =>
          dsimp only at h
          split at h
          · cases h
          · rename_i hd
            cases h
            obtain ⟨t, rfl⟩ := he
            simp only [List.take_succ_cons, List.cons_append]
            rw [if_pos hc, if_neg hd]
      · rename_i hc
        cases h
        obtain ⟨t, rfl⟩ := he
        simp only [List.take_succ_cons, List.cons_append]
        rw [if_neg hc]
  rename_i h4
  rw [if_neg h4]
  split at h
  · rename_i h5
    rw [if_pos h5]
    match rest, hl with
    | b1 :: r1, hl =>
      dsimp only at h
      split at h
      · rename_i hc
        match r1, hl, h with
        | [], hl, h => cases h; simp at hl
        | b2 :: r2, hl, h =>
          dsimp only at h
          split at h
          · rename_i hd
            match r2, hl, h with
            | [], hl, h => cases h; simp at hl
            | b3 :: r3, hl, h =>
              dsimp only at h
              split at h
              · cases h
              · rename_i hx
                cases h
                obtain ⟨t, rfl⟩ := he
                simp only [List.take_succ_cons, List.cons_append]
                rw [if_pos hc, if_pos hd, if_neg hx]
          · rename_i hd
            cases h
            obtain ⟨t, rfl⟩ := he
            simp only [List.take_succ_cons, List.cons_append]
            rw [if_pos hc, if_neg hd]
      · rename_i hc
        cases h
        obtain ⟨t, rfl⟩ := he
        simp only [List.take_succ_cons, List.cons_append]
        rw [if_neg hc]
  · rename_i h5
    rw [if_neg h5]; exact h

/-- The bytes of an ill-formed sequence after the first can be completed. -/
theorem utf8Step_bad_complete {b : UInt8} {rest : Bytes} {k : Nat} (h : utf8Step b rest = .bad (k + 1)) :
    k + 1 ≤ rest.length ∧ ∃ more c n, utf8Step b (rest.take (k + 1) ++ more) = .good c n ∧ k + 1 ≤ n := by
  unfold utf8Step at h
  simp only at h
  split at h
  · cases h
  rename_i h1
  split at h
  · cases h
  rename_i h2
  split at h
  · match rest with
    | b1 :: r1 =>
      dsimp only at h
      split at h <;> cases h
    | [] => cases h
  rename_i h3
  split at h
  · rename_i h4
    match rest with
    | [] => cases h
    | b1 :: r1 =>
      dsimp only at h
      split at h
      · rename_i hc
        have hk : k = 0 := by
          match r1, h with
          | [], h => cases h; rfl
          | b2 :: r2, h =>
            dsimp only at h
            split at h
            · cases h
            · cases h; rfl
        subst hk
        refine ⟨by simp, [0x80], ?_⟩
        unfold utf8Step
        simp only [List.take_succ_cons, List.take_zero, List.cons_append, List.nil_append]
        rw [if_neg h1, if_neg h2, if_neg h3, if_pos h4, if_pos hc, if_pos (by decide)]
        exact ⟨_, _, rfl, by omega⟩
      · cases h
  rename_i h4
  split at h
  · rename_i h5
    match rest with
    | [] => cases h
    | b1 :: r1 =>
      dsimp only at h
      split at h
      · rename_i hc
        match r1, h with
        | [], h =>
          cases h
          refine ⟨by simp, [0x80, 0x80], ?_⟩
          unfold utf8Step
          simp only [List.take_succ_cons, List.take_zero, List.cons_append, List.nil_append]
          rw [if_neg h1, if_neg h2, if_neg h3, if_neg h4, if_pos h5, if_pos hc, if_pos (by decide),
            if_pos (by decide)]
          exact ⟨_, _, rfl, by omega⟩
        | b2 :: r2, h =>
          dsimp only at h
          split at h
          · rename_i hd
            have hk : k = 1 := by
              match r2, h with
              | [], h => cases h; rfl
              | b3 :: r3, h =>
                dsimp only at h
                split at h
                · cases h
                · cases h; rfl
            subst hk
            refine ⟨by simp, [0x80], ?_⟩
            unfold utf8Step
            simp only [List.take_succ_cons, List.take_zero, List.cons_append, List.nil_append]
            rw [if_neg h1, if_neg h2, if_neg h3, if_neg h4, if_pos h5, if_pos hc, if_pos hd,
              if_pos (by decide)]
            exact ⟨_, _, rfl, by omega⟩
          · cases h
            refine ⟨by simp, [0x80, 0x80], ?_⟩
            unfold utf8Step
            simp only [List.take_succ_cons, List.take_zero, List.cons_append, List.nil_append]
            rw [if_neg h1, if_neg h2, if_neg h3, if_neg h4, if_pos h5, if_pos hc, if_pos (by decide),
              if_pos (by decide)]
            exact ⟨_, _, rfl, by omega⟩
      · cases h
  · cases h

/-- What a failed step says about the bytes. -/
theorem utf8Step_bad {b : UInt8} {rest : Bytes} {k : Nat} (h : utf8Step b rest = .bad k) :
    k ≤ rest.length ∧ IllFormed (b :: rest) (b :: rest.take k) := by
  have hk : k ≤ rest.length := by
    cases k with
    | zero => omega
    | succ k => exact (utf8Step_bad_complete h).1
  have hnone : ∀ n enc, Utf8Char n enc → ¬ enc <+: b :: rest := by
    rintro n enc hc ⟨t, ht⟩
    obtain ⟨c, rfl, h2, rfl⟩ := utf8Char_iff.mp hc
    obtain ⟨b', tl, h3, h4⟩ := utf8Step_encCode c h2 t
    rw [h3] at ht
    simp only [List.cons_append, List.cons.injEq] at ht
    rw [ht.1, ht.2, h] at h4
    cases h4
  refine ⟨hk, hnone, ?_, by simp, ?_, ?_⟩
  · exact ⟨rest.drop k, by simp⟩
  · cases k with
    | zero => left; simp
    | succ k =>
      right
      obtain ⟨_, more, c, n, h1, h2⟩ := utf8Step_bad_complete h
      obtain ⟨hc, tl, rest', e1, e2, e3, e4⟩ := utf8Step_good h1
      refine ⟨c, b :: tl, utf8Char_iff.mpr ⟨⟨c, hc⟩, rfl, e4, e3⟩, ?_⟩
      rw [List.cons_prefix_cons]
      refine ⟨rfl, ?_⟩
      have hp : rest.take (k + 1) <+: tl ++ rest' := ⟨more, e1⟩
      refine List.prefix_of_prefix_length_le hp (List.prefix_append _ _) ?_
      rw [List.length_take]; omega
  · rintro p hp ⟨n, enc, hc, hpe⟩
    by_contra hlt
    rw [List.length_cons, List.length_take] at hlt
    have hlen : k + 2 ≤ p.length := by omega
    have hrl : k + 1 ≤ rest.length := by
      have := hp.length_le
      rw [List.length_cons] at this; omega
    obtain ⟨c, rfl, h2, rfl⟩ := utf8Char_iff.mp hc
    obtain ⟨b', tl, h3, h4⟩ := utf8Step_encCode c h2 []
    rw [h3] at hpe
    match p, hlen with
    | q :: p, hlen =>
      rw [List.cons_prefix_cons] at hp hpe
      obtain ⟨rfl, hp⟩ := hp
      obtain ⟨rfl, hpe⟩ := hpe
      have : rest.take (k + 1) <+: p :=
        List.prefix_of_prefix_length_le (List.take_prefix _ _) hp (by
          rw [List.length_take]; simp at hlen; omega)
      have := utf8Step_bad_congr h hrl ((this.trans hpe).trans (List.prefix_append tl []))
      rw [h4] at this
      cases this

theorem illFormed_unique {bs s t : Bytes} (h : IllFormed bs s) (h' : IllFormed bs t) : s = t := by
  have key : ∀ {s t : Bytes}, IllFormed bs s → IllFormed bs t → s.length ≤ t.length := by
    intro s t h h'
    rcases h.initial with h1 | h1
    · have := List.length_pos_iff.mpr h'.ne; omega
    · exact h'.longest s h.start h1
  exact (List.prefix_of_prefix_length_le h.start h'.start (key h h')).eq_of_length
    (le_antisymm (key h h') (key h' h))

theorem decodeReplace_iff (bs : Bytes) : ∀ s : PyStr, decodeReplace bs = s ↔ Replaced bs s := by
  induction hn : bs.length using Nat.strong_induction_on generalizing bs with
  | _ n ih =>
    intro s
    cases bs with
    | nil =>
      constructor
      · rintro rfl; exact .nil
      · intro h
        generalize hb : ([] : Bytes) = bs at h
        cases h with
        | nil => rfl
        | good hc h =>
          obtain ⟨c', _, _, h3⟩ := utf8Char_iff.mp hc
          have := encCode_ne_nil c'
          rw [h3] at this
          simp only [List.nil_eq, List.append_eq_nil_iff] at hb
          exact absurd hb.1 this
        | bad hb' h =>
          simp only [List.nil_eq, List.append_eq_nil_iff] at hb
          exact absurd hb.1 hb'.ne
    | cons b rest =>
      cases hst : utf8Step b rest with
      | good c k =>
        obtain ⟨hc, tl, rest', rfl, rfl, e3, e4⟩ := utf8Step_good hst
        have hd : decodeReplace (b :: (tl ++ rest')) = (⟨c, hc⟩ : Code) :: decodeReplace rest' := by
          show decodeReplaceAux 0 (b :: (tl ++ rest')) = _
          simp only [decodeReplaceAux, hst, decodeReplaceAux_skip]
          rw [show toCode c = (⟨c, hc⟩ : Code) from toCode_val ⟨c, hc⟩]
          rfl
        have hch : Utf8Char c (b :: tl) := utf8Char_iff.mpr ⟨⟨c, hc⟩, rfl, e4, e3⟩
        have hih := ih rest'.length (by subst hn; simp; omega) rest' rfl
        rw [hd]
        constructor
        · rintro rfl
          exact .good (c := ⟨c, hc⟩) hch ((hih _).mp rfl)
        · intro h
          generalize hb : b :: (tl ++ rest') = bs at h
          cases h with
          | nil => cases hb
          | @good c' enc bs' s' hc' h =>
            obtain ⟨c2, h1, h2, h3⟩ := utf8Char_iff.mp hc'
            have := Fin.ext h1
            subst this
            obtain ⟨b', tl', h4, h5⟩ := utf8Step_encCode c2 h2 bs'
            rw [← h3, h4, List.cons_append, List.cons.injEq] at hb
            obtain ⟨rfl, hb⟩ := hb
            rw [← hb, hst] at h5
            simp only [Step.good.injEq] at h5
            obtain ⟨rfl, h6⟩ := h5
            obtain ⟨_, hr⟩ := List.append_inj hb h6
            rw [(hih s').mpr (hr ▸ h)]
          | bad hb' h =>
            exfalso
            refine hb'.none _ _ hch ?_
            rw [← hb]
            exact ⟨rest', rfl⟩
      | bad k =>
        obtain ⟨hk, hill⟩ := utf8Step_bad hst
        have hd : decodeReplace (b :: rest) = replacementChar :: decodeReplace (rest.drop k) := by
          show decodeReplaceAux 0 (b :: rest) = _
          simp only [decodeReplaceAux, hst]
          have := decodeReplaceAux_skip (rest.take k) (rest.drop k)
          rw [List.take_append_drop, List.length_take, Nat.min_eq_left hk] at this
          rw [this]
          rfl
        have hih := ih (rest.drop k).length (by subst hn; simp; omega) (rest.drop k) rfl
        have hsplit : b :: rest = (b :: rest.take k) ++ rest.drop k := by simp
        rw [hd]
        constructor
        · rintro rfl
          have := Replaced.bad (sub := b :: rest.take k) (bs := rest.drop k) (by rw [← hsplit]; exact hill)
            ((hih _).mp rfl)
          rw [← hsplit] at this
          exact this
        · intro h
          generalize hb : b :: rest = bs at h
          cases h with
          | nil => cases hb
          | good hc' h =>
            exfalso
            exact hill.none _ _ hc' (by rw [hb]; exact List.prefix_append _ _)
          | @bad sub bs' s' hb' h =>
            rw [← hb] at hb'
            have hu := illFormed_unique hb' hill
            rw [hsplit, ← hu] at hb
            have := List.append_cancel_left hb
            rw [(hih s').mpr (this ▸ h)]
            rfl

theorem decodeLossy_iff {lossy : Bool} {bs : Bytes} {s : PyStr} :
    decodeLossy lossy bs = .ok s ↔ DecodesTo lossy bs s := by
  unfold decodeLossy DecodesTo
  cases lossy with
  | true =>
    simp only [if_true, Except.ok.injEq]
    exact decodeReplace_iff bs s
  | false =>
    simp only [Bool.false_eq_true, if_false]
    exact decode_iff

/-- Decoded text has no surrogates. -/
theorem decodesTo_scalar {lossy : Bool} {bs : Bytes} {s : PyStr} (h : DecodesTo lossy bs s) :
    s.any isSurrogate = false := by
  unfold DecodesTo at h
  cases lossy with
  | false => simp only [Bool.false_eq_true, if_false] at h; exact (utf8Text_iff.mp h).2
  | true =>
    simp only [if_true] at h
    induction h with
    | nil => rfl
    | good hc h ih =>
      obtain ⟨c', h1, h2, h3⟩ := utf8Char_iff.mp hc
      have := Fin.ext h1
      subst this
      rw [List.any_cons, h2, ih]; rfl
    | bad hb h ih => rw [List.any_cons, ih]; rfl

/-- NUL comes from a zero byte only. -/
theorem decodesTo_nul {lossy : Bool} {bs : Bytes} {s : PyStr} (h : DecodesTo lossy bs s)
    (h0 : (0 : UInt8) ∉ bs) : ∀ c ∈ s, c.val ≠ 0 := by
  have key : ∀ {n enc}, Utf8Char n enc → n = 0 → (0 : UInt8) ∈ enc := by
    intro n enc hc hn
    obtain ⟨c, h1, _, rfl⟩ := utf8Char_iff.mp hc
    unfold encCode
    rw [h1, hn]
    decide
  unfold DecodesTo at h
  cases lossy with
  | false =>
    simp only [Bool.false_eq_true, if_false] at h
    induction h with
    | nil => simp
    | cons hc _ ih =>
      rw [List.mem_append, not_or] at h0
      exact List.forall_mem_cons.mpr ⟨fun hz => h0.1 (key hc hz), ih h0.2⟩
  | true =>
    simp only [if_true] at h
    induction h with
    | nil => simp
    | good hc _ ih =>
      rw [List.mem_append, not_or] at h0
      exact List.forall_mem_cons.mpr ⟨fun hz => h0.1 (key hc hz), ih h0.2⟩
    | bad _ _ ih =>
      rw [List.mem_append, not_or] at h0
      exact List.forall_mem_cons.mpr ⟨by decide, ih h0.2⟩

end FF
