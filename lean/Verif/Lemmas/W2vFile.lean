import Verif.Lemmas.TextFile
import Verif.Lemmas.FtLayout
import Verif.Lemmas.Utf8Lossy
import Verif.Spec.W2vFile
/-! word2vec files of any layout. -/

namespace FF

theorem stripped_iff {w w' : PyStr} : strip w = w' ↔ Stripped w w' := by
  have of : ∀ {w w' : PyStr}, Stripped w w' → strip w = w' := by
    rintro w w' ⟨a, b, rfl, ha, hb, h1, h2⟩
    unfold strip
    rw [List.append_assoc, lstrip_append ha]
    cases w' with
    | nil =>
      rw [List.nil_append]
      have : lstrip b = [] := by
        have := lstrip_append (w := []) hb
        rw [List.append_nil] at this
        rw [this]
        rfl
      rw [this]
      rfl
    | cons c w' =>
      rw [lstrip_self (by intro d hd; exact h1 d hd), rstrip_append hb, rstrip_self h2]
  refine ⟨fun h => ?_, of⟩
  obtain ⟨a, r, rfl, h1, h2⟩ := lead isSpace w
  obtain ⟨b, m, hm, h3, h4⟩ := lead isSpace r.reverse
  have hr : r = m.reverse ++ b.reverse := by
    have := congrArg List.reverse hm
    rwa [List.reverse_reverse, List.reverse_append] at this
  have hs : Stripped (a ++ r) m.reverse := by
    refine ⟨a, b.reverse, by rw [hr, List.append_assoc], h1,
      fun c hc => h3 c (List.mem_reverse.mp hc), ?_, ?_⟩
    · intro c hc
      apply h2
      rw [hr]
      cases hmr : m.reverse with
      | nil => rw [hmr] at hc; cases hc
      | cons d ds => rw [hmr] at hc; exact hc
    · intro c hc
      rw [List.getLast?_reverse] at hc
      exact h4 c hc
  rw [← h, of hs]
  exact hs

theorem decodeAscii_inv {bs : Bytes} {s : PyStr} (h : decodeAscii bs = .ok s) :
    bs = utf8 s ∧ ∀ c ∈ s, c.val < 128 := by
  induction bs generalizing s with
  | nil => cases h; exact ⟨rfl, by intro c hc; cases hc⟩
  | cons b bs ih =>
    unfold decodeAscii at h
    by_cases hb : b.toNat < 128
    · rw [if_pos hb] at h
      cases hd : decodeAscii bs with
      | error e => rw [hd] at h; cases h
      | ok t =>
        rw [hd] at h
        cases h
        obtain ⟨h1, h2⟩ := ih hd
        have hv : (toCode b.toNat).val = b.toNat := toCode_val_of (by omega)
        constructor
        · rw [h1]
          show b :: utf8 t = encCode (toCode b.toNat) ++ utf8 t
          unfold encCode
          simp only [hv]
          rw [if_pos hb]
          simp
        · intro c hc
          rcases List.mem_cons.mp hc with rfl | hc
          · rw [hv]; exact hb
          · exact h2 c hc
    · rw [if_neg hb] at h
      cases h

theorem mem_utf8_of {s : PyStr} {c : Code} (hc : c ∈ s) (h : c.val < 128) :
    UInt8.ofNat c.val ∈ utf8 s := by
  induction s with
  | nil => cases hc
  | cons d s ih =>
    show _ ∈ encCode d ++ utf8 s
    rcases List.mem_cons.mp hc with rfl | hc
    · apply List.mem_append_left
      unfold encCode
      simp only
      rw [if_pos (by omega)]
      simp
    · exact List.mem_append_right _ (ih hc)

theorem takeLine_inv (bs : Bytes) : (∃ l rest, (10 : UInt8) ∉ l ∧ bs = l ++ 10 :: rest ∧
    takeLine bs = l ++ [10]) ∨ ((10 : UInt8) ∉ bs ∧ takeLine bs = bs) := by
  induction bs with
  | nil => exact Or.inr ⟨by simp, rfl⟩
  | cons b bs ih =>
    by_cases hb : b = 10
    · exact Or.inl ⟨[], bs, by simp, by rw [hb]; rfl, by rw [takeLine, if_pos hb, hb]; rfl⟩
    · rcases ih with ⟨l, rest, h1, h2, h3⟩ | ⟨h1, h2⟩
      · refine Or.inl ⟨b :: l, rest, ?_, by rw [h2]; rfl, by rw [takeLine, if_neg hb, h3]; rfl⟩
        rw [List.mem_cons, not_or]
        exact ⟨fun e => hb e.symm, h1⟩
      · refine Or.inr ⟨?_, by rw [takeLine, if_neg hb, h2]⟩
        rw [List.mem_cons, not_or]
        exact ⟨fun e => hb e.symm, h1⟩

section
variable {K : Type} [Codec K]

theorem w2vRows_body {lossy : Bool} {cols n : Nat} {s s' : RFile} {rs : List (PyStr × List K)}
    (h : w2vRows lossy cols n s = .ok (rs, s')) :
    ∃ qs : List (PyStr × List F32), W2vBody lossy cols (s.data.drop s.pos) qs ∧ qs.length = n ∧
      rs = qs.map fun q => (q.1, q.2.map Codec.ofBits) := by
  induction n generalizing s rs with
  | zero =>
    cases h
    exact ⟨[], .nil _, rfl, rfl⟩
  | succ n ih =>
    rw [w2vRows] at h
    obtain ⟨wb, s1, h1, k1⟩ := rd_bind_inv h
    obtain ⟨w, s2, h2, k2⟩ := rd_bind_inv k1
    obtain ⟨xs, s3, h3, k3⟩ := rd_bind_inv k2
    obtain ⟨row, s4, h4, k4⟩ := rd_bind_inv k3
    obtain ⟨rest, s5, h5, k5⟩ := rd_bind_inv k4
    clear h k1 k2 k3 k4
    obtain ⟨hdec, e2⟩ := rd_lift_inv h2
    obtain ⟨hrow, e4⟩ := rd_lift_inv h4
    subst e2 e4
    clear h2 h4
    cases k5
    unfold readDelim at h1
    cases ht : takeUntil 32 (s.data.drop s.pos) with
    | none => rw [ht] at h1; cases h1
    | some wb' =>
      rw [ht] at h1
      cases h1
      obtain ⟨hnot, heq⟩ := takeUntil_inv ht
      have hkey : W2vKey lossy wb (strip w) := ⟨hnot, w, decodeLossy_iff.mp hdec, stripped_iff.mp rfl⟩
      have hdrop : s.data.drop (s.pos + wb.length + 1) = (s.data.drop s.pos).drop (wb.length + 1) := by
        rw [List.drop_drop]; rfl
      generalize hbody : (s.data.drop s.pos).drop (wb.length + 1) = body at heq hdrop
      rw [heq]
      unfold fromFileF32 at h3
      split at h3
      · simp only [hdrop] at h3
        split at h3
        · rename_i hle
          cases h3
          have hlen : (f32sOf (body.take (4 * cols))).length = cols := by
            rw [length_f32sOf, List.length_take, min_eq_left hle]; omega
          rw [assignRow_ok (by rw [List.length_map, hlen])] at hrow
          cases hrow
          obtain ⟨qs, hq, hn, rfl⟩ := ih h5
          simp only at hq
          have : s.data.drop (s.pos + wb.length + 1 + 4 * cols) = body.drop (4 * cols) := by
            rw [← List.drop_drop, hdrop]
          rw [this] at hq
          refine ⟨(strip w, f32sOf (body.take (4 * cols))) :: qs, ?_, by rw [List.length_cons, hn], rfl⟩
          have hb : body = f32sLE (f32sOf (body.take (4 * cols))) ++ body.drop (4 * cols) := by
            rw [f32sLE_f32sOf _ (by rw [List.length_take, min_eq_left hle]; omega),
              List.take_append_drop]
          rw [show wb ++ 32 :: body = wb ++ 32 ::
            (f32sLE (f32sOf (body.take (4 * cols))) ++ body.drop (4 * cols)) by rw [← hb]]
          exact .row hkey hlen hq
        · rename_i hlt
          cases h3
          have hlen := length_f32sOf body
          unfold assignRow at hrow
          rw [if_neg (by rw [List.length_map, hlen]; omega)] at hrow
          split at hrow
          · rename_i y hy
            cases hrow
            obtain ⟨x, hx, rfl⟩ : ∃ x, f32sOf body = [x] ∧ Codec.ofBits x = y := by
              match hf : f32sOf body, hy with
              | [x], hy => simp at hy; exact ⟨x, rfl, hy⟩
              | [], hy => cases hy
              | _ :: _ :: _, hy => simp at hy
            rw [hx] at hlen
            simp only [List.length_singleton] at hlen
            cases n with
            | zero =>
              cases h5
              refine ⟨[(strip w, List.replicate cols x)], ?_, rfl, by simp⟩
              have h4 : f32sOf (body.take 4) = [x] := by
                match body, hx with
                | _ :: _ :: _ :: _ :: _, hx =>
                  simp only [f32sOf, List.cons.injEq] at hx
                  simp only [List.take_succ_cons, List.take_zero, f32sOf, hx.1]
              have hb : body = f32sLE [x] ++ body.drop 4 := by
                rw [← h4, f32sLE_f32sOf _ (by rw [List.length_take]; omega), List.take_append_drop]
              rw [show wb ++ 32 :: body = wb ++ 32 :: (f32sLE [x] ++ body.drop 4) by rw [← hb]]
              exact .one hkey (by omega) (by rw [List.length_drop]; omega)
            | succ n =>
              exfalso
              rw [w2vRows] at h5
              obtain ⟨er, her⟩ := readDelim_eof 32 ⟨s.data, max (s.pos + wb.length + 1) s.data.length⟩
                (by simp)
              rw [rd_bind_error her] at h5
              cases h5
          · cases hrow
      · split at h3 <;> cases h3

theorem w2vRows_of_body {lossy : Bool} {cols : Nat} (hc : 4 * cols < maxSize) {body : Bytes}
    {qs : List (PyStr × List F32)} (h : W2vBody lossy cols body qs) {s : RFile}
    (hs : s.data.drop s.pos = body) : ∃ s', w2vRows (K := K) lossy cols qs.length s =
      .ok (qs.map fun q => (q.1, q.2.map Codec.ofBits), s') := by
  have word : ∀ {k : Bytes} {w' : PyStr} {rest : Bytes} {s : RFile}, W2vKey lossy k w' →
      s.data.drop s.pos = k ++ 32 :: rest →
      ∃ s1 w, readDelim 32 s = .ok (k, s1) ∧ s1.data.drop s1.pos = rest ∧
        decodeLossy lossy k = .ok w ∧ strip w = w' := by
    intro k w' rest s hk hd
    obtain ⟨hk1, w, hk2, hk3⟩ := hk
    refine ⟨⟨s.data, s.pos + k.length + 1⟩, w, ?_, ?_, decodeLossy_iff.mpr hk2, stripped_iff.mpr hk3⟩
    · unfold readDelim
      rw [hd, takeUntil_append hk1]
    · simp only
      rw [Nat.add_assoc, ← List.drop_drop, hd, List.drop_append]
      simp
  induction h generalizing s with
  | nil rest => exact ⟨s, rfl⟩
  | @row k w' v rest rs hk hl _ ih =>
    obtain ⟨s1, w, h1, h2, h3, h4⟩ := word hk hs
    have hff : fromFileF32 cols s1 = .ok (v, ⟨s1.data, s1.pos + 4 * cols⟩) := by
      unfold fromFileF32
      rw [if_pos hc]
      simp only [h2]
      have hlen : (f32sLE v).length = 4 * cols := by rw [length_f32sLE, hl]
      rw [if_pos (by rw [List.length_append, hlen]; omega), List.take_left' hlen, f32sOf_f32sLE]
    obtain ⟨s2, h5⟩ := ih (s := ⟨s1.data, s1.pos + 4 * cols⟩) (by
      simp only
      rw [← List.drop_drop, h2, List.drop_left' (by rw [length_f32sLE, hl])])
    refine ⟨s2, ?_⟩
    rw [List.length_cons, w2vRows, rd_bind_ok h1, rd_bind_ok (by rw [h3]; exact rd_lift_ok _ _),
      rd_bind_ok hff, rd_bind_ok (by
        rw [assignRow_ok (by rw [List.length_map, hl])]; exact rd_lift_ok _ _),
      rd_bind_ok h5, h4]
    rfl
  | @one k w' x t hk h2c ht =>
    obtain ⟨s1, w, h1, h2, h3, h4⟩ := word hk hs
    have hff : fromFileF32 cols s1 = .ok ([x], ⟨s1.data, max s1.pos s1.data.length⟩) := by
      unfold fromFileF32
      rw [if_pos hc]
      simp only [h2]
      rw [if_neg (by rw [List.length_append, length_f32sLE, List.length_singleton]; omega), f32sOf_append]
      have : f32sOf t = [] := List.eq_nil_of_length_eq_zero (by rw [length_f32sOf]; omega)
      rw [this]
      rfl
    refine ⟨⟨s1.data, max s1.pos s1.data.length⟩, ?_⟩
    rw [List.length_singleton, w2vRows, rd_bind_ok h1, rd_bind_ok (by rw [h3]; exact rd_lift_ok _ _),
      rd_bind_ok hff, rd_bind_ok (m := Rd.lift (assignRow cols ([x].map (Codec.ofBits (K := K)))))
      (a := List.replicate cols (Codec.ofBits x)) (by
        unfold assignRow
        rw [if_neg (by simp; omega)]
        rfl), h4]
    simp [w2vRows, rd_bind]

end

end FF
