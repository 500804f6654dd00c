import Verif.Lemmas.Prim
/-! Exact behaviour of the primitive readers. -/

namespace FF

theorem readRequired_eq (ws : List Nat) (s : RFile) (h : calcsize ws < maxSize) :
    readRequired ws s =
      if calcsize ws ≠ 0 ∧ s.pos + calcsize ws ≤ s.data.length then
        .ok (unpack ws ((s.data.drop s.pos).take (calcsize ws)), ⟨s.data, s.pos + calcsize ws⟩)
      else .error .formatError := by
  unfold readRequired
  rw [rd_bind, readBinary_eq ws s h]
  have hl : ((s.data.drop s.pos).take (calcsize ws)).length =
      min (calcsize ws) (s.data.length - s.pos) := by simp
  simp only [hl]
  by_cases h1 : calcsize ws ≠ 0 ∧ s.pos + calcsize ws ≤ s.data.length
  · rw [if_pos h1, if_neg (by omega), if_neg (by omega)]
    have : min (calcsize ws) (s.data.length - s.pos) = calcsize ws := by omega
    simp only [this]
    rfl
  · rw [if_neg h1]
    by_cases h2 : min (calcsize ws) (s.data.length - s.pos) = 0
    · rw [if_pos h2]; rfl
    · rw [if_neg h2, if_pos (by omega)]

theorem readOne_eq (w : Nat) (s : RFile) (h0 : 0 < w) (h : w < maxSize) :
    readOne w s =
      if s.pos + w ≤ s.data.length then
        .ok (unle ((s.data.drop s.pos).take w), ⟨s.data, s.pos + w⟩)
      else .error .formatError := by
  unfold readOne
  have hc : calcsize [w] = w := by simp [calcsize]
  rw [rd_bind, readRequired_eq [w] s (by rw [hc]; exact h), hc]
  by_cases h1 : s.pos + w ≤ s.data.length
  · rw [if_pos ⟨by omega, h1⟩, if_pos h1]
    have e : unpack [w] ((s.data.drop s.pos).take w) = [unle ((s.data.drop s.pos).take w)] := by
      simp only [unpack]
      rw [List.take_of_length_le (by simp)]
    rw [e]
    rfl
  · rw [if_neg (by omega), if_neg h1]

theorem packRaw_unpack (ws : List Nat) (bs : Bytes) (h : bs.length = calcsize ws) :
    packRaw (ws.zip (unpack ws bs)) = bs := by
  induction ws generalizing bs with
  | nil => simp [calcsize] at h; subst h; rfl
  | cons w ws ih =>
    simp only [calcsize, List.sum_cons] at h
    simp only [unpack, List.zip_cons_cons, packRaw]
    rw [ih (bs.drop w) (by simp [calcsize]; omega)]
    have hl : (bs.take w).length = w := by simp; omega
    have := le_unle (bs.take w)
    rw [hl] at this
    rw [this, List.take_append_drop]

theorem unpack_replicate_lt (w n : Nat) (bs : Bytes) : ∀ i ∈ unpack (List.replicate n w) bs,
    i < 256 ^ w := by
  induction n generalizing bs with
  | zero => simp [unpack]
  | succ n ih =>
    intro i hi
    simp only [List.replicate_succ, unpack, List.mem_cons] at hi
    rcases hi with rfl | hi
    · refine lt_of_lt_of_le (unle_lt _) ?_
      exact Nat.pow_le_pow_right (by decide) (by simp)
    · exact ih _ i hi

theorem packRaw_zip_replicate (w : Nat) (vs : List Nat) :
    packRaw ((List.replicate vs.length w).zip vs) = vs.flatMap (le w) := by
  induction vs with
  | nil => rfl
  | cons v vs ih => simp [List.replicate_succ, packRaw, ih]

end FF
