import Verif.Lemmas.Ngrams
import Verif.Lemmas.Utf8
import Verif.Lemmas.Dict
/-! Character boundaries in UTF-8 and n-grams of encoded words. -/

namespace FF

theorem cont_and (n : Nat) (h : n < 64) : UInt8.ofNat (0x80 + n) &&& 0xC0 = 0x80 := by
  have : ∀ n : Fin 64, UInt8.ofNat (0x80 + n.val) &&& 0xC0 = 0x80 := by decide
  exact this ⟨n, h⟩

theorem ascii_and (n : Nat) (h : n < 0x80) : UInt8.ofNat n &&& 0xC0 ≠ 0x80 := by
  have : ∀ n : Fin 128, UInt8.ofNat n.val &&& 0xC0 ≠ 0x80 := by decide
  exact this ⟨n, h⟩

theorem lead_and (n : Nat) (h : n < 64) : UInt8.ofNat (0xC0 + n) &&& 0xC0 ≠ 0x80 := by
  have : ∀ n : Fin 64, UInt8.ofNat (0xC0 + n.val) &&& 0xC0 ≠ 0x80 := by decide
  exact this ⟨n, h⟩

/-- One encoded character: a byte that is not a continuation byte, then continuation bytes. -/
theorem encCode_shape (c : Code) : ∃ b bs, encCode c = b :: bs ∧ b &&& 0xC0 ≠ 0x80 ∧
    ∀ x ∈ bs, x &&& 0xC0 = 0x80 := by
  have hc := c.isLt
  unfold encCode
  simp only
  split
  · rename_i h
    exact ⟨_, _, rfl, ascii_and _ h, by simp⟩
  · split
    · refine ⟨_, _, rfl, lead_and _ (by omega), ?_⟩
      intro x hx
      simp only [List.mem_cons, List.not_mem_nil, or_false] at hx
      rw [hx]
      exact cont_and _ (by omega)
    · split
      · refine ⟨_, _, rfl, ?_, ?_⟩
        · have : 0xE0 + c.val / 4096 = 0xC0 + (0x20 + c.val / 4096) := by omega
          rw [this]
          exact lead_and _ (by omega)
        · intro x hx
          simp only [List.mem_cons, List.not_mem_nil, or_false] at hx
          rcases hx with rfl | rfl <;> exact cont_and _ (by omega)
      · refine ⟨_, _, rfl, ?_, ?_⟩
        · have : 0xF0 + c.val / 262144 = 0xC0 + (0x30 + c.val / 262144) := by omega
          rw [this]
          exact lead_and _ (by omega)
        · intro x hx
          simp only [List.mem_cons, List.not_mem_nil, or_false] at hx
          rcases hx with rfl | rfl | rfl <;> exact cont_and _ (by omega)

/-- Offsets of non-continuation bytes. -/
def charStarts (b : Bytes) : List Nat :=
  (List.range b.length).filter (fun i => ((b[i]?).getD 0) &&& 0xC0 ≠ 0x80)

theorem charStarts_append (a b : Bytes) :
    charStarts (a ++ b) = charStarts a ++ (charStarts b).map (a.length + ·) := by
  unfold charStarts
  rw [List.length_append, List.range_add, List.filter_append]
  congr 1
  · apply List.filter_congr
    intro i hi
    rw [List.mem_range] at hi
    rw [List.getElem?_append_left hi]
  · rw [List.filter_map]
    congr 1
    apply List.filter_congr
    intro i _
    simp only [Function.comp]
    rw [List.getElem?_append_right (by omega), Nat.add_sub_cancel_left]

theorem charStarts_encCode (c : Code) : charStarts (encCode c) = [0] := by
  obtain ⟨b, bs, h, hb, hbs⟩ := encCode_shape c
  rw [h]
  unfold charStarts
  rw [List.length_cons, Nat.add_comm, List.range_add, List.filter_append]
  have h1 : List.filter (fun i => decide ((((b :: bs)[i]?).getD 0) &&& 0xC0 ≠ 0x80))
      ((List.range bs.length).map (1 + ·)) = [] := by
    rw [List.filter_eq_nil_iff]
    intro i hi
    simp only [List.mem_map, List.mem_range] at hi
    obtain ⟨k, hk, rfl⟩ := hi
    rw [Nat.add_comm, List.getElem?_cons_succ, List.getElem?_eq_getElem hk]
    simp only [Option.getD_some, decide_eq_true_eq, not_not]
    exact hbs _ (List.getElem_mem hk)
  rw [h1, List.append_nil]
  have : List.range 1 = [0] := rfl
  rw [this, List.filter_cons, if_pos]
  · rfl
  · simpa using hb

/-- `find_utf8_boundaries` finds the byte lengths of all prefixes of the word. -/
theorem findUtf8Boundaries_utf8 (w : PyStr) :
    findUtf8Boundaries (utf8 w) = (List.range (w.length + 1)).map fun k => (utf8 (w.take k)).length := by
  suffices h : charStarts (utf8 w) = (List.range w.length).map fun k => (utf8 (w.take k)).length by
    show charStarts (utf8 w) ++ [(utf8 w).length] = _
    rw [h, List.range_succ, List.map_append]
    simp
  induction w with
  | nil => rfl
  | cons c w ih =>
    show charStarts (encCode c ++ utf8 w) = _
    rw [charStarts_append, charStarts_encCode, ih, List.length_cons, List.range_succ_eq_map]
    simp only [List.map_cons, List.map_map, List.take_zero, List.singleton_append]
    congr 1
    apply List.map_congr_left
    intro k _
    simp only [Function.comp, List.take_succ_cons]
    show _ = (encCode c ++ utf8 (w.take k)).length
    rw [List.length_append]

theorem boundary_at (w : PyStr) (k : Nat) (h : k ≤ w.length) :
    ((findUtf8Boundaries (utf8 w))[k]?).getD 0 = (utf8 (w.take k)).length := by
  rw [findUtf8Boundaries_utf8, List.getElem?_map, List.getElem?_range (by omega)]
  rfl

theorem utf8_slice (w : PyStr) (i j : Nat) :
    ((utf8 w).drop (utf8 (w.take i)).length).take ((utf8 (w.take (i + j))).length -
      (utf8 (w.take i)).length) = utf8 ((w.drop i).take j) := by
  have h1 : w.take (i + j) = w.take i ++ (w.drop i).take j := List.take_add
  have h2 : w = w.take i ++ ((w.drop i).take j ++ w.drop (i + j)) := by
    rw [← List.append_assoc, ← h1, List.take_append_drop]
  rw [h1, utf8_append, List.length_append, Nat.add_sub_cancel_left]
  conv_lhs => rw [h2]
  rw [utf8_append (w.take i), utf8_append ((w.drop i).take j)]
  have h3 : List.take i (List.take i w ++ (List.take j (List.drop i w) ++ List.drop (i + j) w)) =
    List.take i w := by rw [← h2]
  have h4 : List.drop i (List.take i w ++ (List.take j (List.drop i w) ++ List.drop (i + j) w)) =
    List.drop i w := by rw [← h2]
  rw [h3, h4]
  simp

theorem noSurrogate_slice {w : PyStr} (h : w.any isSurrogate = false) (i j : Nat) :
    ((w.drop i).take j).any isSurrogate = false := by
  rw [List.any_eq_false] at h ⊢
  intro x hx
  exact h x (List.mem_of_mem_drop (List.mem_of_mem_take hx))

/-- Hashing a byte range between two detected boundaries hashes the encoded n-gram. -/
theorem ftHash_slice (w : PyStr) (i j : Nat) (h : i + j ≤ w.length) :
    ftHashNgram (utf8 w) (((findUtf8Boundaries (utf8 w))[i]?).getD 0)
      (((findUtf8Boundaries (utf8 w))[i + j]?).getD 0) =
    ftHashNgram (utf8 ((w.drop i).take j)) 0 (utf8 ((w.drop i).take j)).length := by
  rw [boundary_at w i (by omega), boundary_at w (i + j) h]
  have h1 : w.take (i + j) = w.take i ++ (w.drop i).take j := List.take_add
  have h2 : (utf8 (w.take i)).length ≤ (utf8 (w.take (i + j))).length := by
    rw [h1, utf8_append, List.length_append]; omega
  have h3 : (utf8 (w.take (i + j))).length ≤ (utf8 w).length := by
    conv_rhs => rw [← List.take_append_drop (i + j) w, utf8_append]
    rw [List.length_append]; omega
  rw [ftHash_eq _ _ _ h2 h3, ftHash_eq _ _ _ (Nat.zero_le _) (Nat.le_refl _), utf8_slice]
  simp

end FF
