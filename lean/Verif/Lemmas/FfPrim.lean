import Verif.Lemmas.FtLayout
import Verif.Lemmas.MmapEmpty
import Verif.Spec.FfFile
/-! What a successful read says about the bytes of the file: readers of primitive values. -/

namespace FF
open Fifu (HasAt Pad)

variable {α β : Type}

/-! ### The encodings of the spec are those of the model -/

theorem uint_eq : Fifu.uint = le := by
  funext w
  induction w with
  | zero => funext n; rfl
  | succ w ih =>
    funext n
    have := congrFun ih (n / 256)
    unfold Fifu.uint at *
    rw [List.range_succ_eq_map, List.map_cons, List.map_map]
    unfold le
    rw [← this]
    congr 1
    · simp
    · apply List.map_congr_left
      intro i _
      simp only [Function.comp]
      rw [Nat.div_div_eq_div_mul, Nat.succ_eq_add_one, Nat.pow_succ, Nat.mul_comm]

theorem floats_eq (xs : List F32) : Fifu.floats xs = f32sLE xs := by
  induction xs with
  | nil => rfl
  | cons x xs ih =>
    unfold Fifu.floats at *
    rw [List.flatMap_cons, ih, uint_eq]
    rfl

theorem str_eq (w : PyStr) : Fifu.str w = le 4 (utf8 w).length ++ utf8 w := by
  unfold Fifu.str; rw [uint_eq]

/-! ### Positions -/

theorem hasAt_append {bs a b : Bytes} {p : Nat} :
    HasAt bs p (a ++ b) ↔ HasAt bs p a ∧ HasAt bs (p + a.length) b := by
  unfold HasAt
  constructor
  · rintro ⟨r, h⟩
    refine ⟨⟨b ++ r, by rw [← h, List.append_assoc]⟩, ⟨r, ?_⟩⟩
    rw [← List.drop_drop, ← h, List.append_assoc, List.drop_left]
  · rintro ⟨⟨r, h⟩, ⟨r', h'⟩⟩
    refine ⟨r', ?_⟩
    rw [← List.drop_drop, ← h, List.drop_left] at h'
    rw [← h, ← h', List.append_assoc]

theorem hasAt_nil {bs : Bytes} {p : Nat} : HasAt bs p [] := List.nil_prefix

theorem hasAt_le {bs a : Bytes} {p : Nat} (h : HasAt bs p a) (h0 : a ≠ []) :
    p + a.length ≤ bs.length := by
  have h1 := List.IsPrefix.length_le h
  rw [List.length_drop] at h1
  have : 0 < a.length := List.length_pos_of_ne_nil h0
  omega

theorem hasAt_take {bs a : Bytes} {p : Nat} (h : HasAt bs p a) :
    (bs.drop p).take a.length = a := (List.prefix_iff_eq_take.mp h).symm

theorem hasAt_of_take {bs : Bytes} {p n : Nat} : HasAt bs p ((bs.drop p).take n) :=
  List.take_prefix _ _

/-! ### Readers -/

theorem rd_bind_iff {m : Rd α} {f : α → Rd β} {s s'' : RFile} {b : β} :
    (m >>= f) s = .ok (b, s'') ↔ ∃ a s', m s = .ok (a, s') ∧ f a s' = .ok (b, s'') := by
  constructor
  · exact rd_bind_inv
  · rintro ⟨a, s', h1, h2⟩
    rw [rd_bind_ok h1, h2]

theorem rd_pure_iff {a b : α} {s s' : RFile} :
    (pure a : Rd α) s = .ok (b, s') ↔ b = a ∧ s' = s := by
  constructor
  · intro h; cases h; exact ⟨rfl, rfl⟩
  · rintro ⟨rfl, rfl⟩; rfl

theorem rd_fail_iff {e : PyErr} {a : α} {s s' : RFile} :
    (Rd.fail e : Rd α) s = .ok (a, s') ↔ False := by
  constructor
  · intro h; cases h
  · exact False.elim

theorem rd_lift_iff {r : Res α} {a : α} {s s' : RFile} :
    Rd.lift r s = .ok (a, s') ↔ r = .ok a ∧ s' = s := by
  constructor
  · exact rd_lift_inv
  · rintro ⟨rfl, rfl⟩; rfl

theorem rd_tell_iff {n : Nat} {s s' : RFile} :
    tell s = .ok (n, s') ↔ n = s.pos ∧ s' = s := by
  constructor
  · intro h; cases h; exact ⟨rfl, rfl⟩
  · rintro ⟨rfl, rfl⟩; rfl

theorem rd_run_iff {m : Rd α} {bs : Bytes} {a : α} :
    Rd.run m bs = .ok a ↔ ∃ s', m ⟨bs, 0⟩ = .ok (a, s') := by
  constructor
  · intro h; obtain ⟨s', h⟩ := rd_run_ok h; exact ⟨s', h⟩
  · rintro ⟨s', h⟩; exact rd_run_of h

theorem readOne_iff {w n p : Nat} {bs : Bytes} {s' : RFile} (h0 : 0 < w) (hw : w < maxSize) :
    readOne w ⟨bs, p⟩ = .ok (n, s') ↔
      n < 256 ^ w ∧ HasAt bs p (le w n) ∧ s' = ⟨bs, p + w⟩ := by
  rw [readOne_eq w _ h0 hw]
  constructor
  · intro h
    split at h
    next hl =>
      simp only at hl
      cases h
      have hlen : ((bs.drop p).take w).length = w := by
        rw [List.length_take, List.length_drop]; omega
      refine ⟨?_, ?_, rfl⟩
      · have := unle_lt ((bs.drop p).take w)
        rwa [hlen] at this
      · have := le_unle ((bs.drop p).take w)
        rw [hlen] at this
        rw [this]
        exact hasAt_of_take
    · cases h
  · rintro ⟨h1, h2, rfl⟩
    have hn : le w n ≠ [] := by
      intro h
      have := congrArg List.length h
      simp at this
      omega
    have := hasAt_le h2 hn
    rw [length_le] at this
    have ht := hasAt_take h2
    rw [length_le] at ht
    rw [if_pos this, ht, unle_le w n h1]

theorem length_unpack (ws : List Nat) (bs : Bytes) : (unpack ws bs).length = ws.length := by
  induction ws generalizing bs with
  | nil => rfl
  | cons w ws ih => simp [unpack, ih]

theorem readRequired_iff {ws vs : List Nat} {p : Nat} {bs : Bytes} {s' : RFile}
    (h0 : calcsize ws ≠ 0) (hw : calcsize ws < maxSize) :
    readRequired ws ⟨bs, p⟩ = .ok (vs, s') ↔
      vs.length = ws.length ∧ (∀ f ∈ ws.zip vs, f.2 < 256 ^ f.1) ∧
      HasAt bs p (packRaw (ws.zip vs)) ∧ s' = ⟨bs, p + calcsize ws⟩ := by
  rw [readRequired_eq ws _ hw]
  constructor
  · intro h
    split at h
    next hl =>
      simp only at hl
      cases h
      have hlen : ((bs.drop p).take (calcsize ws)).length = calcsize ws := by
        rw [List.length_take, List.length_drop]; omega
      refine ⟨length_unpack _ _, unpack_lt _ _, ?_, rfl⟩
      rw [packRaw_unpack _ _ hlen]
      exact hasAt_of_take
    · cases h
  · rintro ⟨h1, h2, h3, rfl⟩
    have hlen : (packRaw (ws.zip vs)).length = calcsize ws := by
      rw [length_packRaw, List.map_fst_zip (by omega)]
    have hn : packRaw (ws.zip vs) ≠ [] := by
      intro h
      have := congrArg List.length h
      rw [hlen] at this
      exact h0 this
    have := hasAt_le h3 hn
    rw [hlen] at this
    have ht := hasAt_take h3
    rw [hlen] at ht
    rw [if_pos ⟨h0, this⟩, ht]
    have := unpack_packRaw (ws.zip vs) h2
    rw [List.map_fst_zip (by omega), List.map_snd_zip (by omega)] at this
    rw [this]

theorem seekCur_iff {n p : Nat} {bs : Bytes} {s' : RFile} {u : Unit} :
    seekCur n ⟨bs, p⟩ = .ok (u, s') ↔ p + n < maxSize ∧ s' = ⟨bs, p + n⟩ := by
  constructor
  · intro h
    obtain ⟨_, h2, h3⟩ := seekCur_inv h
    exact ⟨h2, h3⟩
  · rintro ⟨h, rfl⟩
    exact seekCur_ok h

theorem f32sOf_small (r : Bytes) (h : r.length < 4) : f32sOf r = [] := by
  have := length_f32sOf r
  exact List.length_eq_zero_iff.mp (by omega)

theorem f32sOf_take4 (l : Bytes) : f32sOf l = f32sOf (l.take (4 * (l.length / 4))) := by
  have hl : (l.take (4 * (l.length / 4))).length = 4 * (l.length / 4) := by
    rw [List.length_take]; omega
  conv_lhs => rw [← List.take_append_drop (4 * (l.length / 4)) l]
  rw [← f32sLE_f32sOf (l.take (4 * (l.length / 4))) (by omega), f32sOf_append, f32sOf_f32sLE,
    f32sOf_small (l.drop (4 * (l.length / 4))) (by rw [List.length_drop]; omega), List.append_nil]

theorem f32_hasAt_of {bs : Bytes} {p n : Nat} (h : n = 0 ∨ p + 4 * n ≤ bs.length) :
    (f32sOf ((bs.drop p).take (4 * n))).length = n ∧
      HasAt bs p (f32sLE (f32sOf ((bs.drop p).take (4 * n)))) := by
  have hl : ((bs.drop p).take (4 * n)).length = 4 * n := by
    rw [List.length_take, List.length_drop]; omega
  refine ⟨by rw [length_f32sOf, hl]; omega, ?_⟩
  rw [f32sLE_f32sOf _ (by omega)]
  exact hasAt_of_take

/-- All requested floats were there. -/
theorem fromFileF32_iff {n p : Nat} {bs : Bytes} {xs : List F32} {s' : RFile} (hx : xs.length = n) :
    fromFileF32 n ⟨bs, p⟩ = .ok (xs, s') ↔
      4 * n < maxSize ∧ HasAt bs p (f32sLE xs) ∧ s' = ⟨bs, p + 4 * n⟩ := by
  unfold fromFileF32
  simp only
  constructor
  · intro h
    split at h
    next hn =>
      split at h
      next hl =>
        rw [List.length_drop] at hl
        cases h
        exact ⟨hn, (f32_hasAt_of (by omega)).2, rfl⟩
      next hl =>
        cases h
        rw [length_f32sOf] at hx
        omega
    · split at h <;> cases h
  · rintro ⟨h1, h2, rfl⟩
    rw [if_pos h1]
    have hlen : (f32sLE xs).length = 4 * n := by rw [length_f32sLE, hx]
    have hl : 4 * n ≤ (bs.drop p).length := by
      rw [← hlen]; exact List.IsPrefix.length_le h2
    rw [if_pos hl, ← hlen, hasAt_take h2, f32sOf_f32sLE]

/-- Fewer floats than requested. -/
theorem fromFileF32_short_iff {n p : Nat} {bs : Bytes} {xs : List F32} {s' : RFile}
    (hx : xs.length ≠ n) :
    fromFileF32 n ⟨bs, p⟩ = .ok (xs, s') ↔
      4 * n < maxSize ∧ xs.length < n ∧ HasAt bs p (f32sLE xs) ∧ bs.length < p + 4 * xs.length + 4 ∧
        s' = ⟨bs, max p bs.length⟩ := by
  unfold fromFileF32
  simp only
  constructor
  · intro h
    split at h
    next hn =>
      split at h
      next hl =>
        cases h
        rw [length_f32sOf, List.length_take] at hx
        omega
      next hl =>
        cases h
        rw [length_f32sOf, List.length_drop]
        rw [List.length_drop] at hl
        refine ⟨hn, by omega, ?_, by omega, rfl⟩
        have h1 := (f32_hasAt_of (bs := bs) (p := p) (n := (bs.length - p) / 4) (by omega)).2
        have h2 := f32sOf_take4 (bs.drop p)
        rw [List.length_drop] at h2
        rwa [← h2] at h1
    · split at h <;> cases h
  · rintro ⟨h1, h2, h3, h4, rfl⟩
    have hle := List.IsPrefix.length_le h3
    rw [length_f32sLE, List.length_drop] at hle
    rw [if_pos h1, if_neg (by rw [List.length_drop]; omega)]
    congr 2
    obtain ⟨r, hr⟩ := h3
    have hrl : r.length < 4 := by
      have := congrArg List.length hr
      rw [List.length_append, length_f32sLE, List.length_drop] at this
      omega
    rw [← hr, f32sOf_append, f32sOf_small r hrl, List.append_nil]

end FF
