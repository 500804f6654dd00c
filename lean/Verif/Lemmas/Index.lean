import Verif.Spec.Slice
import Verif.Lemmas.Dict
import Mathlib.Data.List.Forall2
import Mathlib.Data.List.Sort
import Mathlib.Tactic.Linarith
import Mathlib.Tactic.Ring
/-! Lemmas on numpy indexing and slicing. -/

namespace FF

section
variable {α β γ : Type}

theorem mapRes_ok {f : α → Res β} {xs : List α} {ys : List β} :
    mapRes f xs = .ok ys ↔ List.Forall₂ (fun x y => f x = .ok y) xs ys := by
  induction xs generalizing ys with
  | nil =>
    constructor
    · intro h; cases h; exact .nil
    · intro h; cases h; rfl
  | cons x xs ih =>
    unfold mapRes
    cases hf : f x with
    | error e =>
      constructor
      · intro h; cases h
      · intro h; cases h with | cons h1 _ => rw [hf] at h1; cases h1
    | ok y =>
      show (mapRes f xs >>= fun ys => pure (y :: ys)) = .ok ys ↔ _
      cases hm : mapRes f xs with
      | error e =>
        constructor
        · intro h; cases h
        · intro h
          cases h with | cons _ h2 => rw [ih.mpr h2] at hm; cases hm
      | ok zs =>
        constructor
        · intro h; cases h; exact .cons hf (ih.mp hm)
        · intro h
          cases h with
          | cons h1 h2 =>
            rw [hf] at h1; cases h1
            rw [ih.mpr h2] at hm; cases hm; rfl

theorem mapRes_map {f : α → Res β} {g : α → β} {xs : List α} (h : ∀ x ∈ xs, f x = .ok (g x)) :
    mapRes f xs = .ok (xs.map g) := by
  rw [mapRes_ok]
  induction xs with
  | nil => exact .nil
  | cons x xs ih =>
    exact .cons (h x (by simp)) (ih fun y hy => h y (List.mem_cons_of_mem _ hy))

theorem mapRes_length {f : α → Res β} {xs : List α} {ys : List β} (h : mapRes f xs = .ok ys) :
    ys.length = xs.length := (mapRes_ok.mp h).length_eq.symm

theorem mapRes_congr {f g : α → Res β} {xs : List α} (h : ∀ x ∈ xs, f x = g x) :
    mapRes f xs = mapRes g xs := by
  induction xs with
  | nil => rfl
  | cons x xs ih =>
    unfold mapRes
    rw [h x (by simp), ih fun y hy => h y (List.mem_cons_of_mem _ hy)]

theorem mapRes_comp {f : β → Res γ} {g : α → β} {xs : List α} :
    mapRes f (xs.map g) = mapRes (fun x => f (g x)) xs := by
  induction xs with
  | nil => rfl
  | cons x xs ih => simp only [List.map_cons, mapRes, ih]

/-- Which error a loop raises: one of its body. -/
theorem mapRes_err {f : α → Res β} {xs : List α} {e : PyErr} (h : mapRes f xs = .error e) :
    ∃ x ∈ xs, f x = .error e := by
  induction xs with
  | nil => cases h
  | cons x xs ih =>
    unfold mapRes at h
    cases hf : f x with
    | error e' => rw [hf] at h; cases h; exact ⟨x, by simp, hf⟩
    | ok y =>
      rw [hf] at h
      cases hm : mapRes f xs with
      | error e' =>
        have : mapRes f xs = .error e := by
          rw [hm]; change (mapRes f xs >>= fun ys => pure (y :: ys)) = _ at h
          rw [hm] at h; cases h; rfl
        obtain ⟨z, hz, he⟩ := ih this
        exact ⟨z, List.mem_cons_of_mem _ hz, he⟩
      | ok ys =>
        change (mapRes f xs >>= fun ys => pure (y :: ys)) = _ at h
        rw [hm] at h; cases h

theorem npIndex_nat {n i : Nat} (h : i < n) : npIndex n (i : Int) = .ok i := by
  unfold npIndex
  rw [if_pos (by omega)]
  simp

theorem npIndex_ok {n : Nat} {i : Int} {j : Nat} :
    npIndex n i = .ok j ↔ j < n ∧ (i = j ∨ i = j - n) := by
  unfold npIndex
  split
  · constructor
    · intro h; cases h; omega
    · intro h; congr 1; omega
  · split
    · constructor
      · intro h; cases h; omega
      · intro h; congr 1; omega
    · constructor
      · intro h; cases h
      · intro h; omega

theorem npIndex_err {n : Nat} {i : Int} {e : PyErr} (h : npIndex n i = .error e) :
    e = .indexError ∧ ¬(-(n : Int) ≤ i ∧ i < n) := by
  unfold npIndex at h
  split at h
  · cases h
  · split at h
    · cases h
    · cases h; exact ⟨rfl, by omega⟩

theorem npGet_of {xs : List α} {i : Int} {j : Nat} (hi : npIndex xs.length i = .ok j) {x : α}
    (hx : xs[j]? = some x) : npGet xs i = .ok x := by
  unfold npGet
  rw [hi]
  show (match xs[j]? with | some x => pure x | none => Except.error PyErr.indexError) = _
  rw [hx]; rfl

theorem npGet_ok {xs : List α} {i : Int} {x : α} :
    npGet xs i = .ok x ↔ ∃ j, npIndex xs.length i = .ok j ∧ xs[j]? = some x := by
  constructor
  · intro h
    unfold npGet at h
    cases hi : npIndex xs.length i with
    | error e => rw [hi] at h; cases h
    | ok j =>
      rw [hi] at h
      change (match xs[j]? with | some x => pure x | none => Except.error PyErr.indexError) = _ at h
      cases hx : xs[j]? with
      | none => rw [hx] at h; cases h
      | some y => rw [hx] at h; cases h; exact ⟨j, rfl, hx⟩
  · rintro ⟨j, h1, h2⟩; exact npGet_of h1 h2

theorem npGet_nat {xs : List α} {i : Nat} {x : α} : npGet xs (i : Int) = .ok x ↔ xs[i]? = some x := by
  rw [npGet_ok]
  constructor
  · rintro ⟨j, h1, h2⟩
    obtain ⟨hj, h⟩ := npIndex_ok.mp h1
    have : i = j := by omega
    rw [this]; exact h2
  · intro h
    exact ⟨i, npIndex_nat (List.getElem?_eq_some_iff.mp h).1, h⟩

theorem npGet_total {xs : List α} {i : Int} (h : -(xs.length : Int) ≤ i ∧ i < xs.length) :
    ∃ x, npGet xs i = .ok x := by
  cases hi : npIndex xs.length i with
  | error e => exact absurd h (npIndex_err hi).2
  | ok j =>
    have := (npIndex_ok.mp hi).1
    exact ⟨xs[j], npGet_of hi (List.getElem?_eq_getElem this)⟩

theorem npGet_err {xs : List α} {i : Int} {e : PyErr} (h : npGet xs i = .error e) :
    e = .indexError ∧ ¬(-(xs.length : Int) ≤ i ∧ i < xs.length) := by
  by_cases hr : -(xs.length : Int) ≤ i ∧ i < xs.length
  · obtain ⟨x, hx⟩ := npGet_total hr
    rw [hx] at h; cases h
  · refine ⟨?_, hr⟩
    unfold npGet at h
    cases hi : npIndex xs.length i with
    | error e' => rw [hi] at h; cases h; exact (npIndex_err hi).1
    | ok j =>
      have := npIndex_ok.mp hi
      omega

theorem npGet_map {xs : List α} {f : α → β} {i : Int} {x : α} (h : npGet xs i = .ok x) :
    npGet (xs.map f) i = .ok (f x) := by
  obtain ⟨j, h1, h2⟩ := npGet_ok.mp h
  refine npGet_of (j := j) (by rwa [List.length_map]) ?_
  rw [List.getElem?_map, h2]; rfl

theorem npTake_nat {xs : List α} {is : List Nat} (h : ∀ i ∈ is, i < xs.length) :
    ∃ ys, npTake xs (is.map (fun i : Nat => (i : Int))) = .ok ys ∧
      List.Forall₂ (fun i y => xs[i]? = some y) is ys := by
  induction is with
  | nil => exact ⟨[], rfl, .nil⟩
  | cons i is ih =>
    obtain ⟨ys, h1, h2⟩ := ih fun j hj => h j (List.mem_cons_of_mem _ hj)
    have hi := List.getElem?_eq_getElem (h i (by simp))
    refine ⟨xs[i]'(h i (by simp)) :: ys, ?_, .cons hi h2⟩
    unfold npTake at h1 ⊢
    rw [List.map_cons, mapRes, npGet_nat.mpr hi, h1]; rfl

/-! ### Ranges -/

theorem rangeLen_pos {a b st : Int} (h : 0 < st) (k : Nat) :
    k < rangeLen a b st ↔ a + k * st < b := by
  unfold rangeLen
  rw [if_pos h]
  split
  · rename_i hab
    have hnn : 0 ≤ (b - a - 1) / st := Int.ediv_nonneg (by omega) (by omega)
    have : ((k : Int) < (b - a - 1) / st + 1) ↔ (k : Int) * st ≤ b - a - 1 := by
      rw [Int.lt_add_one_iff, Int.le_ediv_iff_mul_le h]
    omega
  · rename_i hab
    constructor
    · intro h; omega
    · intro h'
      have : 0 ≤ (k : Int) * st := by positivity
      omega

theorem rangeLen_neg {a b st : Int} (h : st < 0) (k : Nat) :
    k < rangeLen a b st ↔ b < a + k * st := by
  unfold rangeLen
  rw [if_neg (by omega)]
  split
  · rename_i hab
    have hnn : 0 ≤ (a - b - 1) / (-st) := Int.ediv_nonneg (by omega) (by omega)
    have h1 : ((k : Int) < (a - b - 1) / (-st) + 1) ↔ (k : Int) * (-st) ≤ a - b - 1 := by
      rw [Int.lt_add_one_iff, Int.le_ediv_iff_mul_le (by omega)]
    have h2 : (k : Int) * (-st) = -((k : Int) * st) := by ring
    rw [h2] at h1
    omega
  · rename_i hab
    constructor
    · intro h; omega
    · intro h'
      have : 0 ≤ (k : Int) * (-st) := mul_nonneg (by omega) (by omega)
      have h2 : (k : Int) * (-st) = -((k : Int) * st) := by ring
      omega

theorem mem_pyRange_pos {a b st : Int} (h : 0 < st) (x : Int) :
    x ∈ pyRange a b st ↔ a ≤ x ∧ x < b ∧ st ∣ x - a := by
  unfold pyRange
  simp only [List.mem_map, List.mem_range, rangeLen_pos h]
  constructor
  · rintro ⟨k, hk, rfl⟩
    have : 0 ≤ (k : Int) * st := by positivity
    exact ⟨by omega, hk, ⟨k, by ring⟩⟩
  · rintro ⟨h1, h2, c, hc⟩
    have hc0 : 0 ≤ c := by
      by_contra hn
      have : st * c < 0 := mul_neg_of_pos_of_neg h (by omega)
      omega
    refine ⟨c.toNat, ?_, ?_⟩ <;> rw [Int.toNat_of_nonneg hc0, mul_comm] <;> omega

theorem mem_pyRange_neg {a b st : Int} (h : st < 0) (x : Int) :
    x ∈ pyRange a b st ↔ x ≤ a ∧ b < x ∧ st ∣ a - x := by
  unfold pyRange
  simp only [List.mem_map, List.mem_range, rangeLen_neg h]
  constructor
  · rintro ⟨k, hk, rfl⟩
    have : 0 ≤ (k : Int) * (-st) := mul_nonneg (by omega) (by omega)
    have h2 : (k : Int) * (-st) = -((k : Int) * st) := by ring
    exact ⟨by omega, hk, ⟨-k, by ring⟩⟩
  · rintro ⟨h1, h2, c, hc⟩
    have hc0 : c ≤ 0 := by
      by_contra hn
      have : st * c < 0 := mul_neg_of_neg_of_pos h (by omega)
      omega
    refine ⟨(-c).toNat, ?_, ?_⟩ <;> rw [Int.toNat_of_nonneg (by omega)] <;>
      rw [show -c * st = -(st * c) by ring] <;> omega

theorem pyRange_sorted_pos {a b st : Int} (h : 0 < st) : (pyRange a b st).Pairwise (· < ·) := by
  unfold pyRange
  rw [List.pairwise_map]
  refine List.Pairwise.imp ?_ List.pairwise_lt_range
  intro i j hij
  have : (i : Int) * st < j * st := mul_lt_mul_of_pos_right (by omega) h
  omega

theorem pyRange_sorted_neg {a b st : Int} (h : st < 0) : (pyRange a b st).Pairwise (· > ·) := by
  unfold pyRange
  rw [List.pairwise_map]
  refine List.Pairwise.imp ?_ List.pairwise_lt_range
  intro i j hij
  have : (i : Int) * (-st) < j * (-st) := mul_lt_mul_of_pos_right (by omega) (by omega)
  have h1 : (i : Int) * (-st) = -((i : Int) * st) := by ring
  have h2 : (j : Int) * (-st) = -((j : Int) * st) := by ring
  omega

/-! ### Slices -/

/-- The positions selected by a slice. -/
def slicePos (n : Nat) (s : PySlice) : Res (List Nat) := do
  let (start, stop, step) ← s.indices n
  return (pyRange start stop step).map Int.toNat

theorem slice_indices_ok {s : PySlice} {n : Nat} {p : Int × Int × Int}
    (h : s.indices n = .ok p) : ∀ x ∈ pyRange p.1 p.2.1 p.2.2, 0 ≤ x ∧ x < n := by
  unfold PySlice.indices at h
  simp only at h
  split at h
  · cases h
  · rename_i hst
    cases h
    intro x hx
    simp only at hx
    by_cases hp : 0 < s.step.getD 1
    · rw [mem_pyRange_pos hp] at hx
      rw [if_neg (show ¬ s.step.getD 1 < 0 by omega),
        if_neg (show ¬ s.step.getD 1 < 0 by omega)] at hx
      obtain ⟨h1, h2, _⟩ := hx
      cases hs : s.start <;> cases ht : s.stop <;> rw [hs] at h1 <;> rw [ht] at h2 <;>
        simp only [if_neg (show ¬ s.step.getD 1 < 0 by omega), clampBound] at h1 h2 <;>
        omega
    · have hn : s.step.getD 1 < 0 := by omega
      rw [mem_pyRange_neg hn] at hx
      rw [if_pos hn, if_pos hn] at hx
      obtain ⟨h1, h2, _⟩ := hx
      cases hs : s.start <;> cases ht : s.stop <;> rw [hs] at h1 <;> rw [ht] at h2 <;>
        simp only [if_pos hn, clampBound] at h1 h2 <;>
        omega

theorem slicePos_lt {s : PySlice} {n : Nat} {is : List Nat} (h : slicePos n s = .ok is) :
    ∀ i ∈ is, i < n := by
  unfold slicePos at h
  cases hi : s.indices n with
  | error e => rw [hi] at h; cases h
  | ok p =>
    rw [hi] at h
    cases h
    intro i hm
    obtain ⟨x, hx, rfl⟩ := List.mem_map.mp hm
    have := slice_indices_ok hi x hx
    omega

/-- Slicing a list is selecting the positions. -/
theorem npSlice_eq (xs : List α) (s : PySlice) :
    npSlice xs s = (do
      let is ← slicePos xs.length s
      npTake xs (is.map (fun i : Nat => (i : Int)))) := by
  unfold npSlice slicePos
  cases hi : s.indices xs.length with
  | error e => rfl
  | ok p =>
    show mapRes _ (pyRange p.1 p.2.1 p.2.2) = mapRes (npGet xs) _
    rw [List.map_map, mapRes_comp]
    refine mapRes_congr fun x hx => ?_
    have hr := slice_indices_ok hi x hx
    have hx' : x.toNat < xs.length := by omega
    rw [List.getElem?_eq_getElem hx']
    exact (npGet_nat.mpr (List.getElem?_eq_getElem hx')).symm

theorem npSlice_ok {xs ys : List α} {s : PySlice} :
    npSlice xs s = .ok ys ↔ ∃ is, slicePos xs.length s = .ok is ∧
      List.Forall₂ (fun i y => xs[i]? = some y) is ys := by
  rw [npSlice_eq]
  cases hp : slicePos xs.length s with
  | error e =>
    constructor
    · intro h; cases h
    · rintro ⟨_, h, _⟩; cases h
  | ok is =>
    show npTake xs _ = .ok ys ↔ _
    unfold npTake
    rw [mapRes_ok, List.forall₂_map_left_iff]
    constructor
    · intro h; exact ⟨is, rfl, h.imp fun _ _ h' => npGet_nat.mp h'⟩
    · rintro ⟨_, h1, h2⟩; cases h1; exact h2.imp fun _ _ h' => npGet_nat.mpr h'

theorem slicePos_err {n : Nat} {s : PySlice} {e : PyErr} :
    slicePos n s = .error e ↔ e = .valueError ∧ s.step = some 0 := by
  unfold slicePos PySlice.indices
  simp only
  by_cases h : s.step.getD 1 = 0
  · rw [if_pos h]
    have : s.step = some 0 := by
      cases hs : s.step with
      | none => rw [hs] at h; cases h
      | some x => rw [hs] at h; congr
    constructor
    · intro h'; cases h'; exact ⟨rfl, this⟩
    · rintro ⟨rfl, _⟩; rfl
  · rw [if_neg h]
    constructor
    · intro h'; cases h'
    · rintro ⟨_, h'⟩; rw [h'] at h; exact absurd rfl h

theorem npSlice_total {xs : List α} {s : PySlice} (h : s.step ≠ some 0) :
    ∃ ys, npSlice xs s = .ok ys := by
  cases hp : slicePos xs.length s with
  | error e => exact absurd (slicePos_err.mp hp).2 h
  | ok is =>
    obtain ⟨ys, h1, h2⟩ := npTake_nat (slicePos_lt hp)
    exact ⟨ys, npSlice_ok.mpr ⟨is, hp, h2⟩⟩

/-- The positions are those of the specification. -/
theorem slicePos_sel {n : Nat} {s : PySlice} {is : List Nat} (h : slicePos n s = .ok is) :
    SliceSel n s is := by
  have hlt := slicePos_lt h
  unfold slicePos PySlice.indices at h
  simp only at h
  by_cases h0 : s.step.getD 1 = 0
  · rw [if_pos h0] at h; cases h
  · rw [if_neg h0] at h
    have hmem : ∀ a b st : Int, (∀ x ∈ pyRange a b st, 0 ≤ x) → ∀ x : Nat,
        x ∈ (pyRange a b st).map Int.toNat ↔ (x : Int) ∈ pyRange a b st := by
      intro a b st hp x
      rw [List.mem_map]
      constructor
      · rintro ⟨y, hy, rfl⟩; have := hp y hy; rwa [Int.toNat_of_nonneg this]
      · intro hx; exact ⟨x, hx, by simp⟩
    have hpos : ∀ p, s.indices n = .ok p → ∀ x ∈ pyRange p.1 p.2.1 p.2.2, 0 ≤ x :=
      fun p hp x hx => (slice_indices_ok hp x hx).1
    unfold PySlice.indices at hpos
    simp only [if_neg h0] at hpos
    have hpos := hpos _ rfl
    cases h
    unfold SliceSel
    by_cases hp : 0 < s.step.getD 1
    · left
      have hnn : ¬ s.step.getD 1 < 0 := by omega
      simp only [if_neg hnn] at hpos hlt ⊢
      refine ⟨hp, ?_, _, rfl, ?_⟩
      · rw [List.pairwise_map]
        refine List.Pairwise.imp_of_mem ?_ (pyRange_sorted_pos hp)
        intro a b ha hb hab
        have := hpos a ha
        have := hpos b hb
        omega
      · intro x
        rw [hmem _ _ _ hpos, mem_pyRange_pos hp]
        cases hs : s.start <;> cases ht : s.stop <;>
          simp only [clampBound, wrapBound, Option.map_none, Option.map_some, Option.getD_none,
            Option.getD_some, reduceCtorEq, false_implies, implies_true, true_and,
            Option.some.injEq, forall_eq'] <;>
          (try simp only [max_self])
        · omega
        · rename_i b
          constructor
          · rintro ⟨h1, h2, h3⟩
            refine ⟨?_, h1, ?_, h3⟩ <;> split at h2 <;> (try split) <;> omega
          · rintro ⟨h1, h2, h3, h4⟩
            refine ⟨h2, ?_, h4⟩
            split at h3 <;> split <;> omega
        · rename_i b
          have e : (x : Int) < n → (if b < 0 then max (b + n) 0 else min b (n : Int)) ≤ x →
            (if b < 0 then max (b + n) 0 else min b (n : Int)) = max 0 (if b < 0 then n + b else b)
            := by intro h1 h2; split at h2 <;> split <;> omega
          have e' : (x : Int) < n → max 0 (if b < 0 then n + b else b) ≤ (x : Int) →
            (if b < 0 then max (b + n) 0 else min b (n : Int)) = max 0 (if b < 0 then n + b else b)
            := by intro h1 h2; split at h2 <;> split <;> omega
          constructor
          · rintro ⟨h1, h2, h3⟩
            have := e h2 h1
            rw [this] at h1 h3
            exact ⟨by omega, h1, h3⟩
          · rintro ⟨h1, h2, h3⟩
            rw [e' (by omega) h2]
            exact ⟨h2, by omega, h3⟩
        · rename_i b c
          have e : (x : Int) < n → (if b < 0 then max (b + n) 0 else min b (n : Int)) ≤ x →
            (if b < 0 then max (b + n) 0 else min b (n : Int)) = max 0 (if b < 0 then n + b else b)
            := by intro h1 h2; split at h2 <;> split <;> omega
          have e' : (x : Int) < n → max 0 (if b < 0 then n + b else b) ≤ (x : Int) →
            (if b < 0 then max (b + n) 0 else min b (n : Int)) = max 0 (if b < 0 then n + b else b)
            := by intro h1 h2; split at h2 <;> split <;> omega
          constructor
          · rintro ⟨h1, h2, h3⟩
            have hxn : (x : Int) < n := by split at h2 <;> split at h1 <;> omega
            have := e hxn h1
            rw [this] at h1 h3
            refine ⟨by omega, h1, ?_, h3⟩
            split at h2 <;> split <;> omega
          · rintro ⟨h1, h2, h3, h4⟩
            rw [e' (by omega) h2]
            refine ⟨h2, ?_, h4⟩
            split at h3 <;> split <;> omega
    · right
      have hn : s.step.getD 1 < 0 := by omega
      simp only [if_pos hn] at hpos hlt ⊢
      refine ⟨hn, ?_, _, rfl, ?_⟩
      · rw [List.pairwise_map]
        refine List.Pairwise.imp_of_mem ?_ (pyRange_sorted_neg hn)
        intro a b ha hb hab
        have := hpos a ha
        have := hpos b hb
        show b.toNat < a.toNat
        omega
      · intro x
        rw [hmem _ _ _ hpos, mem_pyRange_neg hn]
        cases hs : s.start <;> cases ht : s.stop <;>
          simp only [clampBound, wrapBound, Option.map_none, Option.map_some, Option.getD_none,
            Option.getD_some, reduceCtorEq, false_implies, implies_true, true_and,
            Option.some.injEq, forall_eq', min_self]
        · omega
        · rename_i b
          constructor
          · rintro ⟨h1, h2, h3⟩
            refine ⟨by omega, h1, ?_, h3⟩; split at h2 <;> split <;> omega
          · rintro ⟨h1, h2, h3, h4⟩
            refine ⟨h2, ?_, h4⟩
            split at h3 <;> split <;> omega
        · rename_i b
          have e : (x : Int) ≤ (if b < 0 then max (b + n) (-1) else min b ((n : Int) - 1)) →
            (if b < 0 then max (b + n) (-1) else min b ((n : Int) - 1)) =
              min ((n : Int) - 1) (if b < 0 then n + b else b)
            := by intro h2; split at h2 <;> split <;> omega
          have e' : (x : Int) ≤ min ((n : Int) - 1) (if b < 0 then n + b else b) →
            (if b < 0 then max (b + n) (-1) else min b ((n : Int) - 1)) =
              min ((n : Int) - 1) (if b < 0 then n + b else b)
            := by intro h2; split at h2 <;> split <;> omega
          constructor
          · rintro ⟨h1, h2, h3⟩
            have := e h1
            rw [this] at h1 h3
            exact ⟨by omega, h1, h3⟩
          · rintro ⟨h1, h2, h3⟩
            rw [e' h2]
            exact ⟨h2, by omega, h3⟩
        · rename_i b c
          have e : (x : Int) ≤ (if b < 0 then max (b + n) (-1) else min b ((n : Int) - 1)) →
            (if b < 0 then max (b + n) (-1) else min b ((n : Int) - 1)) =
              min ((n : Int) - 1) (if b < 0 then n + b else b)
            := by intro h2; split at h2 <;> split <;> omega
          have e' : (x : Int) ≤ min ((n : Int) - 1) (if b < 0 then n + b else b) →
            (if b < 0 then max (b + n) (-1) else min b ((n : Int) - 1)) =
              min ((n : Int) - 1) (if b < 0 then n + b else b)
            := by intro h2; split at h2 <;> split <;> omega
          constructor
          · rintro ⟨h1, h2, h3⟩
            have := e h1
            rw [this] at h1 h3
            refine ⟨by omega, h1, ?_, h3⟩
            split at h2 <;> split <;> omega
          · rintro ⟨h1, h2, h3, h4⟩
            rw [e' h2]
            refine ⟨h2, ?_, h4⟩
            split at h3 <;> split <;> omega

end

end FF
