import Verif.Spec.FastTextRef
import Verif.Lemmas.Boundaries
import Verif.Lemmas.HashSpec
import Verif.Lemmas.Index
/-! The n-grams of fastText's own code on encoded words. -/

namespace FF

theorem refCont_iff {b : UInt8} : refCont b = true ↔ b &&& 0xC0 = 0x80 := by simp [refCont]

section
variable (minn maxn bucket : Nat)

/-- What the loops push for the n-gram of `n` characters with bytes `g`. -/
def refPush (n : Nat) (edge : Bool) (g : Bytes) : List Nat :=
  if minn ≤ n ∧ ¬(n = 1 ∧ edge = true) then [refHash g % bucket] else []

variable {minn maxn bucket}

/-- Continuation bytes are collected. -/
theorem refFrom_cont {first : Bool} {n : Nat} (hn : n ≤ maxn) (bs : Bytes) (hbs : ∀ x ∈ bs, refCont x = true) (b : UInt8)
    (g rest : Bytes) (hr : rest.head?.any refCont = false) :
    refFrom minn maxn bucket first n g (b :: (bs ++ rest)) =
      refPush minn bucket n (first || rest.isEmpty) (g ++ b :: bs) ++
        refFrom minn maxn bucket first (n + 1) (g ++ b :: bs) rest := by
  induction bs generalizing b g with
  | nil =>
    rw [List.nil_append, refFrom, if_neg (by omega), if_neg (by simp [hr])]
    unfold refPush
    congr 1
    refine if_congr ?_ rfl rfl
    simp
  | cons c bs ih =>
    rw [List.cons_append, refFrom, if_neg (by omega), if_pos (by simpa using hbs c (by simp)),
      ih (fun x hx => hbs x (List.mem_cons_of_mem _ hx))]
    simp

theorem utf8_head (w : PyStr) : (utf8 w).head?.any refCont = false := by
  cases w with
  | nil => rfl
  | cons c w =>
    obtain ⟨b, bs, h, hb, _⟩ := encCode_shape c
    show (encCode c ++ utf8 w).head?.any refCont = false
    rw [h]
    simpa [refCont] using hb

theorem utf8_isEmpty (w : PyStr) : (utf8 w).isEmpty = w.isEmpty := by
  cases w with
  | nil => rfl
  | cons c w =>
    obtain ⟨b, bs, h, _, _⟩ := encCode_shape c
    show (encCode c ++ utf8 w).isEmpty = _
    rw [h]
    rfl

theorem refFrom_cons {first : Bool} {n : Nat} (hn : n ≤ maxn) (c : Code) (w : PyStr) (g : Bytes) :
    refFrom minn maxn bucket first n g (utf8 (c :: w)) =
      refPush minn bucket n (first || w.isEmpty) (g ++ encCode c) ++
        refFrom minn maxn bucket first (n + 1) (g ++ encCode c) (utf8 w) := by
  obtain ⟨b, bs, h, _, hbs⟩ := encCode_shape c
  show refFrom minn maxn bucket first n g (encCode c ++ utf8 w) = _
  rw [h, List.cons_append, refFrom_cont hn bs (fun x hx => refCont_iff.mpr (hbs x hx)) b g _ (utf8_head w),
    utf8_isEmpty]

theorem refFrom_stop {first : Bool} {n : Nat} (hn : maxn < n) (g bs : Bytes) :
    refFrom minn maxn bucket first n g bs = [] := by
  cases bs with
  | nil => rfl
  | cons b bs => rw [refFrom, if_pos hn]

/-- Lengths of the n-grams that start with the first character of a string of `len` characters. -/
def refLens (minn maxn len : Nat) (first : Bool) : List Nat :=
  (List.range' 1 len).filter fun n => minn ≤ n && n ≤ maxn && !(n == 1 && (first || len == 1))

theorem refFrom_utf8 {first : Bool} (w : PyStr) (n : Nat) (p : PyStr) (hp : p.length + 1 = n) :
    refFrom minn maxn bucket first n (utf8 p) (utf8 w) =
      ((List.range' n w.length).filter fun k =>
        minn ≤ k && k ≤ maxn && !(k == 1 && (first || p.length + w.length == 1))).map
        fun k => refHash (utf8 ((p ++ w).take k)) % bucket := by
  induction w generalizing n p with
  | nil =>
    show refFrom minn maxn bucket first n (utf8 p) [] = _
    rw [refFrom]; rfl
  | cons c w ih =>
    by_cases hn : n ≤ maxn
    · rw [refFrom_cons hn]
      have he : utf8 p ++ encCode c = utf8 (p ++ [c]) := by
        rw [utf8_append]; simp [utf8]
      rw [he, ih (n + 1) (p ++ [c]) (by simp [hp]), List.length_cons, List.range'_succ, List.filter_cons]
      have hl : (p ++ [c]).length + w.length = p.length + (w.length + 1) := by simp; omega
      have ha : p ++ [c] ++ w = p ++ c :: w := by simp
      rw [hl, ha]
      have ht : (p ++ c :: w).take n = p ++ [c] := by
        rw [← hp, List.take_append]
        simp
      unfold refPush
      by_cases h1 : minn ≤ n ∧ ¬(n = 1 ∧ (first || w.isEmpty) = true)
      · rw [if_pos h1, if_pos, List.map_cons, ht]
        · rfl
        · simp only [Bool.and_eq_true, decide_eq_true_eq, Bool.not_eq_true', Bool.and_eq_false_imp, beq_iff_eq]
          refine ⟨⟨h1.1, hn⟩, fun h => ?_⟩
          have h2 : (first || w.isEmpty) = false := by
            rw [← Bool.not_eq_true]
            exact fun h' => h1.2 ⟨h, h'⟩
          rw [Bool.or_eq_false_iff] at h2
          rw [h2.1, Bool.false_or, beq_eq_false_iff_ne]
          have : w ≠ [] := by
            intro hw; rw [hw] at h2; simp at h2
          have := List.length_pos_iff.mpr this
          omega
      · rw [if_neg h1, if_neg]
        · rfl
        · simp only [Bool.and_eq_true, decide_eq_true_eq, Bool.not_eq_true', Bool.and_eq_false_imp, beq_iff_eq]
          rintro ⟨⟨h2, _⟩, h3⟩
          refine h1 ⟨h2, fun ⟨h4, h5⟩ => ?_⟩
          have h6 := h3 h4
          rw [Bool.or_eq_false_iff] at h6
          rw [h6.1, Bool.false_or] at h5
          have hw : w = [] := by simpa using h5
          have hp0 : p.length = 0 := by omega
          simp [hw, hp0] at h6
    · rw [refFrom_stop (by omega)]
      symm
      rw [List.map_eq_nil_iff, List.filter_eq_nil_iff]
      intro k hk
      have := (List.mem_range'_1.mp hk).1
      simp only [Bool.and_eq_true, decide_eq_true_eq]
      omega

theorem refFrom_start (first : Bool) (w : PyStr) :
    refFrom minn maxn bucket first 1 [] (utf8 w) =
      (refLens minn maxn w.length first).map fun k => refHash (utf8 (w.take k)) % bucket := by
  have := refFrom_utf8 (minn := minn) (maxn := maxn) (bucket := bucket) (first := first) w 1 [] rfl
  have hn : utf8 [] = [] := rfl
  rw [hn] at this
  simpa [refLens] using this

theorem refWord_cont (bs : Bytes) (hbs : ∀ x ∈ bs, refCont x = true) (rest : Bytes) :
    refWord minn maxn bucket false (bs ++ rest) = refWord minn maxn bucket false rest := by
  induction bs with
  | nil => rfl
  | cons b bs ih =>
    rw [List.cons_append, refWord, if_pos (hbs b (by simp)), List.nil_append,
      ih fun x hx => hbs x (List.mem_cons_of_mem _ hx)]

theorem refWord_cons (first : Bool) (c : Code) (w : PyStr) :
    refWord minn maxn bucket first (utf8 (c :: w)) =
      refFrom minn maxn bucket first 1 [] (utf8 (c :: w)) ++ refWord minn maxn bucket false (utf8 w) := by
  obtain ⟨b, bs, h, hb, hbs⟩ := encCode_shape c
  have hu : utf8 (c :: w) = b :: (bs ++ utf8 w) := by
    show encCode c ++ utf8 w = _
    rw [h]; rfl
  rw [hu, refWord, if_neg (by rw [refCont_iff]; exact hb),
    refWord_cont bs fun x hx => refCont_iff.mpr (hbs x hx)]

/-- Start and length of the n-grams that fastText uses, in its order. -/
def refOccs (minn maxn len : Nat) (first : Bool) (s : Nat) : List (Nat × Nat) :=
  match len with
  | 0 => []
  | len + 1 => (refLens minn maxn (len + 1) first).map (fun k => (s, k)) ++ refOccs minn maxn len false (s + 1)

theorem refWord_utf8 (first : Bool) (w p : PyStr) :
    refWord minn maxn bucket first (utf8 w) =
      (refOccs minn maxn w.length first p.length).map fun q =>
        refHash (utf8 (((p ++ w).drop q.1).take q.2)) % bucket := by
  induction w generalizing first p with
  | nil =>
    show refWord minn maxn bucket first [] = _
    rw [refWord]; rfl
  | cons c w ih =>
    rw [refWord_cons, refFrom_start, ih false (p ++ [c]), List.length_cons, refOccs, List.map_append, List.map_map]
    congr 1
    · apply List.map_congr_left
      intro k _
      simp
    · simp

theorem mem_refLens {len n : Nat} {first : Bool} :
    n ∈ refLens minn maxn len first ↔
      1 ≤ n ∧ n ≤ len ∧ minn ≤ n ∧ n ≤ maxn ∧ (n = 1 → first = false ∧ len ≠ 1) := by
  unfold refLens
  simp only [List.mem_filter, List.mem_range'_1, Bool.and_eq_true, decide_eq_true_eq, Bool.not_eq_true',
    Bool.and_eq_false_imp, beq_iff_eq, Bool.or_eq_false_iff, beq_eq_false_iff_ne]
  constructor
  · rintro ⟨⟨h1, h2⟩, ⟨h3, h4⟩, h5⟩
    exact ⟨h1, by omega, h3, h4, h5⟩
  · rintro ⟨h1, h2, h3, h4, h5⟩
    exact ⟨⟨h1, by omega⟩, ⟨h3, h4⟩, h5⟩

theorem mem_refOccs {len : Nat} {first : Bool} {s i n : Nat} :
    (i, n) ∈ refOccs minn maxn len first s ↔
      s ≤ i ∧ 1 ≤ n ∧ i + n ≤ s + len ∧ minn ≤ n ∧ n ≤ maxn ∧
        (n = 1 → ¬(i = s ∧ first = true) ∧ i + 1 ≠ s + len) := by
  induction len generalizing first s with
  | zero =>
    rw [refOccs]
    constructor
    · intro h; cases h
    · rintro ⟨h1, h2, h3, -⟩; omega
  | succ len ih =>
    rw [refOccs, List.mem_append, List.mem_map]
    constructor
    · rintro (⟨k, hk, h⟩ | h)
      · cases h
        obtain ⟨h1, h2, h3, h4, h5⟩ := mem_refLens.mp hk
        refine ⟨Nat.le_refl _, h1, by omega, h3, h4, fun h => ?_⟩
        obtain ⟨h6, h7⟩ := h5 h
        exact ⟨by simp [h6], by omega⟩
      · obtain ⟨h1, h2, h3, h4, h5, h6⟩ := ih.mp h
        refine ⟨by omega, h2, by omega, h4, h5, fun h => ?_⟩
        exact ⟨by omega, by have := (h6 h).2; omega⟩
    · rintro ⟨h1, h2, h3, h4, h5, h6⟩
      by_cases hs : i = s
      · left
        refine ⟨n, mem_refLens.mpr ⟨h2, by omega, h4, h5, fun h => ?_⟩, by rw [hs]⟩
        obtain ⟨h7, h8⟩ := h6 h
        refine ⟨?_, by omega⟩
        cases first
        · rfl
        · exact absurd ⟨hs, rfl⟩ h7
      · right
        refine ih.mpr ⟨by omega, h2, by omega, h4, h5, fun h => ?_⟩
        exact ⟨by simp, by have := (h6 h).2; omega⟩

theorem refOccs_nodup (len : Nat) (first : Bool) (s : Nat) : (refOccs minn maxn len first s).Nodup := by
  induction len generalizing first s with
  | zero => exact List.nodup_nil
  | succ len ih =>
    rw [refOccs, List.nodup_append]
    refine ⟨?_, ih _ _, ?_⟩
    · refine List.Nodup.map (fun a b h => by simpa using h) ?_
      exact List.Nodup.filter _ (List.nodup_range' (step := 1))
    · intro a ha b hb
      obtain ⟨k, _, rfl⟩ := List.mem_map.mp ha
      obtain ⟨i, n⟩ := b
      have := (mem_refOccs.mp hb).1
      intro h
      cases h
      omega

end

theorem occs_nodup {len lo hi : Nat} (h0 : 0 < lo) : (occs len lo hi).Nodup :=
  (occs_sorted len lo hi h0).imp fun h he => by subst he; omega

/-- From two characters on the two enumerations have the same members. -/
theorem occs_perm {len lo hi : Nat} (h0 : 2 ≤ lo) : (occs len lo hi).Perm (refOccs lo hi len true 0) := by
  rw [List.perm_ext_iff_of_nodup (occs_nodup (by omega)) (refOccs_nodup _ _ _)]
  rintro ⟨i, n⟩
  rw [mem_occs (by omega), mem_refOccs]
  constructor
  · rintro ⟨h1, h2, h3⟩
    exact ⟨by omega, by omega, by omega, h1, h2, by omega⟩
  · rintro ⟨-, -, h3, h4, h5, -⟩
    exact ⟨h4, h5, by omega⟩

/-- Single characters: fastText leaves the first and the last out. -/
theorem occs_perm_one {len hi : Nat} (hl : 2 ≤ len) (h1 : 1 ≤ hi) :
    (occs len 1 hi).Perm ((0, 1) :: (len - 1, 1) :: refOccs 1 hi len true 0) := by
  rw [List.perm_ext_iff_of_nodup (occs_nodup (by omega))]
  · rintro ⟨i, n⟩
    rw [mem_occs (by omega), List.mem_cons, List.mem_cons, mem_refOccs, Prod.mk.injEq, Prod.mk.injEq]
    constructor
    · rintro ⟨h1, h2, h3⟩
      by_cases hn : n = 1
      · by_cases hi : i = 0
        · exact Or.inl ⟨hi, hn⟩
        · by_cases hi' : i = len - 1
          · exact Or.inr (Or.inl ⟨hi', hn⟩)
          · exact Or.inr (Or.inr ⟨by omega, h1, by omega, h1, h2, fun _ => ⟨by omega, by omega⟩⟩)
      · exact Or.inr (Or.inr ⟨by omega, h1, by omega, h1, h2, fun h => absurd h hn⟩)
    · rintro (⟨rfl, rfl⟩ | ⟨rfl, rfl⟩ | ⟨-, -, h3, h4, h5, -⟩)
      · omega
      · omega
      · exact ⟨h4, h5, by omega⟩
  · rw [List.nodup_cons, List.nodup_cons, List.mem_cons, mem_refOccs, mem_refOccs, Prod.mk.injEq]
    refine ⟨?_, ?_, refOccs_nodup _ _ _⟩
    · rintro (⟨h, -⟩ | ⟨-, -, -, -, -, h⟩)
      · omega
      · exact (h rfl).1 ⟨rfl, rfl⟩
    · rintro ⟨-, -, -, -, -, h⟩
      exact (h rfl).2 (by omega)

end FF
