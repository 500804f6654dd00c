import Verif.Lemmas.FloatText
/-!
# The shortest digits of a float
-/

namespace FF

namespace B32

/-- The distance to the preceding and to the following float -/
theorem mag_gap {n : Nat} (hn : 0 < n) :
    mag n ≤ 2 ^ 24 * (mag n - mag (n - 1)) ∧ mag n ≤ 2 ^ 24 * (mag (n + 1) - mag n) := by
  constructor
  · obtain ⟨j, h, hjh, h1, h2⟩ := pattern (n - 1)
    have e1 : mag (n - 1) = h * 2 ^ j := by rw [hjh, mag_pattern h1 h2]
    have e2 : mag n = (h + 1) * 2 ^ j := by
      have : n = j * 2 ^ 23 + (h + 1) := by omega
      rw [this, mag_mk (q := h + 1) h1 (fun hj => (h2 hj).trans (Nat.le_succ _))]
    have e3 : mag n - mag (n - 1) = 2 ^ j := by
      rw [e1, e2, ← Nat.sub_mul]
      simp
    rw [e3, e2]
    exact Nat.mul_le_mul_right _ h1
  · obtain ⟨j, h, rfl, h1, h2⟩ := pattern n
    have e3 : mag (j * 2 ^ 23 + h + 1) - mag (j * 2 ^ 23 + h) = 2 ^ j := by
      rw [Nat.add_assoc, mag_mk (q := h + 1) h1 (fun hj => (h2 hj).trans (Nat.le_succ _)), mag_pattern h1 h2,
        ← Nat.sub_mul]
      simp
    rw [e3, mag_pattern h1 h2]
    exact Nat.mul_le_mul_right _ h1.le

theorem mid_sub {n : Nat} (hn : 0 < n) :
    mid (n - 1) + (mag n - mag (n - 1)) = 2 * mag n ∧ mid n = 2 * mag n + (mag (n + 1) - mag n) := by
  have h1 := mag_strictMono (show n - 1 < n by omega)
  have h2 := mag_strictMono (Nat.lt_succ_self n)
  have e : mid (n - 1) = mag (n - 1) + mag n := by
    unfold mid
    rw [Nat.sub_add_cancel hn]
  have e' : mid n = mag n + mag (n + 1) := rfl
  simp only [Nat.succ_eq_add_one] at h2
  omega

theorem places_aux {m T S : Nat} (h0 : m * T / S ≠ 0) (hS : 0 < S) :
    10 ^ Nat.log 10 (m * T / S) * (2 * S) ≤ 2 * m * T ∧
      2 * m * T < 10 ^ (Nat.log 10 (m * T / S) + 1) * (2 * S) := by
  have h1 := (Nat.le_div_iff_mul_le hS).mp (Nat.pow_log_le_self 10 h0)
  have h2 := (Nat.div_lt_iff_lt_mul hS).mp (Nat.lt_pow_succ_log_self (b := 10) (by norm_num) (m * T / S))
  constructor
  · calc _ = 2 * (10 ^ Nat.log 10 (m * T / S) * S) := by ring
      _ ≤ 2 * (m * T) := Nat.mul_le_mul_left 2 h1
      _ = _ := by ring
  · calc 2 * m * T = 2 * (m * T) := by ring
      _ < 2 * (10 ^ (Nat.log 10 (m * T / S)).succ * S) := Nat.mul_lt_mul_of_pos_left h2 (by norm_num)
      _ = _ := by rw [Nat.succ_eq_add_one]; ring

theorem log_bounds {x : Nat} (h3 : 10 ^ 9 ≤ x) (h4 : x < 10 ^ 93) : x ≠ 0 ∧ 9 ≤ Nat.log 10 x ∧ Nat.log 10 x < 93 := by
  have h0 : x ≠ 0 := by
    rintro rfl
    norm_num at h3
  exact ⟨h0, Nat.le_log_of_pow_le (by norm_num) h3, Nat.log_lt_of_lt_pow h0 h4⟩

theorem mag_bounds {n : Nat} (hn : 0 < n) (hi : n < inf) :
    10 ^ 9 ≤ mag n * 10 ^ 54 / 2 ^ 149 ∧ mag n * 10 ^ 54 / 2 ^ 149 < 10 ^ 93 := by
  constructor
  · have h1 : 1 ≤ mag n := by
      have := mag_strictMono hn
      omega
    refine le_trans (?_ : 10 ^ 9 ≤ 1 * 10 ^ 54 / 2 ^ 149) (Nat.div_le_div_right (Nat.mul_le_mul_right _ h1))
    decide +kernel
  · have h2 : mag n ≤ mag inf := (mag_strictMono hi).le
    refine lt_of_le_of_lt (Nat.div_le_div_right (Nat.mul_le_mul_right _ h2)) ?_
    decide +kernel

theorem places_spec {n : Nat} (hn : 0 < n) (hi : n < inf) :
    10 ≤ places n ∧ places n ≤ 93 ∧ 10 ^ (places n - 1) * 2 ^ 150 ≤ 2 * mag n * 10 ^ 54 ∧
      2 * mag n * 10 ^ 54 < 10 ^ places n * 2 ^ 150 := by
  obtain ⟨h3, h4⟩ := mag_bounds hn hi
  obtain ⟨h0, h7, h8⟩ := log_bounds h3 h4
  obtain ⟨h5, h6⟩ := places_aux (S := 2 ^ 149) h0 (by positivity)
  have e : 2 ^ 150 = 2 * 2 ^ 149 := by norm_num
  unfold places
  rw [e, Nat.add_sub_cancel]
  exact ⟨Nat.succ_le_succ h7, h8, h5, h6⟩

/-- What the step for the `N`th digit yields -/
theorem candidate_spec {n N D E : Nat} (hn : 0 < n) (hi : n < inf) (h1 : 1 ≤ N) (h9 : N ≤ 9)
    (h : candidate n N = some (D, E)) :
    E = places n - N ∧ 10 ^ (N - 1) ≤ D ∧ D ≤ 10 ^ N ∧
      Inside (n % 2 == 0) (mid (n - 1) * 10 ^ 54) (D * (10 ^ E * 2 ^ 150)) (mid n * 10 ^ 54) := by
  obtain ⟨p1, p2, p3, p4⟩ := places_spec hn hi
  unfold candidate at h
  simp only [Option.map_eq_some_iff, Prod.mk.injEq] at h
  obtain ⟨D', h, rfl, rfl⟩ := h
  obtain ⟨m1, m2⟩ := mid_sub hn
  have m3 : 0 < mag n - mag (n - 1) := by
    have := mag_strictMono (show n - 1 < n by omega)
    omega
  have m4 := (mid_lt (n := n)).1
  have T0 : 0 < 10 ^ 54 := by positivity
  have hu : 0 < 10 ^ (places n - N) * 2 ^ 150 := by positivity
  have a1 : mid (n - 1) * 10 ^ 54 < 2 * mag n * 10 ^ 54 := Nat.mul_lt_mul_of_pos_right (by omega) T0
  have a2 : 2 * mag n * 10 ^ 54 < mid n * 10 ^ 54 := Nat.mul_lt_mul_of_pos_right m4 T0
  obtain ⟨hin, hD⟩ := pick_spec hu a1 a2 h
  have b1 : 10 ^ (N - 1) ≤ 2 * mag n * 10 ^ 54 / (10 ^ (places n - N) * 2 ^ 150) := by
    refine (Nat.le_div_iff_mul_le hu).mpr (le_trans (le_of_eq ?_) p3)
    rw [← Nat.mul_assoc, ← pow_add]
    congr 2
    omega
  have b2 : 2 * mag n * 10 ^ 54 / (10 ^ (places n - N) * 2 ^ 150) < 10 ^ N := by
    refine (Nat.div_lt_iff_lt_mul hu).mpr (lt_of_lt_of_le p4 (le_of_eq ?_))
    rw [← Nat.mul_assoc, ← pow_add]
    congr 2
    omega
  exact ⟨rfl, by omega, by omega, hin⟩

theorem nine_aux {even : Bool} {lo v hi u d1 d2 : Nat} (hu : 0 < u) (e1 : lo + d1 = v) (e2 : hi = v + d2)
    (f1 : v ≤ 2 ^ 25 * d1) (f2 : v ≤ 2 ^ 25 * d2) (b1 : 10 ^ 8 * u ≤ v) (b9 : v < 10 ^ 9 * u) :
    ∃ D, pick even lo v hi u = some D ∧ D * u < 2 ^ 53 * (D * u - lo) ∧ D * u < 2 ^ 53 * (hi - D * u) := by
  have c1 : 5 * u < 2 * d1 := by omega
  have c2 : 5 * u < 2 * d2 := by omega
  obtain ⟨D, hD, k1, k2⟩ := pick_close (even := even) (lo := lo) (v := v) (hi := hi) hu (by omega) (by omega)
  refine ⟨D, hD, ?_, ?_⟩
  · generalize D * u = X at *
    have s2 : 2 ^ 53 * u ≤ 2 ^ 53 * (X - lo) := Nat.mul_le_mul_left _ (by omega)
    omega
  · generalize D * u = X at *
    have s2 : 2 ^ 53 * u ≤ 2 ^ 53 * (hi - X) := Nat.mul_le_mul_left _ (by omega)
    omega

/-- Nine digits are enough, and they are not too close to the midpoints. -/
theorem candidate_nine {n : Nat} (hn : 0 < n) (hi : n < inf) : ∃ D, candidate n 9 = some (D, places n - 9) ∧
    D * (10 ^ (places n - 9) * 2 ^ 150) <
      2 ^ 53 * (D * (10 ^ (places n - 9) * 2 ^ 150) - mid (n - 1) * 10 ^ 54) ∧
    D * (10 ^ (places n - 9) * 2 ^ 150) <
      2 ^ 53 * (mid n * 10 ^ 54 - D * (10 ^ (places n - 9) * 2 ^ 150)) := by
  obtain ⟨p1, p2, p3, p4⟩ := places_spec hn hi
  obtain ⟨m1, m2⟩ := mid_sub hn
  obtain ⟨g1, g2⟩ := mag_gap hn
  have hu : 0 < 10 ^ (places n - 9) * 2 ^ 150 := by positivity
  have b1 : 10 ^ 8 * (10 ^ (places n - 9) * 2 ^ 150) ≤ 2 * mag n * 10 ^ 54 := by
    refine le_trans (le_of_eq ?_) p3
    rw [← Nat.mul_assoc, ← pow_add]
    congr 2
    omega
  have e1 : mid (n - 1) * 10 ^ 54 + (mag n - mag (n - 1)) * 10 ^ 54 = 2 * mag n * 10 ^ 54 := by
    rw [← Nat.add_mul, m1]
  have e2 : mid n * 10 ^ 54 = 2 * mag n * 10 ^ 54 + (mag (n + 1) - mag n) * 10 ^ 54 := by
    rw [← Nat.add_mul, m2]
  have f1 : 2 * mag n * 10 ^ 54 ≤ 2 ^ 25 * ((mag n - mag (n - 1)) * 10 ^ 54) := by
    calc 2 * mag n * 10 ^ 54 = mag n * (2 * 10 ^ 54) := by ring
      _ ≤ 2 ^ 24 * (mag n - mag (n - 1)) * (2 * 10 ^ 54) := Nat.mul_le_mul_right _ g1
      _ = _ := by ring
  have f2 : 2 * mag n * 10 ^ 54 ≤ 2 ^ 25 * ((mag (n + 1) - mag n) * 10 ^ 54) := by
    calc 2 * mag n * 10 ^ 54 = mag n * (2 * 10 ^ 54) := by ring
      _ ≤ 2 ^ 24 * (mag (n + 1) - mag n) * (2 * 10 ^ 54) := Nat.mul_le_mul_right _ g2
      _ = _ := by ring
  have b9 : 2 * mag n * 10 ^ 54 < 10 ^ 9 * (10 ^ (places n - 9) * 2 ^ 150) := by
    refine lt_of_lt_of_le p4 (le_of_eq ?_)
    rw [← Nat.mul_assoc, ← pow_add]
    congr 2
    omega
  obtain ⟨D, hD, k1, k2⟩ := nine_aux (even := n % 2 == 0) hu e1 e2 f1 f2 b1 b9
  refine ⟨D, ?_, k1, k2⟩
  unfold candidate
  simp only [hD, Option.map_some]

/-- The shortest digits: there is a first step with a result. -/
theorem shortest_spec {n : Nat} (hn : 0 < n) (hi : n < inf) : ∃ N, 1 ≤ N ∧ N ≤ 9 ∧
    candidate n N = some (shortest n) ∧ ∀ N', 1 ≤ N' → N' < N → candidate n N' = none := by
  obtain ⟨D9, h9, -⟩ := candidate_nine hn hi
  have ex : ∃ N, 1 ≤ N ∧ (candidate n N).isSome := ⟨9, by norm_num, by rw [h9]; rfl⟩
  classical
  obtain ⟨N, ⟨hN1, hN2⟩, hmin⟩ : ∃ N, (1 ≤ N ∧ (candidate n N).isSome) ∧
      ∀ M, M < N → ¬ (1 ≤ M ∧ (candidate n M).isSome) := ⟨Nat.find ex, Nat.find_spec ex, fun M hM => Nat.find_min ex hM⟩
  have hN9 : N ≤ 9 := by
    by_contra hc
    exact hmin 9 (by omega) ⟨by norm_num, by rw [h9]; rfl⟩
  have hnone : ∀ N', 1 ≤ N' → N' < N → candidate n N' = none := by
    intro M h1 h2
    have := hmin M h2
    cases hc : candidate n M with
    | none => rfl
    | some x => exact absurd ⟨h1, by rw [hc]; rfl⟩ this
  refine ⟨N, hN1, hN9, ?_, hnone⟩
  obtain ⟨x, hx⟩ := Option.isSome_iff_exists.mp hN2
  have hsplit : List.range' 1 9 = List.range' 1 (N - 1) ++ N :: List.range' (N + 1) (9 - N) := by
    have h1 : List.range' 1 9 = List.range' 1 (N - 1) ++ List.range' (1 + 1 * (N - 1)) (10 - N) := by
      rw [List.range'_append]
      congr 1
      omega
    rw [h1]
    congr 1
    rw [show 10 - N = (9 - N) + 1 by omega, List.range'_succ]
    congr 1 <;> [omega; (congr 1; omega)]
  unfold shortest
  rw [hsplit, List.findSome?_append, List.findSome?_eq_none_iff.mpr, hx]
  · simp [hx]
  · intro M hM
    rw [List.mem_range'_1] at hM
    exact hnone M hM.1 (by omega)

/-- The exceptional float: its shortest digits are read as the next float. -/
def exceptional : Nat := 0x15AE43FD

/-- The digits that are written, read via binary64 -/
def readBack (n : Nat) : Nat := viaDouble ((shortest n).1 * 10 ^ (shortest n).2) (10 ^ 54)

theorem readBack_close : ∀ n ∈ closeMids ++ closeMids.map (· + 1), n ≠ exceptional → readBack n = n := by
  decide +kernel

theorem readBack_exceptional : readBack exceptional = exceptional + 1 := by decide +kernel

/-- The gap at a midpoint, for at most eight digits -/
theorem midpoint_gap {a D E N : Nat} (ha : a < inf) (hE : E + N ≤ 93) (hN8 : N ≤ 8) (hE8 : 8 ≤ E + N)
    (hN : 1 ≤ N) (h1 : 10 ^ (N - 1) ≤ D) (h2 : D ≤ 10 ^ N) (hex : a ∉ closeMids) :
    D * (10 ^ E * 2 ^ 150) = mid a * 10 ^ 54 ∨
      D * (10 ^ E * 2 ^ 150) < 2 ^ 53 * (D * (10 ^ E * 2 ^ 150) - mid a * 10 ^ 54) ∨
      D * (10 ^ E * 2 ^ 150) < 2 ^ 53 * (mid a * 10 ^ 54 - D * (10 ^ E * 2 ^ 150)) := by
  obtain ⟨j, h, rfl, hh1, hh2⟩ := pattern a
  rw [mid_pattern hh1 hh2]
  have hj : j < 255 := by
    have : inf = 255 * 2 ^ 23 := rfl
    omega
  have hl : leastSig j ≤ 2 * h + 1 := by
    unfold leastSig
    split
    · omega
    · have := hh2 (by omega)
      omega
  have e1 : D * 10 ^ (8 - N) * (10 ^ (E + N - 8) * 2 ^ 150) = D * (10 ^ E * 2 ^ 150) := by
    have : 10 ^ E = 10 ^ (8 - N) * 10 ^ (E + N - 8) := by
      rw [← pow_add]
      congr 1
      omega
    rw [this]
    ring
  have e2 : (2 * h + 1) * (2 ^ j * 10 ^ 54) = (2 * h + 1) * 2 ^ j * 10 ^ 54 := by rw [Nat.mul_assoc]
  have d1 : 10 ^ 7 ≤ D * 10 ^ (8 - N) := by
    calc 10 ^ 7 = 10 ^ (N - 1) * 10 ^ (8 - N) := by
          rw [← pow_add]
          congr 1
          omega
      _ ≤ _ := Nat.mul_le_mul_right _ h1
  have d2 : D * 10 ^ (8 - N) ≤ 10 ^ 8 := by
    calc D * 10 ^ (8 - N) ≤ 10 ^ N * 10 ^ (8 - N) := Nat.mul_le_mul_right _ h2
      _ = _ := by
          rw [← pow_add]
          congr 1
          omega
  have g := decimal_gap (E := E + N - 8) (j := j) (D := D * 10 ^ (8 - N)) (M := 2 * h + 1) (by omega) hj (by omega) hl
    (by omega) d1 d2
  rw [e1, e2, show (2 * h + 1 - 1) / 2 = h by omega] at g
  rcases g with g | g | g | g
  · exact .inl g
  · exact .inr (.inl g)
  · exact .inr (.inr g)
  · exact absurd g hex

/-- The digits that are written are read as the same float, with one exception. -/
theorem readBack_eq {n : Nat} (hn : 0 < n) (hi : n < inf) (hx : n ≠ exceptional) : readBack n = n := by
  by_cases hc : n ∈ closeMids ++ closeMids.map (· + 1)
  · exact readBack_close n hc hx
  have hc1 : n ∉ closeMids := fun h => hc (List.mem_append_left _ h)
  have hc2 : n - 1 ∉ closeMids := fun h => hc (List.mem_append_right _ (List.mem_map.mpr ⟨n - 1, h, by omega⟩))
  obtain ⟨N, hN1, hN9, hs, -⟩ := shortest_spec hn hi
  obtain ⟨p1, p2, -, -⟩ := places_spec hn hi
  unfold readBack
  rcases hsh : shortest n with ⟨D, E⟩
  rw [hsh] at hs
  obtain ⟨hE, hD1, hD2, hin1, hin2, hin3⟩ := candidate_spec hn hi hN1 hN9 hs
  have key : (D * (10 ^ E * 2 ^ 150) = mid (n - 1) * 10 ^ 54 ∨
        D * (10 ^ E * 2 ^ 150) < 2 ^ 53 * (D * (10 ^ E * 2 ^ 150) - mid (n - 1) * 10 ^ 54)) ∧
      (D * (10 ^ E * 2 ^ 150) = mid n * 10 ^ 54 ∨
        D * (10 ^ E * 2 ^ 150) < 2 ^ 53 * (mid n * 10 ^ 54 - D * (10 ^ E * 2 ^ 150))) := by
    rcases Nat.lt_or_ge N 9 with h8 | h8
    · have g1 := midpoint_gap (a := n - 1) (D := D) (E := E) (N := N) (by omega) (by omega) (by omega) (by omega) hN1
        hD1 hD2 hc2
      have g2 := midpoint_gap (a := n) (D := D) (E := E) (N := N) hi (by omega) (by omega) (by omega) hN1
        hD1 hD2 hc1
      clear hs hsh hE
      generalize D * (10 ^ E * 2 ^ 150) = X at *
      constructor
      · rcases g1 with g | g | g
        · exact .inl g
        · exact .inr g
        · rw [Nat.sub_eq_zero_of_le hin1] at g
          simp at g
      · rcases g2 with g | g | g
        · exact .inl g
        · rw [Nat.sub_eq_zero_of_le hin2] at g
          simp at g
        · exact .inr g
    · have h9 : N = 9 := by omega
      subst h9
      obtain ⟨D', h9, k1, k2⟩ := candidate_nine hn hi
      rw [h9] at hs
      cases hs
      exact ⟨.inr k1, .inr k2⟩
  have eX : D * 10 ^ E * 2 ^ 150 = D * (10 ^ E * 2 ^ 150) := Nat.mul_assoc _ _ _
  simp only
  refine viaDouble_eq (by positivity) hn hi ?_ ?_ ?_ ?_ ?_ <;> rw [eX]
  · exact hin1
  · exact hin2
  · intro ho
    have := hin3 (by rw [ho]; rfl)
    exact this
  · exact key.1.imp Eq.symm id
  · exact key.2

end B32

end FF
