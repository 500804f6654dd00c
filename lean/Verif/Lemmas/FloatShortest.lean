import Verif.Lemmas.FloatStr
/-!
# The text of a number is the shortest one
-/

namespace FF

namespace B32

open F32

theorem closer_above {a c t : ℝ} (hac : c < a) (h : |a - t| ≤ |c - t|) : a + c ≤ 2 * t := by
  rcases le_or_gt t c with h1 | h1
  · rw [abs_of_nonneg (by linarith), abs_of_nonneg (by linarith)] at h
    linarith
  · rw [abs_of_neg (show c - t < 0 by linarith)] at h
    have := le_trans (le_abs_self _) h
    linarith

theorem closer_below {a c t : ℝ} (hac : a < c) (h : |a - t| ≤ |c - t|) : 2 * t ≤ a + c := by
  have := closer_above (a := -a) (c := -c) (t := -t) (by linarith) (by
    rw [← abs_neg, ← abs_neg (-c - -t)]
    ring_nf
    ring_nf at h
    exact h)
  linarith

theorem mid_last : mid (inf - 1) = (2 ^ 25 - 1) * 2 ^ 253 := by decide +kernel

/-- Numbers that are rounded to `b` lie between the midpoints. -/
theorem rounds_inside {b : F32} (h : F32.Finite b) (h0 : mant b ≠ 0) {t : ℝ} (hr : RoundsTo (sg (sign b) * t) b) :
    (mid (mant b - 1) : ℝ) ≤ t * 2 ^ 150 ∧ t * 2 ^ 150 ≤ mid (mant b) ∧
      (mant b % 2 = 1 → (mid (mant b - 1) : ℝ) ≠ t * 2 ^ 150 ∧ t * 2 ^ 150 ≠ mid (mant b)) := by
  have hi := fin_mant h
  have h31 : inf < 2 ^ 31 := by decide
  have hpos : (0 : ℝ) < 2 ^ 149 := by positivity
  rcases hr with ⟨hov, -, hn⟩ | ⟨-, rfl⟩ | ⟨-, rfl⟩
  · generalize hnm : mant b = n at *
    have hb : b = mk (sign b) n := by rw [← hnm, mk_eta]
    -- distances
    have dist : ∀ c < inf, |val (mk (sign b) c) - sg (sign b) * t| = |(mag c : ℝ) / 2 ^ 149 - t| := by
      intro c hc
      rw [val_mk _ (hc.trans h31), ← mul_sub, abs_mul, abs_sg, one_mul]
    have distb : |val b - sg (sign b) * t| = |(mag n : ℝ) / 2 ^ 149 - t| := by
      have := dist n hi
      rwa [← hb] at this
    have near : ∀ c < inf, |(mag n : ℝ) / 2 ^ 149 - t| ≤ |(mag c : ℝ) / 2 ^ 149 - t| ∧
        (|(mag n : ℝ) / 2 ^ 149 - t| = |(mag c : ℝ) / 2 ^ 149 - t| → n = c ∨ n % 2 = 0) := by
      intro c hc
      obtain ⟨h1, h2⟩ := hn (mk (sign b) c) (finite_mk _ hc)
      rw [dist c hc, distb] at h1 h2
      refine ⟨h1, fun he => ?_⟩
      rcases h2 he with h | h
      · left
        have h3 : |val b| = |val (mk (sign b) c)| := by rw [h]
        rw [abs_val, abs_val, hnm, mant_mk _ (hc.trans h31), div_left_inj' hpos.ne'] at h3
        exact mag_strictMono.injective (by exact_mod_cast h3)
      · right
        have h4 := fr_mk (sign b) (hi.trans h31)
        rw [← hb] at h4
        omega
    have m1 : (mid (n - 1) : ℝ) = mag (n - 1) + mag n := by
      unfold mid
      rw [Nat.sub_add_cancel (by omega)]
      push_cast
      rfl
    have m2 : (mid n : ℝ) = mag n + mag (n + 1) := by
      unfold mid
      push_cast
      rfl
    have e150 : (2 : ℝ) ^ 150 = 2 * 2 ^ 149 := by norm_num
    have lt1 : (mag (n - 1) : ℝ) / 2 ^ 149 < mag n / 2 ^ 149 :=
      div_lt_div_of_pos_right (by exact_mod_cast mag_strictMono (show n - 1 < n by omega)) hpos
    have lt2 : (mag n : ℝ) / 2 ^ 149 < mag (n + 1) / 2 ^ 149 :=
      div_lt_div_of_pos_right (by exact_mod_cast mag_strictMono (show n < n + 1 by omega)) hpos
    obtain ⟨a1, a2⟩ := near (n - 1) (by omega)
    have b1 := closer_above lt1 a1
    have c1 : (mid (n - 1) : ℝ) ≤ t * 2 ^ 150 := by
      rw [← add_div, div_le_iff₀ hpos] at b1
      rw [m1, e150]
      linarith
    have c3 : n % 2 = 1 → (mid (n - 1) : ℝ) ≠ t * 2 ^ 150 := by
      intro ho he
      have : |(mag n : ℝ) / 2 ^ 149 - t| = |(mag (n - 1) : ℝ) / 2 ^ 149 - t| := by
        have ht : t = ((mag (n - 1) : ℝ) / 2 ^ 149 + mag n / 2 ^ 149) / 2 := by
          rw [m1, e150] at he
          rw [← add_div, eq_div_iff (by norm_num), eq_div_iff hpos.ne']
          linarith
        rw [ht, abs_of_nonneg (by linarith), abs_of_nonpos (by linarith)]
        ring
      rcases a2 this with h | h <;> omega
    rcases Nat.lt_or_ge (n + 1) inf with hlt | hge
    · obtain ⟨a1, a2⟩ := near (n + 1) hlt
      have b2 := closer_below lt2 a1
      have c2 : t * 2 ^ 150 ≤ (mid n : ℝ) := by
        rw [← add_div, le_div_iff₀ hpos] at b2
        rw [m2, e150]
        linarith
      refine ⟨c1, c2, fun ho => ⟨c3 ho, fun he => ?_⟩⟩
      have : |(mag n : ℝ) / 2 ^ 149 - t| = |(mag (n + 1) : ℝ) / 2 ^ 149 - t| := by
        have ht : t = ((mag n : ℝ) / 2 ^ 149 + mag (n + 1) / 2 ^ 149) / 2 := by
          rw [m2, e150] at he
          rw [← add_div, eq_div_iff (by norm_num), eq_div_iff hpos.ne']
          linarith
        rw [ht, abs_of_nonpos (by linarith), abs_of_nonneg (by linarith)]
        ring
      rcases a2 this with h | h <;> omega
    · have hn1 : n = inf - 1 := by omega
      have c2 : t * 2 ^ 150 < (mid n : ℝ) := by
        have : t < overflow := by
          refine lt_of_le_of_lt (le_abs_self t) ?_
          rwa [abs_mul, abs_sg, one_mul] at hov
        rw [overflow_eq, lt_div_iff₀ hpos] at this
        have em : (mid n : ℝ) = 2 * ((2 ^ 25 - 1) * 2 ^ 252) := by
          rw [hn1, mid_last]
          push_cast
          norm_num
        rw [em, e150]
        linarith
      exact ⟨c1, c2.le, fun ho => ⟨c3 ho, c2.ne⟩⟩
  · exact absurd h (by unfold F32.Finite; decide)
  · exact absurd h (by unfold F32.Finite; decide)

/-- Numbers between the midpoints are rounded to `b`. -/
theorem inside_rounds {b : F32} (h : F32.Finite b) (h0 : mant b ≠ 0) {D E : Nat}
    (hin : Inside (mant b % 2 == 0) (mid (mant b - 1) * 10 ^ 54) (D * (10 ^ E * 2 ^ 150)) (mid (mant b) * 10 ^ 54)) :
    RoundsTo (sg (sign b) * ((D : ℝ) * 10 ^ E / 10 ^ 54)) b := by
  have e2 : 2 * (D * 10 ^ E * 2 ^ 149) = D * (10 ^ E * 2 ^ 150) := by ring
  have hround := round_eq (num := D * 10 ^ E * 2 ^ 149) (den := 10 ^ 54) (by positivity) (Nat.pos_of_ne_zero h0) (fin_mant h)
    (by rw [e2]; exact hin.1) (by rw [e2]; exact hin.2.1) (by
      intro ho
      rw [e2]
      exact hin.2.2 (by rw [ho]; rfl))
  have hres := (result_round (D * 10 ^ E * 2 ^ 149) (den := 10 ^ 54) (by positivity) (sign b)).rounds
  rw [hround, mk_eta] at hres
  have e3 : ((D * 10 ^ E * 2 ^ 149 : Nat) : ℝ) / (10 ^ 54 : Nat) / 2 ^ 149 = D * 10 ^ E / 10 ^ 54 := by
    have : (0 : ℝ) < 2 ^ 149 := by positivity
    rw [Nat.cast_mul _ (2 ^ 149), Nat.cast_pow, Nat.cast_pow, Nat.cast_mul, Nat.cast_pow, Nat.cast_ofNat, Nat.cast_ofNat,
      mul_div_right_comm, mul_div_assoc _ ((2 : ℝ) ^ 149), div_self this.ne', mul_one]
  rwa [e3] at hres

theorem inside_between {even : Bool} {lo x y v hi u : Nat} (hx : x = y * u)
    (h1 : lo < v) (h2 : v < hi) (hu : 0 < u) (hin : Inside even lo x hi) :
    Inside even lo (v / u * u) hi ∨ Inside even lo ((v / u + 1) * u) hi := by
  subst hx
  obtain ⟨i1, i2, i3⟩ := hin
  have d1 : v / u * u ≤ v := Nat.div_mul_le_self v u
  have d2 : v < (v / u + 1) * u := (Nat.div_lt_iff_lt_mul hu).mp (Nat.lt_succ_self _)
  rcases Nat.lt_or_ge (v / u) y with hy | hy
  · right
    have := Nat.mul_le_mul_right u hy
    simp only [Nat.succ_eq_add_one] at this
    exact ⟨by omega, by omega, fun he => by have := i3 he; omega⟩
  · left
    have := Nat.mul_le_mul_right u hy
    exact ⟨by omega, by omega, fun he => by have := i3 he; omega⟩

/-- If the step for the `N`th digit fails, no number with that many digits lies between the midpoints. -/
theorem no_candidate {n N : Nat} (hn : 0 < n) (h : candidate n N = none) (K : Nat) :
    ¬ Inside (n % 2 == 0) (mid (n - 1) * 10 ^ 54) (K * (10 ^ (places n - N) * 2 ^ 150)) (mid n * 10 ^ 54) := by
  intro hin
  obtain ⟨m1, m2⟩ := mid_sub hn
  have m3 : 0 < mag n - mag (n - 1) := by
    have := mag_strictMono (show n - 1 < n by omega)
    omega
  have m4 := (mid_lt (n := n)).1
  have T0 : 0 < 10 ^ 54 := by positivity
  have hu : 0 < 10 ^ (places n - N) * 2 ^ 150 := by positivity
  have a1 : mid (n - 1) * 10 ^ 54 < 2 * mag n * 10 ^ 54 := Nat.mul_lt_mul_of_pos_right (by omega) T0
  have a2 : 2 * mag n * 10 ^ 54 < mid n * 10 ^ 54 := Nat.mul_lt_mul_of_pos_right m4 T0
  have hp : pick (n % 2 == 0) (mid (n - 1) * 10 ^ 54) (2 * mag n * 10 ^ 54) (mid n * 10 ^ 54)
      (10 ^ (places n - N) * 2 ^ 150) = none := by
    unfold candidate at h
    exact Option.map_eq_none_iff.mp h
  obtain ⟨p1, p2⟩ := pick_none hu a1 a2 hp
  rcases inside_between rfl a1 a2 hu hin with h | h
  · exact p1 h
  · exact p2 h

theorem unit_eq {D i L N : Nat} (T x : ℝ) (hT : x * 10 ^ 54 = T) (h : T = D * 10 ^ i * 10 ^ (L - N)) :
    ((D * 10 ^ i * (10 ^ (L - N) * 2 ^ 150) : Nat) : ℝ) = x * 2 ^ 150 * 10 ^ 54 := by
  rw [mul_right_comm x, hT, h, Nat.cast_mul, Nat.cast_mul, Nat.cast_mul, Nat.cast_pow, Nat.cast_pow, Nat.cast_pow,
    Nat.cast_ofNat, Nat.cast_ofNat]
  ring

/-- Numbers with `N` digits that are rounded to `b` are found in the step for the `N`th digit. -/
theorem significant_candidate {b : F32} (h : F32.Finite b) (h0 : mant b ≠ 0) {N : Nat} (h1 : 1 ≤ N) (h9 : N ≤ 9)
    {z : ℝ} (hs : Significant N z) (hr : RoundsTo z b) : candidate (mant b) N ≠ none := by
  intro hc
  have hi := fin_mant h
  have hn := Nat.pos_of_ne_zero h0
  obtain ⟨t, rfl⟩ : ∃ t, z = sg (sign b) * t := ⟨sg (sign b) * z, by rw [← mul_assoc, sg_sq, one_mul]⟩
  obtain ⟨i1, i2, i3⟩ := rounds_inside h h0 hr
  have ht : 0 < t := by
    have : 0 < mid (mant b - 1) := by
      have := (mid_lt (n := mant b - 1)).1
      omega
    have : (0 : ℝ) < t * 2 ^ 150 := lt_of_lt_of_le (by exact_mod_cast this) i1
    exact pos_of_mul_pos_left this (by positivity)
  obtain ⟨D, x, hD, hx⟩ := hs
  rw [abs_mul, abs_sg, one_mul, abs_of_pos ht] at hx
  obtain ⟨p1, p2, p3, p4⟩ := places_spec hn hi
  have ten : (10 : ℝ) ≠ 0 := by norm_num
  have T54 : (0 : ℝ) < 10 ^ 54 := by positivity
  generalize hT : t * 10 ^ 54 = T
  have hTx : T = D * (10 : ℝ) ^ (x + 54) := by
    rw [← hT, hx, zpow_add₀ ten, mul_assoc]
    rfl
  -- membership of natural multiples
  have inN : ∀ X : Nat, (X : ℝ) = t * 2 ^ 150 * 10 ^ 54 →
      Inside (mant b % 2 == 0) (mid (mant b - 1) * 10 ^ 54) X (mid (mant b) * 10 ^ 54) := by
    intro X hX
    have q1 := mul_le_mul_of_nonneg_right i1 T54.le
    have q2 := mul_le_mul_of_nonneg_right i2 T54.le
    rw [← hX] at q1 q2
    refine ⟨by exact_mod_cast q1, by exact_mod_cast q2, fun he => ?_⟩
    have ho : mant b % 2 = 1 := by
      have := Nat.mod_two_eq_zero_or_one (mant b)
      simp only [beq_eq_false_iff_ne] at he
      omega
    obtain ⟨r1, r2⟩ := i3 ho
    constructor
    · intro e
      apply r1
      have : ((mid (mant b - 1) * 10 ^ 54 : Nat) : ℝ) = X := by rw [e]
      rw [hX, Nat.cast_mul, Nat.cast_pow, Nat.cast_ofNat] at this
      exact mul_right_cancel₀ T54.ne' this
    · intro e
      apply r2
      have : (X : ℝ) = ((mid (mant b) * 10 ^ 54 : Nat) : ℝ) := by rw [e]
      rw [hX, Nat.cast_mul, Nat.cast_pow, Nat.cast_ofNat] at this
      exact mul_right_cancel₀ T54.ne' this
  rcases le_or_gt ((10 : ℝ) ^ (places (mant b) - 1)) T with hle | hlt
  · have hx54 : ((places (mant b) - N : Nat) : Int) ≤ x + 54 := by
      have hDR : (D : ℝ) < 10 ^ N := by exact_mod_cast hD
      have q1 : (10 : ℝ) ^ ((places (mant b) - 1 : Nat) : Int) < (10 : ℝ) ^ ((N : Int) + (x + 54)) := by
        rw [zpow_natCast, zpow_add₀ ten, zpow_natCast]
        refine lt_of_le_of_lt hle ?_
        rw [hTx]
        exact mul_lt_mul_of_pos_right hDR (zpow_pos (by norm_num) _)
      have := (zpow_lt_zpow_iff_right₀ (by norm_num)).mp q1
      omega
    obtain ⟨i, hi'⟩ : ∃ i : Nat, x + 54 = i + ((places (mant b) - N : Nat) : Int) :=
      ⟨(x + 54 - ((places (mant b) - N : Nat) : Int)).toNat, by omega⟩
    refine no_candidate hn hc (D * 10 ^ i) (inN _ (unit_eq T t hT ?_))
    rw [hTx, hi', zpow_add₀ ten, zpow_natCast, zpow_natCast, mul_assoc]
  · have e : 10 ^ (N - 1) * (10 ^ (places (mant b) - N) * 2 ^ 150) = 10 ^ (places (mant b) - 1) * 2 ^ 150 := by
      rw [← Nat.mul_assoc, ← pow_add]
      congr 2
      omega
    have l1 : mid (mant b - 1) * 10 ^ 54 < 10 ^ (places (mant b) - 1) * 2 ^ 150 := by
      have q1 := mul_le_mul_of_nonneg_right i1 T54.le
      have q2 : t * 2 ^ 150 * 10 ^ 54 < 10 ^ (places (mant b) - 1) * 2 ^ 150 := by
        rw [mul_right_comm, hT]
        exact mul_lt_mul_of_pos_right hlt (pow_pos (by norm_num) 150)
      exact_mod_cast lt_of_le_of_lt q1 q2
    have l2 : 2 * mag (mant b) * 10 ^ 54 < mid (mant b) * 10 ^ 54 :=
      Nat.mul_lt_mul_of_pos_right (mid_lt (n := mant b)).1 (by positivity)
    refine no_candidate hn hc (10 ^ (N - 1)) ?_
    rw [e]
    exact ⟨l1.le, p3.trans l2.le, fun _ => ⟨l1.ne, (lt_of_le_of_lt p3 l2).ne⟩⟩

/-- The digits that are written are rounded to `b`, and none with fewer digits are. -/
theorem shortest_optimal {b : F32} (h : F32.Finite b) (h0 : mant b ≠ 0) : ∃ N, 1 ≤ N ∧ N ≤ 9 ∧
    RoundsTo (sg (sign b) * (((shortest (mant b)).1 : ℝ) * 10 ^ (shortest (mant b)).2 / 10 ^ 54)) b ∧
    Significant N (sg (sign b) * (((shortest (mant b)).1 : ℝ) * 10 ^ (shortest (mant b)).2 / 10 ^ 54)) ∧
    ∀ N' z, Significant N' z → RoundsTo z b → N ≤ N' := by
  have hi := fin_mant h
  have hn := Nat.pos_of_ne_zero h0
  obtain ⟨N, h1, h9, hs, hmin⟩ := shortest_spec hn hi
  rcases hsh : shortest (mant b) with ⟨D, E⟩
  rw [hsh] at hs
  obtain ⟨-, hD1, hD2, hin⟩ := candidate_spec hn hi h1 h9 hs
  have hr := inside_rounds h h0 hin
  have hpos : ∀ N' z, Significant N' z → RoundsTo z b → 1 ≤ N' := by
    intro N' z hz hrz
    by_contra hc
    have : N' = 0 := by omega
    subst this
    obtain ⟨D', x, hD', hx⟩ := hz
    have : D' = 0 := by simpa using hD'
    subst this
    have hz0 : z = 0 := by simpa using hx
    subst hz0
    have := (rounds_inside h h0 (t := 0) (by simpa using hrz)).1
    rw [zero_mul] at this
    have h2 := (mid_lt (n := mant b - 1)).1
    have : mid (mant b - 1) = 0 := by exact_mod_cast le_antisymm this (by positivity)
    omega
  have habs : |sg (sign b) * ((D : ℝ) * 10 ^ E / 10 ^ 54)| = D * (10 : ℝ) ^ ((E : Int) - 54) := by
    rw [abs_mul, abs_sg, one_mul, abs_of_nonneg (by positivity), zpow_sub₀ (by norm_num), zpow_natCast, mul_div_assoc]
    rfl
  rcases Nat.lt_or_ge D (10 ^ N) with hlt | hge
  · refine ⟨N, h1, h9, hr, ⟨D, _, hlt, habs⟩, fun N' z hz hrz => ?_⟩
    by_contra hc
    have := significant_candidate h h0 (hpos N' z hz hrz) (by omega) hz hrz
    exact this (hmin N' (hpos N' z hz hrz) (by omega))
  · have hD : D = 10 ^ N := le_antisymm hD2 hge
    refine ⟨1, le_rfl, by norm_num, hr, ⟨1, (N : Int) + ((E : Int) - 54), by norm_num, ?_⟩, hpos⟩
    rw [habs, hD, zpow_add₀ (by norm_num : (10 : ℝ) ≠ 0) (N : Int), zpow_natCast]
    push_cast
    ring

end B32

end FF
