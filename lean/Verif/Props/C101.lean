import Verif.Lemmas.RoundAnalogy
import Verif.Props.C58
/-!
# C101: analogies, with rounding

On loaded embeddings, `analogy` scores words by the cosine between their vector in the file and
`c + (b - a)`, for the vectors of the three words in the file scaled to length one, up to an explicit error.
-/

namespace FF

section
variable {K : Type} [NumOps K] {u : ℝ} {val : K → ℝ}

/-- A component of a row as loaded. -/
theorem row_component (hR : Rounded u val) {v : List K} (h0 : ∃ x ∈ v, val x ≠ 0)
    (h2 : (1 + u) ^ v.length < 2) (t : Nat) (x y : ℝ) (hx : (exactUnit (v.map val))[t]? = some x)
    (hy : ((vdiv v (NumOps.normAxis v)).map val)[t]? = some y) : |y - x| ≤ unitErr u v.length * |x| := by
  obtain ⟨d, hd, hn⟩ := hR.normAxis v
  obtain ⟨n1, n2⟩ := norm_bounds hR.u_nonneg hR.u_lt hd hn
  rw [List.length_map] at n1 n2
  unfold exactUnit at hx
  rw [List.getElem?_map] at hx
  obtain ⟨z, hz, rfl⟩ := Option.map_eq_some_iff.mp hx
  have hpos := (unit_axis hR h0 h2).1
  exact unit_component hR.u_nonneg hR.u_lt (one_le_pow₀ (by linarith [hR.u_nonneg])) h2
    (Real.sqrt_pos.mpr (exactDot_self_pos (map_nonzero h0))) n1 n2 (vdiv_near hR hpos.ne' t z y hz hy)

theorem unitErr_nonneg {u : ℝ} (hu : 0 ≤ u) (hu1 : u < 1) (n : Nat) : 0 ≤ unitErr u n := by
  refine le_trans ?_ (le_max_left _ _)
  unfold lenLo
  have h1 : 1 ≤ Real.sqrt ((1 + u) ^ n) := by
    rw [Real.one_le_sqrt]
    exact one_le_pow₀ (by linarith)
  have : (1 - u) / ((1 + u) * Real.sqrt ((1 + u) ^ n)) ≤ 1 := by
    rw [div_le_one (by nlinarith)]
    nlinarith
  linarith

/-- Components of `c + (b - a)`. -/
theorem target_component {u r a b c A B C s d : ℝ} (hu : 0 ≤ u) (hr : 0 ≤ r) (ha : |a - A| ≤ r * |A|)
    (hb : |b - B| ≤ r * |B|) (hc : |c - C| ≤ r * |C|) (hs : Near u (b - a) s) (hd : Near u (c + s) d) :
    |d - (C + (B - A))| ≤ ((1 + r) * (1 + u) ^ 2 - 1) * (|A| + |B| + |C|) := by
  unfold Near at hs hd
  have a0 := abs_nonneg A
  have b0 := abs_nonneg B
  have c0 := abs_nonneg C
  have ga : |a| ≤ (1 + r) * |A| := by
    have := abs_add_le (a - A) A
    simp only [sub_add_cancel] at this
    linarith
  have gb : |b| ≤ (1 + r) * |B| := by
    have := abs_add_le (b - B) B
    simp only [sub_add_cancel] at this
    linarith
  have gc : |c| ≤ (1 + r) * |C| := by
    have := abs_add_le (c - C) C
    simp only [sub_add_cancel] at this
    linarith
  have gs : |b - a| ≤ (1 + r) * (|A| + |B|) := by
    have := abs_sub b a
    linarith
  have gs' : |s - (b - a)| ≤ u * ((1 + r) * (|A| + |B|)) :=
    hs.trans (mul_le_mul_of_nonneg_left gs hu)
  have gs2 : |s| ≤ (1 + u) * ((1 + r) * (|A| + |B|)) := by
    have := abs_add_le (s - (b - a)) (b - a)
    simp only [sub_add_cancel] at this
    linarith
  have gd : |d - (c + s)| ≤ u * ((1 + r) * |C| + (1 + u) * ((1 + r) * (|A| + |B|))) := by
    refine hd.trans (mul_le_mul_of_nonneg_left ?_ hu)
    have := abs_add_le c s
    linarith
  have e : d - (C + (B - A)) = (d - (c + s)) + (s - (b - a)) + ((c - C) + ((b - B) + -(a - A))) := by ring
  rw [e]
  have t1 := abs_add_le ((d - (c + s)) + (s - (b - a))) ((c - C) + ((b - B) + -(a - A)))
  have t2 := abs_add_le (d - (c + s)) (s - (b - a))
  have t3 := abs_add_le (c - C) ((b - B) + -(a - A))
  have t4 := abs_add_le (b - B) (-(a - A))
  rw [abs_neg] at t4
  have m1 : 0 ≤ u * (1 + r) * |C| := by positivity
  have m2 : 0 ≤ u * u * (1 + r) * |C| := by positivity
  nlinarith

variable [Score K]

omit [Score K] in
/-- The score of a row and the normalised target. -/
theorem analogy_error (hR : Rounded u val) {n : Nat} {v v1 v2 v3 : List K} (hv : v.length = n)
    (h1 : v1.length = n) (h2 : v2.length = n) (h3 : v3.length = n) (hp : (1 + u) ^ n < 2)
    (hz : ∃ x ∈ v, val x ≠ 0) (hz1 : ∃ x ∈ v1, val x ≠ 0) (hz2 : ∃ x ∈ v2, val x ≠ 0)
    (hz3 : ∃ x ∈ v3, val x ≠ 0)
    (ht : 3 * targetErr u n < exactLen (exactTarget (v1.map val) (v2.map val) (v3.map val))) :
    |val (NumOps.dot (vdiv v (NumOps.normAxis v)) (analogyVec (vdiv v1 (NumOps.normAxis v1))
        (vdiv v2 (NumOps.normAxis v2)) (vdiv v3 (NumOps.normAxis v3)))) -
      exactCos (v.map val) (exactTarget (v1.map val) (v2.map val) (v3.map val))| ≤
      analogyErr u n (exactLen (exactTarget (v1.map val) (v2.map val) (v3.map val))) := by
  have hu := hR.u_nonneg
  have hr := unitErr_nonneg hu hR.u_lt n
  set T := exactTarget (v1.map val) (v2.map val) (v3.map val) with hT
  set a := vdiv v1 (NumOps.normAxis v1) with ha
  set b := vdiv v2 (NumOps.normAxis v2) with hb
  set c := vdiv v3 (NumOps.normAxis v3) with hc
  set d := vadd c (vsub b a) with hd
  have hk : 0 ≤ targetErr u n := by
    unfold targetErr
    have : 1 ≤ (1 + unitErr u n) * (1 + u) ^ 2 := by nlinarith [sq_nonneg u, mul_nonneg hr hu]
    linarith
  have la : a.length = n := by rw [ha]; simpa [vdiv] using h1
  have lb : b.length = n := by rw [hb]; simpa [vdiv] using h2
  have lc : c.length = n := by rw [hc]; simpa [vdiv] using h3
  have ld : d.length = n := by rw [hd]; simp [vadd, vsub, la, lb, lc]
  have lT : T.length = n := by rw [hT]; simp [exactTarget, exactUnit, h1, h2, h3]
  have lA : ∀ {w : List K}, w.length = n → (exactUnit (w.map val)).length = n := by
    intro w hw
    simp [exactUnit, hw]
  set D := List.zipWith (· - ·) (d.map val) T with hD
  have lD : D.length = n := by rw [hD]; simp [ld, lT]
  have hdT : d.map val = List.zipWith (· + ·) T D := by
    refine List.ext_getElem (by simp [ld, lT, lD]) fun t g1 g2 => ?_
    simp only [List.getElem_zipWith, hD]
    ring
  have hDlen : exactLen D ≤ 3 * targetErr u n := by
    have := len_three hk D (exactUnit (v1.map val)) (exactUnit (v2.map val)) (exactUnit (v3.map val))
      (by rw [lA h1, lD]) (by rw [lA h2, lD]) (by rw [lA h3, lD]) (by
        intro t y p q r hy hp' hq' hr'
        have ht1 : t < n := by
          have := (List.getElem?_eq_some_iff.mp hp').1
          rwa [lA h1] at this
        have xa : a[t]? = some (a[t]'(by omega)) := List.getElem?_eq_getElem _
        have xb : b[t]? = some (b[t]'(by omega)) := List.getElem?_eq_getElem _
        have xc : c[t]? = some (c[t]'(by omega)) := List.getElem?_eq_getElem _
        generalize a[t]'(by omega) = at' at xa
        generalize b[t]'(by omega) = bt at xb
        generalize c[t]'(by omega) = ct at xc
        have ca := row_component hR hz1 (by rw [h1]; exact hp) t p (val at') hp' (by
          rw [List.getElem?_map, ← ha, xa]; rfl)
        have cb := row_component hR hz2 (by rw [h2]; exact hp) t q (val bt) hq' (by
          rw [List.getElem?_map, ← hb, xb]; rfl)
        have cc := row_component hR hz3 (by rw [h3]; exact hp) t r (val ct) hr' (by
          rw [List.getElem?_map, ← hc, xc]; rfl)
        rw [h1] at ca
        rw [h2] at cb
        rw [h3] at cc
        have hy' : y = val (NumOps.add ct (NumOps.sub bt at')) - (r + (q - p)) := by
          have hdt : d[t]? = some (NumOps.add ct (NumOps.sub bt at')) := by
            rw [hd]
            unfold vadd vsub
            rw [List.getElem?_zipWith, List.getElem?_zipWith, xa, xb, xc]
          have hTt : T[t]? = some (r + (q - p)) := by
            rw [hT]
            unfold exactTarget
            rw [List.getElem?_zipWith, List.getElem?_zipWith, hp', hq', hr']
          rw [hD, List.getElem?_zipWith, List.getElem?_map, hdt, hTt] at hy
          exact (Option.some.inj hy).symm
        rw [hy']
        exact target_component hu hr ca cb cc (hR.sub _ _) (hR.add _ _))
    rw [exactLen_unit (map_nonzero hz1), exactLen_unit (map_nonzero hz2), exactLen_unit (map_nonzero hz3)] at this
    linarith
  have hrpos : 0 < exactLen (v.map val) := Real.sqrt_pos.mpr (exactDot_self_pos (map_nonzero hz))
  obtain ⟨p1, p2⟩ := cos_perturb (v.map val) T D (by rw [lT, lD]) hrpos (lt_of_le_of_lt hDlen ht)
  rw [← hdT] at p1 p2
  have hdz : ∃ x ∈ d.map val, x ≠ 0 := by
    by_contra hno
    simp only [not_exists, not_and, not_not] at hno
    have : exactDot (d.map val) (d.map val) = 0 := by
      generalize d.map val = l at hno
      induction l with
      | nil => rfl
      | cons x l ih =>
        simp only [exactDot]
        rw [ih fun y hy => hno y (List.mem_cons_of_mem _ hy), hno x (List.mem_cons_self ..)]
        ring
    unfold exactLen at p1
    rw [this, Real.sqrt_zero] at p1
    exact lt_irrefl _ p1
  obtain ⟨dv, hdv, hnv⟩ := hR.normAxis v
  obtain ⟨dd, hdd, hnd⟩ := hR.norm d
  have hce := cos_error hu hR.u_lt (v := v.map val) (w := d.map val)
    (r := (vdiv v (NumOps.normAxis v)).map val) (q := (vdiv d (NumOps.norm d)).map val)
    (by simp [ld, hv]) (by simp [vdiv]) (by simp [vdiv]) (by simpa [hv] using hp)
    (map_nonzero hz) hdz hdv hnv hdd hnd (fun h => vdiv_near hR h) (fun h => vdiv_near hR h)
    (hR.dot _ _)
  rw [List.length_map, hv] at hce
  have hq : analogyVec a b c = vdiv d (NumOps.norm d) := rfl
  rw [hq]
  have hTpos : 0 < exactLen T := by linarith
  have p3 : 2 * exactLen D / exactLen T ≤ 6 * targetErr u n / exactLen T :=
    div_le_div_of_nonneg_right (by linarith) hTpos.le
  unfold analogyErr
  have tri := abs_sub_le (val (NumOps.dot (vdiv v (NumOps.normAxis v)) (vdiv d (NumOps.norm d))))
    (exactCos (v.map val) (d.map val)) (exactCos (v.map val) T)
  linarith

/-- `analogy` on loaded embeddings: every score is the cosine between the vector of the file and the exact
target up to `analogyErr`, and no word that is left out is better than an answer by more than twice that. -/
theorem C101_analogy (hR : Rounded u val)
    (hval : ∀ a b : K, Score.nan a = false → Score.nan b = false → Score.lt a b = false → val b ≤ val a)
    (S : Sel K) (hS : S.Admissible) (e : Embeddings K) (he : BuiltEmb e) (cols : Nat) (words : List PyStr)
    (vs : List (List K)) (hN : Normalized cols words vs e) (h2 : (1 + u) ^ cols < 2)
    (j1 j2 j3 : Nat) (w1 w2 w3 : PyStr) (v1 v2 v3 : List K)
    (hw1 : words[j1]? = some w1) (hw2 : words[j2]? = some w2) (hw3 : words[j3]? = some w3)
    (hv1 : vs[j1]? = some v1) (hv2 : vs[j2]? = some v2) (hv3 : vs[j3]? = some v3)
    (hz1 : ∃ x ∈ v1, val x ≠ 0) (hz2 : ∃ x ∈ v2, val x ≠ 0) (hz3 : ∃ x ∈ v3, val x ≠ 0)
    (ht : 3 * targetErr u cols < exactLen (exactTarget (v1.map val) (v2.map val) (v3.map val)))
    (skip : Option (List PyStr)) (skips : List PyStr)
    (hskip : skip = some skips ∨ skip = none ∧ skips = [w1, w2, w3])
    (hnan : ∀ v' ∈ vs, ∀ q : List K, (∃ x y z, e.embedding w1 = .ok (some x) ∧ e.embedding w2 = .ok (some y) ∧
      e.embedding w3 = .ok (some z) ∧ q = analogyVec x y z) →
      Score.nan (NumOps.dot (vdiv v' (NumOps.normAxis v')) q) = false)
    (k : Nat) (hk : k + knownSkips words skips ≤ words.length) :
    ∃ res, e.analogy S w1 w2 w3 k skip = .ok (some res) ∧ res.length = k ∧ (res.map Prod.fst).Nodup ∧
      (∀ w' x, (w', x) ∈ res → w' ∉ skips ∧ ∃ (i : Nat) (v' : List K), words[i]? = some w' ∧ vs[i]? = some v' ∧
        ((∃ x ∈ v', val x ≠ 0) →
          |val x - exactCos (v'.map val) (exactTarget (v1.map val) (v2.map val) (v3.map val))| ≤
            analogyErr u cols (exactLen (exactTarget (v1.map val) (v2.map val) (v3.map val))))) ∧
      ∀ (i i' : Nat) w' w'' v' v'', words[i]? = some w' → vs[i]? = some v' → (∃ x ∈ v', val x ≠ 0) →
        words[i']? = some w'' → vs[i']? = some v'' → (∃ x ∈ v'', val x ≠ 0) → w'' ∉ skips →
        w' ∈ res.map Prod.fst → w'' ∉ res.map Prod.fst →
        exactCos (v''.map val) (exactTarget (v1.map val) (v2.map val) (v3.map val)) ≤
          exactCos (v'.map val) (exactTarget (v1.map val) (v2.map val) (v3.map val)) +
            2 * analogyErr u cols (exactLen (exactTarget (v1.map val) (v2.map val) (v3.map val))) := by
  obtain ⟨n1, _, n3, _, _, rows, n6, n7, n8⟩ := hN
  subst n1
  have hwf : ∀ r ∈ rows, r.length = cols := by
    have := he.storage
    rw [n6] at this
    exact this.1
  have hlen : ∀ (i : Nat) v, vs[i]? = some v → v.length = cols := by
    intro i v hv
    have := hwf _ (List.mem_of_getElem? (n8 i v hv))
    simpa using this
  have hget : ∀ (i : Nat) v, vs[i]? = some v →
      e.storage.getOne i = .ok (vdiv v (NumOps.normAxis v)) := by
    intro i v hv
    rw [n6]
    exact npGet_nat.mpr (n8 i v hv)
  have hinj : ∀ {i i' : Nat} {w : PyStr}, e.vocab.words[i]? = some w → e.vocab.words[i']? = some w → i = i' := by
    intro i i' w h h'
    have a := he.vocab.get.mpr h
    have b := he.vocab.get.mpr h'
    rw [a] at b
    exact_mod_cast Option.some.inj b
  obtain ⟨_, em1, _⟩ := C28_known e he j1 w1 _ hw1 (hget j1 v1 hv1)
  obtain ⟨_, em2, _⟩ := C28_known e he j2 w2 _ hw2 (hget j2 v2 hv2)
  obtain ⟨_, em3, _⟩ := C28_known e he j3 w3 _ hw3 (hget j3 v3 hv3)
  have hvs : ∀ {i : Nat} {w}, e.vocab.words[i]? = some w → ∃ v, vs[i]? = some v := by
    intro i w h
    have hi := (List.getElem?_eq_some_iff.mp h).1
    have hle : e.vocab.words.length ≤ vs.length := by
      have := he.words_le
      rw [n6] at this
      rw [← n7]
      exact this
    exact ⟨_, List.getElem?_eq_getElem (by omega)⟩
  have hq : (analogyVec (vdiv v1 (NumOps.normAxis v1)) (vdiv v2 (NumOps.normAxis v2))
      (vdiv v3 (NumOps.normAxis v3))).length = cols := by
    simp [analogyVec, vdiv, vadd, vsub, hlen j1 v1 hv1, hlen j2 v2 hv2, hlen j3 v3 hv3]
  have hnan' : ∀ v' ∈ vs, Score.nan (NumOps.dot (vdiv v' (NumOps.normAxis v'))
      (analogyVec (vdiv v1 (NumOps.normAxis v1)) (vdiv v2 (NumOps.normAxis v2))
        (vdiv v3 (NumOps.normAxis v3)))) = false :=
    fun v' hv' => hnan v' hv' _ ⟨_, _, _, em1, em2, em3, rfl⟩
  obtain ⟨res, h1, hT⟩ := C31_top_k S hS e he _ n6 _ hq k skips
    (by rintro h; rw [h] at hw1; simp at hw1) hk (by
      intro i w' row hi hrow _
      obtain ⟨v', hv'⟩ := hvs hi
      rw [hget i v' hv'] at hrow
      cases hrow
      exact hnan' v' (List.mem_of_getElem? hv'))
  have score : ∀ (i : Nat) v', vs[i]? = some v' → (∃ x ∈ v', val x ≠ 0) → _ := fun i v' hv' h0' =>
    analogy_error hR (hlen i v' hv') (hlen j1 v1 hv1) (hlen j2 v2 hv2) (hlen j3 v3 hv3) h2 h0' hz1 hz2 hz3 ht
  refine ⟨res, ?_, hT.length, hT.nodup, ?_, ?_⟩
  · rw [analogy_eq em1 em2 em3]
    have : skip.getD [w1, w2, w3] = skips := by
      rcases hskip with h | ⟨h, h'⟩
      · rw [h]; rfl
      · rw [h, h']; rfl
    rw [this, h1]; rfl
  · intro w' x hx
    obtain ⟨hne, i, row, hi, hrow, rfl⟩ := hT.scores w' x hx
    obtain ⟨v', hv'⟩ := hvs hi
    refine ⟨hne, i, v', hi, hv', fun h0' => ?_⟩
    rw [hget i v' hv'] at hrow
    cases hrow
    exact score i v' hv' h0'
  · intro i i' w' w'' v' v'' hi hv' h0' hi' hv'' h0'' hne hin hout
    obtain ⟨⟨w1, x⟩, hx, rfl⟩ := List.mem_map.mp hin
    obtain ⟨_, i1, row, hi1, hrow, hxe⟩ := hT.scores w1 x hx
    have := hinj hi hi1
    subst this
    rw [hget i v' hv'] at hrow
    cases hrow
    have hb := hval _ _ (by rw [hxe]; exact hnan' v' (List.mem_of_getElem? hv'))
      (hnan' v'' (List.mem_of_getElem? hv'')) (hT.best i' w'' _ hi' (hget i' v'' hv'') hne hout _ hx)
    simp only at hb
    rw [hxe] at hb
    have s1 := abs_le.mp (score i v' hv' h0')
    have s2 := abs_le.mp (score i' v'' hv'' h0'')
    linarith [s1.1, s1.2, s2.1, s2.2]

end

/-- In float32 arithmetic and up to 1024 dimensions, similarities are right to `1.3e-4 + 6.2e-4 / t` for a target
of length `t`. -/
theorem C101_float32 (n : Nat) (hn : n ≤ 1024) :
    targetErr ((2 : ℝ)⁻¹ ^ 24) n ≤ 102 / 1000000 ∧
      ∀ t : ℝ, 0 < t → analogyErr ((2 : ℝ)⁻¹ ^ 24) n t ≤ 13 / 100000 + 62 / 100000 / t := by
  obtain ⟨_, h1, h2, h3⟩ := C58_float32 n hn
  have hr : unitErr ((2 : ℝ)⁻¹ ^ 24) n ≤ 1 / 10000 := max_le (by linarith) (by linarith)
  have ht : targetErr ((2 : ℝ)⁻¹ ^ 24) n ≤ 102 / 1000000 := by
    unfold targetErr
    have : (1 + unitErr ((2 : ℝ)⁻¹ ^ 24) n) * (1 + (2 : ℝ)⁻¹ ^ 24) ^ 2 ≤
        (1 + 1 / 10000) * (1 + (2 : ℝ)⁻¹ ^ 24) ^ 2 :=
      mul_le_mul_of_nonneg_right (by linarith) (by positivity)
    norm_num at this ⊢
    linarith
  refine ⟨ht, fun t h0 => ?_⟩
  unfold analogyErr
  have : 6 * targetErr ((2 : ℝ)⁻¹ ^ 24) n / t ≤ 62 / 100000 / t :=
    div_le_div_of_nonneg_right (by linarith) h0.le
  linarith

open Sample in
/-- (3, 4) is to (4, 3) as (1, 0) is to what? -/
example : ∀ S : Sel Rnd, @Sel.Admissible Rnd rndScore S →
    ∃ (e : Embeddings Rnd) (res : List (PyStr × Rnd)),
      Rd.run (@loadWord2vec Rnd rndOps rndCodec false)
        (w2vFile 2 [([97], [3, 4]), ([0xDF], [4, 3]), ([98], [1, 0]), ([99], [2, 1]), ([100], [0, 1])]) = .ok e ∧
      @Embeddings.analogy Rnd rndOps S e [97] [0xDF] [98] (1 : Nat) none = .ok (some res) ∧ res.length = 1 ∧
      ∀ w x, (w, x) ∈ res → ∃ r : List F32, (w = [99] ∧ r = [2, 1] ∨ w = [100] ∧ r = [0, 1]) ∧
        |x.val - exactCos (r.map fun b => (b.toNat : ℝ)) [6 / 5, -1 / 5]| ≤ 75 / 100000 := by
  intro S hS
  have hw : ∀ p ∈ [(([97] : PyStr), ([3, 4] : List F32)), ([0xDF], [4, 3]), ([98], [1, 0]), ([99], [2, 1]),
      ([100], [0, 1])], W2vWord p.1 := by
    intro p hp
    simp only [List.mem_cons, List.not_mem_nil, or_false] at hp
    rcases hp with rfl | rfl | rfl | rfl | rfl <;>
    · refine ⟨?_, ?_, ?_, ?_⟩ <;> intro c hc <;> simp at hc <;> subst hc <;> decide
  obtain ⟨e, h1, hN⟩ := @C38_load Rnd rndOps rndCodec false 2 _ hw (by decide) (by decide)
    (by unfold ShapeOk; decide)
  have l34 : exactLen [3, 4] = 5 := by
    rw [exactLen, show exactDot [3, 4] [3, 4] = 5 ^ 2 by simp [exactDot]; norm_num]
    exact Real.sqrt_sq (by norm_num)
  have l43 : exactLen [4, 3] = 5 := by
    rw [exactLen, show exactDot [4, 3] [4, 3] = 5 ^ 2 by simp [exactDot]; norm_num]
    exact Real.sqrt_sq (by norm_num)
  have l10 : exactLen [1, 0] = 1 := by
    rw [exactLen, show exactDot [1, 0] [1, 0] = 1 ^ 2 by simp [exactDot]]
    exact Real.sqrt_sq (by norm_num)
  have hm : ∀ r : List F32, (r.map rndCodec.ofBits).map Rnd.val = r.map fun b => (b.toNat : ℝ) := by
    intro r
    rw [List.map_map]
    rfl
  have hT : exactTarget (([3, 4].map rndCodec.ofBits).map Rnd.val) (([4, 3].map rndCodec.ofBits).map Rnd.val)
      (([1, 0].map rndCodec.ofBits).map Rnd.val) = [6 / 5, -1 / 5] := by
    rw [hm, hm, hm]
    have e1 : (([3, 4] : List F32).map fun b => (b.toNat : ℝ)) = [3, 4] := by
      show [((3 : Nat) : ℝ), ((4 : Nat) : ℝ)] = _
      norm_num
    have e2 : (([4, 3] : List F32).map fun b => (b.toNat : ℝ)) = [4, 3] := by
      show [((4 : Nat) : ℝ), ((3 : Nat) : ℝ)] = _
      norm_num
    have e3 : (([1, 0] : List F32).map fun b => (b.toNat : ℝ)) = [1, 0] := by
      show [((1 : Nat) : ℝ), ((0 : Nat) : ℝ)] = _
      norm_num
    rw [e1, e2, e3]
    unfold exactTarget exactUnit
    rw [l34, l43, l10]
    norm_num
  have hlen : (1 : ℝ) ≤ exactLen [6 / 5, -1 / 5] := by
    rw [exactLen, Real.one_le_sqrt]
    simp only [exactDot]
    norm_num
  obtain ⟨g1, g2⟩ := C101_float32 2 (by norm_num)
  obtain ⟨res, h3, h4, _, h5, _⟩ := @C101_analogy Rnd rndOps _ Rnd.val rndScore rounded
    (fun a b _ _ h => rnd_val a b h) S hS e (@loadWord2vec_built Rnd rndOps rndCodec _ _ _ h1).1 2 _ _ hN
    (C58_float32 2 (by norm_num)).1 0 1 2 [97] [0xDF] [98] _ _ _ rfl rfl rfl rfl rfl rfl
    (by
      obtain ⟨b, hb, h0⟩ := rnd_nonzero (r := [3, 4]) ⟨3, by decide, by decide⟩
      exact ⟨_, List.mem_map_of_mem hb, h0⟩)
    (by
      obtain ⟨b, hb, h0⟩ := rnd_nonzero (r := [4, 3]) ⟨3, by decide, by decide⟩
      exact ⟨_, List.mem_map_of_mem hb, h0⟩)
    (by
      obtain ⟨b, hb, h0⟩ := rnd_nonzero (r := [1, 0]) ⟨1, by decide, by decide⟩
      exact ⟨_, List.mem_map_of_mem hb, h0⟩)
    (by
      rw [hT]
      linarith)
    none _ (Or.inr ⟨rfl, rfl⟩) (fun _ _ _ _ => rfl) 1 (by decide)
  refine ⟨e, res, h1, h3, h4, fun w x hx => ?_⟩
  obtain ⟨hne, i, v', hi, hv', hc⟩ := h5 w x hx
  rw [hT] at hc
  have hb : analogyErr ((2 : ℝ)⁻¹ ^ 24) 2 (exactLen [6 / 5, -1 / 5]) ≤ 75 / 100000 := by
    refine (g2 _ (by linarith)).trans ?_
    have : (62 / 100000 : ℝ) / exactLen [6 / 5, -1 / 5] ≤ 62 / 100000 :=
      div_le_self (by norm_num) hlen
    linarith
  have hi5 : i < 5 := by
    have := (List.getElem?_eq_some_iff.mp hi).1
    simpa using this
  interval_cases i
  · cases hi
    exact absurd (by decide) hne
  · cases hi
    exact absurd (by decide) hne
  · cases hi
    exact absurd (by decide) hne
  · cases hi
    cases hv'
    refine ⟨[2, 1], Or.inl ⟨rfl, rfl⟩, ?_⟩
    have := hc (by
      obtain ⟨b, hb, h0⟩ := rnd_nonzero (r := [2, 1]) ⟨1, by decide, by decide⟩
      exact ⟨_, List.mem_map_of_mem hb, h0⟩)
    rw [hm] at this
    exact this.trans hb
  · cases hi
    cases hv'
    refine ⟨[0, 1], Or.inr ⟨rfl, rfl⟩, ?_⟩
    have := hc (by
      obtain ⟨b, hb, h0⟩ := rnd_nonzero (r := [0, 1]) ⟨1, by decide, by decide⟩
      exact ⟨_, List.mem_map_of_mem hb, h0⟩)
    rw [hm] at this
    exact this.trans hb

end FF
