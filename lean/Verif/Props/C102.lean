import Verif.Lemmas.RoundAnalogy
import Verif.Props.C69
/-!
# C102: analogies in float32 arithmetic

With the operations of IEEE 754 binary32, `analogy` on loaded embeddings answers without NaN and scores words by the
cosine between their vector in the file and `c + (b - a)`, for the vectors of the three words in the file scaled to
length one, up to an explicit error.
-/

namespace FF

open F32

/-- A component of a vector divided by its computed length. -/
theorem row_component_b32 {s r L n x y : ℝ} (hs : s ≤ 1 / 15) (hu : 0 ≤ uu) (hL : 0 < L) (hr0 : 0 ≤ r)
    (hr : r + uu ≤ 6 / 10 * s) (hn : |n - L| ≤ r * L) (hy : |y - x / n| ≤ uu * |x / n| + eta) :
    |y - x / L| ≤ 7 / 10 * s * |x / L| + eta := by
  obtain ⟨n1, n2⟩ := abs_le.mp hn
  have hr1 : r ≤ 4 / 100 := by linarith
  have hnpos : 0 < n := by nlinarith
  have hq : x / n = x / L * (L / n) := by field_simp
  rw [hq] at hy
  have f1 : L / n ≤ 1 + 7 / 6 * r := by
    rw [div_le_iff₀ hnpos]
    nlinarith
  have f2 : 1 - 7 / 6 * r ≤ L / n := by
    rw [le_div_iff₀ hnpos]
    nlinarith
  set z := x / L
  set f := L / n
  have f0 : 0 < f := div_pos hL hnpos
  rw [abs_mul, abs_of_pos f0] at hy
  have hz := abs_nonneg z
  have t := abs_add_le (y - z * f) (z * (f - 1))
  rw [abs_mul, show y - z * f + z * (f - 1) = y - z by ring] at t
  have hf : |f - 1| ≤ 7 / 6 * r := abs_le.mpr ⟨by linarith, by linarith⟩
  have h1 : uu * (|z| * f) ≤ 7 / 6 * uu * |z| := by
    have : f ≤ 7 / 6 := by linarith
    nlinarith [mul_nonneg hu hz]
  have h2 : |z| * |f - 1| ≤ 7 / 6 * r * |z| := by
    rw [mul_comm]
    exact mul_le_mul_of_nonneg_right hf hz
  have h3 : 7 / 6 * (r + uu) * |z| ≤ 7 / 10 * s * |z| :=
    mul_le_mul_of_nonneg_right (by linarith) hz
  nlinarith

/-- A component of `c + (b - a)`. -/
theorem target_component_b32 {s a b c A B C d : ℝ} (hs0 : 0 ≤ s) (hs : s ≤ 1 / 15) (hu : 8 * uu ≤ s)
    (ha : |a - A| ≤ 7 / 10 * s * |A| + eta) (hb : |b - B| ≤ 7 / 10 * s * |B| + eta)
    (hc : |c - C| ≤ 7 / 10 * s * |C| + eta) (hd : |d - (c + (b - a))| ≤ 3 * uu * (|c| + |b - a|)) :
    |d - (C + (B - A))| ≤ 12 / 10 * s * (|A| + |B| + |C|) + 4 * eta := by
  have u0 := uu_pos
  have e0 := eta_pos
  have a0 := abs_nonneg A
  have b0 := abs_nonneg B
  have c0 := abs_nonneg C
  have ga : |a| ≤ 11 / 10 * |A| + eta := by
    have := abs_add_le (a - A) A
    simp only [sub_add_cancel] at this
    nlinarith
  have gb : |b| ≤ 11 / 10 * |B| + eta := by
    have := abs_add_le (b - B) B
    simp only [sub_add_cancel] at this
    nlinarith
  have gc : |c| ≤ 11 / 10 * |C| + eta := by
    have := abs_add_le (c - C) C
    simp only [sub_add_cancel] at this
    nlinarith
  have gs := abs_sub b a
  have gd : |d - (c + (b - a))| ≤ 3 / 8 * s * (11 / 10 * (|A| + |B| + |C|) + 3 * eta) := by
    refine hd.trans (mul_le_mul (by linarith) (by linarith) (by positivity) (by positivity))
  have e : d - (C + (B - A)) = (d - (c + (b - a))) + ((c - C) + ((b - B) + -(a - A))) := by ring
  rw [e]
  have t1 := abs_add_le (d - (c + (b - a))) ((c - C) + ((b - B) + -(a - A)))
  have t3 := abs_add_le (c - C) ((b - B) + -(a - A))
  have t4 := abs_add_le (b - B) (-(a - A))
  rw [abs_neg] at t4
  have m1 : 0 ≤ s * (|A| + |B| + |C|) := by positivity
  have m2 : s * eta ≤ 1 / 15 * eta := mul_le_mul_of_nonneg_right hs e0.le
  nlinarith

section
variable [NumOps F32]

/-- `analogy` on embeddings whose rows are the vectors `vs` divided by their lengths. -/
theorem C102_analogy (hB : Binary32) (S : Sel F32) (hS : S.Admissible) (e : Embeddings F32)
    (he : BuiltEmb e) (cols : Nat) (hcols : cols ≤ 2 ^ 20) (vs : List (List F32)) (hN : WordRows cols vs e)
    (hm : ∀ v ∈ vs, NormInRange v (NumOps.normAxis v)) (j1 j2 j3 : Nat) (w1 w2 w3 : PyStr) (v1 v2 v3 : List F32)
    (hw1 : e.vocab.words[j1]? = some w1) (hw2 : e.vocab.words[j2]? = some w2) (hw3 : e.vocab.words[j3]? = some w3)
    (hv1 : vs[j1]? = some v1) (hv2 : vs[j2]? = some v2) (hv3 : vs[j3]? = some v3)
    (T : List ℝ) (hT : T = exactTarget (v1.map val) (v2.map val) (v3.map val))
    (ht : 5 * ((cols + 8) * 2⁻¹ ^ 24) ≤ exactLen T)
    (k : Nat) (skip : Option (List PyStr))
    (skips : List PyStr) (hskip : skip = some skips ∨ skip = none ∧ skips = [w1, w2, w3])
    (hk : k + knownSkips e.vocab.words skips ≤ e.vocab.words.length) :
    ∃ res, e.analogy S w1 w2 w3 k skip = .ok (some res) ∧
      TargetAnswer e.vocab.words vs T (analogyErr32 cols (exactLen T)) skips k res := by
  have hN' := hN
  obtain ⟨n1, rows, n6, n8⟩ := hN'
  have hwf : ∀ r ∈ rows, r.length = cols := by
    have := he.storage
    rw [n6] at this
    exact this.1
  have hlen : ∀ (i : Nat) v, vs[i]? = some v → v.length = cols := by
    intro i v hv
    have := hwf _ (List.mem_of_getElem? (n8 i v hv))
    simpa using this
  have u0 := uu_pos
  have e0 := eta_pos
  set s := (cols + 8 : ℝ) * uu with hs
  change 5 * s ≤ exactLen T at ht
  have hs8 : 8 * uu ≤ s := by
    have : 0 ≤ (cols : ℝ) * uu := by positivity
    rw [hs]; linarith
  have hs1 : s ≤ 1 / 15 := by
    have : (cols : ℝ) ≤ 2 ^ 20 := by exact_mod_cast hcols
    have h1 : (2 ^ 20 + 8 : ℝ) * uu ≤ 1 / 15 := by
      unfold uu
      norm_num
    exact le_trans (mul_le_mul_of_nonneg_right (by linarith) u0.le) h1
  -- the rows
  have row : ∀ (i : Nat) w v, e.vocab.words[i]? = some w → vs[i]? = some v → ∃ r : List F32,
      e.embedding w = .ok (some r) ∧ r.length = cols ∧ (∀ x ∈ r, Finite x ∧ |val x| ≤ 2 ^ 50) ∧
      exactLen (exactUnit (v.map val)) = 1 ∧
      ∀ (t : Nat) x y, (exactUnit (v.map val))[t]? = some x → r[t]? = some y →
        |val y - x| ≤ 7 / 10 * s * |x| + eta := by
    intro i w v hw hv
    have hl := hlen i v hv
    have hget : e.storage.getOne i = .ok (v.map fun x => NumOps.div x (NumOps.normAxis v)) := by
      rw [n6]
      exact npGet_nat.mpr (n8 i v hv)
    obtain ⟨_, em, _⟩ := C28_known e he i w _ hw hget
    obtain ⟨d, hr, hnd⟩ := normAxis_b32 hB (hm v (List.mem_of_getElem? hv))
    obtain ⟨q1, q2, q3, q4, q5⟩ := norm_ranged hr
    obtain ⟨g1, g2, g3⟩ := unit_ranged hr (div_ranged hB hr)
    rw [hl] at q5 g3
    rw [hnd] at em
    refine ⟨_, em, by simpa using hl, fun x hx => ⟨g1 x hx, ?_⟩, ?_, ?_⟩
    · have h1 := abs_le_exactLen (List.mem_map_of_mem (f := val) hx)
      have h2 := (abs_le.mp g3).2
      have : (2 : ℝ) ≤ 2 ^ 50 := by norm_num
      linarith
    · unfold exactUnit
      rw [exactLen, exactDot_scale, exactLen_sq]
      rw [exactLen, Real.sqrt_pos] at q2
      rw [div_self q2.ne', Real.sqrt_one]
    · intro t x y hx hy
      unfold exactUnit at hx
      rw [List.map_map, List.getElem?_map] at hx
      obtain ⟨z, hz, rfl⟩ := Option.map_eq_some_iff.mp hx
      refine row_component_b32 hs1 u0.le q2 (by positivity) ?_ q5 (g2 t z y hz hy)
      have : 0 ≤ (cols : ℝ) * uu := by positivity
      rw [hs]; linarith
  obtain ⟨a, ea, la, fa, ua, ca⟩ := row j1 w1 v1 hw1 hv1
  obtain ⟨b, eb, lb, fb, ub, cb⟩ := row j2 w2 v2 hw2 hv2
  obtain ⟨c, ec, lc, fc, uc, cc⟩ := row j3 w3 v3 hw3 hv3
  obtain ⟨d, ld, hd, hres⟩ := C69_analogy_partial hB S hS e he cols hcols vs hN hm w1 w2 w3 a b c ea eb ec fa fb fc
    k skip skips hskip (by rintro h; rw [h] at hw1; simp at hw1) hk
  have lU : ∀ {w : List F32}, w.length = cols → (exactUnit (w.map val)).length = cols := by
    intro w hw
    simp [exactUnit, hw]
  have l1 := lU (hlen j1 v1 hv1)
  have l2 := lU (hlen j2 v2 hv2)
  have l3 := lU (hlen j3 v3 hv3)
  have lT : T.length = cols := by rw [hT]; simp [exactTarget, l1, l2, l3]
  set D := List.zipWith (· - ·) (d.map val) T with hD
  have lD : D.length = cols := by rw [hD]; simp [ld, lT]
  have hdT : d.map val = List.zipWith (· + ·) T D := by
    refine List.ext_getElem (by simp [ld, lT, lD]) fun t g1 g2 => ?_
    simp only [List.getElem_zipWith, hD]
    ring
  have hDlen : exactLen D ≤ 4 * s := by
    have := len_three_const (k := 12 / 10 * s) (h := 4 * eta) (by linarith) (by linarith) D
      (exactUnit (v1.map val)) (exactUnit (v2.map val)) (exactUnit (v3.map val))
      (by rw [l1, lD]) (by rw [l2, lD]) (by rw [l3, lD]) (by
        intro t y p q r hy hp hq hr
        have ht1 : t < cols := by
          have := (List.getElem?_eq_some_iff.mp hp).1
          rwa [l1] at this
        have xa : a[t]? = some (a[t]'(by omega)) := List.getElem?_eq_getElem _
        have xb : b[t]? = some (b[t]'(by omega)) := List.getElem?_eq_getElem _
        have xc : c[t]? = some (c[t]'(by omega)) := List.getElem?_eq_getElem _
        obtain ⟨x, hx, _, hxd⟩ := hd t _ _ _ xa xb xc
        have hTt : T[t]? = some (r + (q - p)) := by
          rw [hT]
          unfold exactTarget
          rw [List.getElem?_zipWith, List.getElem?_zipWith, hp, hq, hr]
        rw [hD, List.getElem?_zipWith, List.getElem?_map, hx, hTt] at hy
        rw [← Option.some.inj hy]
        exact target_component_b32 (by linarith) hs1 hs8 (ca t p _ hp xa) (cb t q _ hq xb) (cc t r _ hr xc) hxd)
    rw [ua, ub, uc, lD] at this
    have h1 : Real.sqrt cols ≤ 2 ^ 10 := by
      rw [Real.sqrt_le_left (by norm_num)]
      have : (cols : ℝ) ≤ 2 ^ 20 := by exact_mod_cast hcols
      norm_num at this ⊢
      exact this
    have h2 : 4 * eta * Real.sqrt cols ≤ 4 * eta * 2 ^ 10 := mul_le_mul_of_nonneg_left h1 (by linarith)
    have h3 : 4 * eta * 2 ^ 10 ≤ uu := by
      unfold eta uu
      norm_num
    linarith
  have hspos : 0 < s := by linarith
  have hlow : (2 : ℝ)⁻¹ ^ 59 ≤ exactLen (d.map val) := by
    have h1 := len_perturb T D (by rw [lT, lD])
    rw [← hdT] at h1
    have h2 : (2 : ℝ)⁻¹ ^ 59 ≤ uu := by
      unfold uu
      norm_num
    linarith [(abs_le.mp h1).1]
  obtain ⟨res, r1, rA⟩ := hres hlow
  have hvs : ∀ {i : Nat} {v}, vs[i]? = some v →
      |exactCos (v.map val) (d.map val) - exactCos (v.map val) T| ≤ 8 * s / exactLen T := by
    intro i v hv
    obtain ⟨d', hr, _⟩ := normAxis_b32 hB (hm v (List.mem_of_getElem? hv))
    obtain ⟨_, p2⟩ := cos_perturb (v.map val) T D (by rw [lT, lD]) (norm_ranged hr).2.1 (by linarith)
    rw [← hdT] at p2
    exact p2.trans (div_le_div_of_nonneg_right (by linarith) (by linarith))
  have hE : analogyErr32 cols (exactLen T) = (3 * cols + 16) * 2⁻¹ ^ 24 + 8 * s / exactLen T := rfl
  rw [hE]
  refine ⟨res, r1, rA.length, rA.nodup, ?_, ?_⟩
  · intro w x hx
    obtain ⟨q1, q2, i, v, q3, q4, q5⟩ := rA.scores w x hx
    refine ⟨q1, q2, i, v, q3, q4, ?_⟩
    have tri := abs_sub_le (val x) (exactCos (v.map val) (d.map val)) (exactCos (v.map val) T)
    have := hvs q4
    rw [ld] at q5
    linarith
  · intro i i' w w' v v' hi hv hi' hv' hne hin hout
    have h := rA.best i i' w w' v v' hi hv hi' hv' hne hin hout
    rw [ld] at h
    have a1 := abs_le.mp (hvs hv)
    have a2 := abs_le.mp (hvs hv')
    linarith [a1.1, a1.2, a2.1, a2.2]

/-- Embeddings whose rows are the vectors `vs` divided by their lengths, with all lengths in range, answer all
analogies of their words whose target is not too short. -/
def AnswersAnalogies (cols : Nat) (words : List PyStr) (vs : List (List F32)) (e : Embeddings F32) : Prop :=
  (∀ v ∈ vs, NormInRange v (NumOps.normAxis v)) → ∀ (S : Sel F32), S.Admissible → ∀ (j1 j2 j3 : Nat) w1 w2 w3 v1 v2 v3,
    words[j1]? = some w1 → words[j2]? = some w2 → words[j3]? = some w3 →
    vs[j1]? = some v1 → vs[j2]? = some v2 → vs[j3]? = some v3 →
    ∀ T, T = exactTarget (v1.map val) (v2.map val) (v3.map val) → 5 * ((cols + 8) * 2⁻¹ ^ 24) ≤ exactLen T →
    ∀ (k : Nat) (skip : Option (List PyStr)) skips, (skip = some skips ∨ skip = none ∧ skips = [w1, w2, w3]) →
    k + knownSkips words skips ≤ words.length →
    ∃ res, e.analogy S w1 w2 w3 k skip = .ok (some res) ∧
      TargetAnswer words vs T (analogyErr32 cols (exactLen T)) skips k res

theorem answers_of_rows (hB : Binary32) {e : Embeddings F32} (he : BuiltEmb e) {cols : Nat}
    {vs : List (List F32)} (hN : WordRows cols vs e) : AnswersAnalogies cols e.vocab.words vs e := by
  intro hm S hS j1 j2 j3 w1 w2 w3 v1 v2 v3 hw1 hw2 hw3 hv1 hv2 hv3 T hT ht k skip skips hskip hk
  refine C102_analogy hB S hS e he cols ?_ vs hN hm j1 j2 j3 w1 w2 w3 v1 v2 v3 hw1 hw2 hw3 hv1 hv2 hv3 T hT ht k skip
    skips hskip hk
  obtain ⟨_, rows, n6, n8⟩ := hN
  have hwf : ∀ r ∈ rows, r.length = cols := by
    have := he.storage
    rw [n6] at this
    exact this.1
  have := hwf _ (List.mem_of_getElem? (n8 j1 v1 hv1))
  rw [List.length_map] at this
  rw [← this]
  exact (hm v1 (List.mem_of_getElem? hv1)).length

theorem answers_of_normalized (hB : Binary32) {e : Embeddings F32} (he : BuiltEmb e) {cols : Nat}
    {words : List PyStr} {vs : List (List F32)} (hN : Normalized cols words vs e) (hl : vs.length = words.length) :
    AnswersAnalogies cols words vs e := by
  obtain ⟨n1, _, _, _, _, rows, n6, _, n8⟩ := hN
  subst n1
  exact answers_of_rows hB he ⟨hl, rows, n6, n8⟩

/-- word2vec files. -/
theorem C102_word2vec (hB : Binary32) (lossy : Bool) (cols : Nat) (rows : List (PyStr × List F32))
    (hw : ∀ p ∈ rows, W2vWord p.1) (hl : ∀ p ∈ rows, p.2.length = cols)
    (hn : (rows.map Prod.fst).Nodup) (hs : ShapeOk rows.length cols) :
    ∃ e : Embeddings F32, Rd.run (loadWord2vec lossy) (w2vFile cols rows) = .ok e ∧
      AnswersAnalogies cols (rows.map Prod.fst) (rows.map Prod.snd) e := by
  obtain ⟨e, h1, hN⟩ := C38_load (K := F32) lossy cols rows hw hl hn hs
  have : (rows.map fun p => p.2.map (Codec.ofBits : F32 → F32)) = rows.map Prod.snd :=
    List.map_congr_left fun p _ => List.map_id p.2
  rw [this] at hN
  exact ⟨e, h1, answers_of_normalized hB (loadWord2vec_built h1).1 hN (by simp)⟩

/-- Text files, with and without dimensions. -/
theorem C102_text [TextIO] [NumText F32] (hB : Binary32) (dims lossy : Bool) (sep : PyStr) (hs : TextSep sep)
    (cols : Nat) (rows : List (PyStr × List F32)) (h : TextRows cols rows) (hne : dims = false → rows ≠ []) :
    ∃ e : Embeddings F32, (if dims then loadTextDims lossy else loadText lossy)
        (utf8 (textFile dims sep cols (strRows rows))) = .ok e ∧
      AnswersAnalogies cols (rows.map Prod.fst) (rows.map Prod.snd) e := by
  cases dims with
  | true =>
    obtain ⟨e, h1, hN⟩ := C40_load_dims lossy sep hs cols rows h
    exact ⟨e, h1, answers_of_normalized hB (loadTextDims_built h1).1 hN (by simp)⟩
  | false =>
    obtain ⟨e, h1, hN⟩ := C40_load lossy sep hs cols rows h (hne rfl)
    exact ⟨e, h1, answers_of_normalized hB (loadText_built h1).1 hN (by simp)⟩

/-- fastText files: the vector of a word is the computed mean of its row and the rows of its n-grams. -/
theorem C102_fasttext (hB : Binary32) (f : FtFile) (hf : f.OK) (lossy : Bool) :
    ∃ (e : Embeddings F32) (means : List (List F32)), Rd.run (loadFasttext lossy) f.bytes = .ok e ∧
      means.length = f.words.length ∧
      (∀ (i : Nat) p, f.words[i]? = some p → ∃ is sel mean, means[i]? = some mean ∧
        FtSubwords ⟨f.buckets, f.minN, f.maxN⟩ f.words.length p.1 is ∧
        List.Forall₂ (fun j r => f.rows[j]? = some r) (i :: is) sel ∧ IsMean f.cols sel mean) ∧
      AnswersAnalogies f.cols (f.words.map Prod.fst) means e := by
  obtain ⟨e, h1, h3, _, _, _, rows, norms, h4, h5, _, _, _, h6⟩ := C42_load (K := F32) f hf lossy
  have hid : (f.rows.map fun r => r.map (Codec.ofBits : F32 → F32)) = f.rows := by
    have : (fun r : List F32 => r.map (Codec.ofBits : F32 → F32)) = id := by
      funext r
      exact List.map_id r
    rw [this, List.map_id]
  have key : ∀ i : Fin f.words.length, ∃ mean : List F32, (∃ is sel,
      FtSubwords ⟨f.buckets, f.minN, f.maxN⟩ f.words.length f.words[i].1 is ∧
      List.Forall₂ (fun j r => f.rows[j]? = some r) (i.val :: is) sel ∧ IsMean f.cols sel mean) ∧
      rows[i.val]? = some (mean.map fun x => NumOps.div x (NumOps.normAxis mean)) := by
    intro i
    obtain ⟨is, sel, mean, g1, g2, g3, g4, g5⟩ := h6 i.val f.words[i].1 (by simp)
    rw [hid] at g2
    exact ⟨mean, ⟨is, sel, g1, g2, g3⟩, g5⟩
  choose mean hmean using key
  refine ⟨e, List.ofFn mean, h1, by simp, ?_, ?_⟩
  · intro i p hp
    obtain ⟨hi, rfl⟩ := List.getElem?_eq_some_iff.mp hp
    obtain ⟨⟨is, sel, g⟩, _⟩ := hmean ⟨i, hi⟩
    exact ⟨is, sel, mean ⟨i, hi⟩, by simp [hi], g⟩
  · have := answers_of_rows hB (loadFasttext_built h1).1 (cols := f.cols) (vs := List.ofFn mean)
      ⟨by rw [h3]; simp, rows, h4, by
        intro i v hv
        have hi := (List.getElem?_eq_some_iff.mp hv).1
        rw [List.length_ofFn] at hi
        rw [List.getElem?_ofFn, dif_pos hi] at hv
        cases hv
        exact (hmean ⟨i, hi⟩).2⟩
    rw [h3] at this
    exact this

end

open Sample in
/-- `a` is to `b` as `b` to what: `b` has the cosine of (4, 3) and 2 · (4/5, 3/5) - (3/5, 4/5) = (1, 2/5). -/
example : ∃ res, @Embeddings.analogy F32 b32Ops (@Sel.sorting F32 b32Score ⟨0⟩) embUnit [97] [98] [98] 1
      (some [[97]]) = .ok (some res) ∧ res.length = 1 ∧
    ∀ w x, (w, x) ∈ res → w = [98] ∧ Finite x ∧ |val x - exactCos [4, 3] [1, 2 / 5]| ≤ 1 / 100000 := by
  have m34 : ([0x40400000, 0x40800000] : List F32).map val = [3, 4] := by
    simp [val_three.2, val_four.2]
  have m43 : ([0x40800000, 0x40400000] : List F32).map val = [4, 3] := by
    simp [val_three.2, val_four.2]
  have l34 : exactLen [3, 4] = 5 := by
    rw [exactLen, show exactDot [3, 4] [3, 4] = 5 ^ 2 by simp [exactDot]; norm_num]
    exact Real.sqrt_sq (by norm_num)
  have l43 : exactLen [4, 3] = 5 := by
    rw [exactLen, show exactDot [4, 3] [4, 3] = 5 ^ 2 by simp [exactDot]; norm_num]
    exact Real.sqrt_sq (by norm_num)
  have hT : [1, 2 / 5] = exactTarget (([0x40400000, 0x40800000] : List F32).map val)
      (([0x40800000, 0x40400000] : List F32).map val) (([0x40800000, 0x40400000] : List F32).map val) := by
    rw [m34, m43]
    unfold exactTarget exactUnit
    rw [l34, l43]
    norm_num
  have hlen : (1 : ℝ) ≤ exactLen [1, 2 / 5] := by
    rw [exactLen, Real.one_le_sqrt]
    simp only [exactDot]
    norm_num
  obtain ⟨res, h1, h2, _, h3, _⟩ := @C102_analogy b32Ops binary32_b32 _ (@sorting_admissible F32 b32Score ⟨0⟩)
    embUnit builtEmbUnit 2 (by norm_num) _ wordRowsUnit inRangeUnit 0 1 1 [97] [98] [98] _ _ _ rfl rfl rfl rfl rfl rfl
    [1, 2 / 5] hT (le_trans (by norm_num) hlen) 1 (some [[97]]) [[97]] (Or.inl rfl) (by decide)
  refine ⟨res, h1, h2, fun w x hx => ?_⟩
  obtain ⟨q1, q2, i, v, q3, q4, q5⟩ := h3 w x hx
  match i, q3, q4 with
  | 0, q3, _ =>
    cases q3
    exact absurd (by decide) q1
  | 1, q3, q4 =>
    cases q3
    cases q4
    rw [m43] at q5
    refine ⟨rfl, q2, q5.trans ?_⟩
    unfold analogyErr32
    have : (8 * ((2 + 8) * 2⁻¹ ^ 24) : ℝ) / exactLen [1, 2 / 5] ≤ 8 * ((2 + 8) * 2⁻¹ ^ 24) :=
      div_le_self (by norm_num) hlen
    push_cast
    norm_num at this ⊢
    linarith

open Sample in
/-- The same from a word2vec file, for the words `a`, `ß` and `b`; nothing is skipped. -/
example : ∃ (e : Embeddings F32) (res : List (PyStr × F32)), Rd.run (@loadWord2vec F32 b32Ops _ false)
      (w2vFile 2 [([97], [0x40400000, 0x40800000]), ([0xDF], [0x40800000, 0x40400000])]) = .ok e ∧
    @Embeddings.analogy F32 b32Ops (@Sel.sorting F32 b32Score ⟨0⟩) e [97] [0xDF] [0xDF] 2 (some []) = .ok (some res) ∧
    res.length = 2 := by
  have hw : ∀ p ∈ [(([97] : PyStr), ([0x40400000, 0x40800000] : List F32)), ([0xDF], [0x40800000, 0x40400000])],
      W2vWord p.1 := by
    intro p hp
    simp only [List.mem_cons, List.not_mem_nil, or_false] at hp
    rcases hp with rfl | rfl <;>
    · refine ⟨?_, ?_, ?_, ?_⟩ <;> intro c hc <;> simp at hc <;> subst hc <;> decide
  obtain ⟨e, h1, hA⟩ := @C102_word2vec b32Ops binary32_b32 false 2 _ hw (by decide) (by decide)
    (by unfold ShapeOk; decide)
  have m34 : ([0x40400000, 0x40800000] : List F32).map val = [3, 4] := by
    simp [val_three.2, val_four.2]
  have m43 : ([0x40800000, 0x40400000] : List F32).map val = [4, 3] := by
    simp [val_three.2, val_four.2]
  have l34 : exactLen [3, 4] = 5 := by
    rw [exactLen, show exactDot [3, 4] [3, 4] = 5 ^ 2 by simp [exactDot]; norm_num]
    exact Real.sqrt_sq (by norm_num)
  have l43 : exactLen [4, 3] = 5 := by
    rw [exactLen, show exactDot [4, 3] [4, 3] = 5 ^ 2 by simp [exactDot]; norm_num]
    exact Real.sqrt_sq (by norm_num)
  have hT : [1, 2 / 5] = exactTarget (([0x40400000, 0x40800000] : List F32).map val)
      (([0x40800000, 0x40400000] : List F32).map val) (([0x40800000, 0x40400000] : List F32).map val) := by
    rw [m34, m43]
    unfold exactTarget exactUnit
    rw [l34, l43]
    norm_num
  have hlen : (1 : ℝ) ≤ exactLen [1, 2 / 5] := by
    rw [exactLen, Real.one_le_sqrt]
    simp only [exactDot]
    norm_num
  obtain ⟨res, h2, h3⟩ := hA inRangeUnit _ (@sorting_admissible F32 b32Score ⟨0⟩) 0 1 1 [97] [0xDF] [0xDF] _ _ _
    rfl rfl rfl rfl rfl rfl [1, 2 / 5] hT (le_trans (by norm_num) hlen) 2 (some []) [] (Or.inl rfl) (by decide)
  exact ⟨e, res, h1, h2, h3.length⟩

end FF
