import Verif.Lemmas.Round
import Verif.Lemmas.LoadBuilt
import Verif.Props.C28
import Verif.Props.C31
import Verif.Props.C38
import Verif.Props.C40
import Verif.Props.C42
import Verif.Props.C43
import Mathlib.Data.Int.Log
import Mathlib.Algebra.Order.Round
/-!
# C58: the effect of rounding

In rounded arithmetic (`Rounded u val`), loaded rows have length one up to rounding, exporting them
restores the original vectors up to two roundings per component, and `word_similarity` returns cosine
similarities, in the right order, up to an explicit error.
-/

namespace FF

section
variable {K : Type} [NumOps K] {u : ℝ} {val : K → ℝ}

/-- Row `i` has length one, norm `i` is the length of `v`, and the exporters restore `v`, all up to
rounding. -/
def RestoresUpTo (u : ℝ) (val : K → ℝ) (e : Embeddings K) (i : Nat) (v : List K) : Prop :=
  ∃ row n ns v', StoredRow e.storage i row ∧ e.norms = some ns ∧ ns[i]? = some n ∧ 0 < val n ∧
    row.length = v.length ∧
    lenLo u v.length ≤ exactLen (row.map val) ∧ exactLen (row.map val) ≤ lenHi u v.length ∧
    val n ≤ (1 + u) * Real.sqrt ((1 + u) ^ v.length) * exactLen (v.map val) ∧
    (1 - u) * Real.sqrt (2 - (1 + u) ^ v.length) * exactLen (v.map val) ≤ val n ∧
    Exported e i v' ∧ v'.length = v.length ∧
    ∀ (t : Nat) x y, v[t]? = some x → v'[t]? = some y →
      |val y - val x| ≤ ((1 + u) ^ 2 - 1) * |val x|

theorem map_nonzero {v : List K} (h : ∃ x ∈ v, val x ≠ 0) : ∃ x ∈ v.map val, x ≠ 0 := by
  obtain ⟨x, hx, h0⟩ := h
  exact ⟨_, List.mem_map_of_mem hx, h0⟩

omit [NumOps K] in
theorem getElem_map_inv {v : List K} {t : Nat} {y : ℝ} (h : (v.map val)[t]? = some y) :
    ∃ x, v[t]? = some x ∧ y = val x := by
  rw [List.getElem?_map] at h
  obtain ⟨x, hx, rfl⟩ := Option.map_eq_some_iff.mp h
  exact ⟨x, hx, rfl⟩

/-- Dividing by a number, componentwise. -/
theorem vdiv_near (hR : Rounded u val) {v : List K} {n : K} (hn : val n ≠ 0) :
    ∀ (t : Nat) x y, (v.map val)[t]? = some x → ((vdiv v n).map val)[t]? = some y →
      Near u (x / val n) y := by
  intro t x y hx hy
  obtain ⟨a, ha, rfl⟩ := getElem_map_inv hx
  obtain ⟨b, hb, rfl⟩ := getElem_map_inv hy
  unfold vdiv at hb
  rw [List.getElem?_map, ha] at hb
  cases hb
  exact hR.div _ _ hn

theorem unit_axis (hR : Rounded u val) {v : List K} (h0 : ∃ x ∈ v, val x ≠ 0)
    (h2 : (1 + u) ^ v.length < 2) :
    0 < val (NumOps.normAxis v) ∧
      lenLo u v.length ≤ exactLen ((vdiv v (NumOps.normAxis v)).map val) ∧
      exactLen ((vdiv v (NumOps.normAxis v)).map val) ≤ lenHi u v.length := by
  obtain ⟨d, hd, hn⟩ := hR.normAxis v
  have := unit_len hR.u_nonneg hR.u_lt (map_nonzero h0) (by rw [List.length_map]; exact h2) hd hn
    (w := (vdiv v (NumOps.normAxis v)).map val) (by simp [vdiv]) fun h => vdiv_near hR h
  rw [List.length_map] at this
  exact this

theorem unit_norm (hR : Rounded u val) {v : List K} (h0 : ∃ x ∈ v, val x ≠ 0)
    (h2 : (1 + u) ^ v.length < 2) :
    0 < val (NumOps.norm v) ∧
      lenLo u v.length ≤ exactLen ((vdiv v (NumOps.norm v)).map val) ∧
      exactLen ((vdiv v (NumOps.norm v)).map val) ≤ lenHi u v.length := by
  obtain ⟨d, hd, hn⟩ := hR.norm v
  have := unit_len hR.u_nonneg hR.u_lt (map_nonzero h0) (by rw [List.length_map]; exact h2) hd hn
    (w := (vdiv v (NumOps.norm v)).map val) (by simp [vdiv]) fun h => vdiv_near hR h
  rw [List.length_map] at this
  exact this

theorem restoresUpTo_core (hR : Rounded u val) {e : Embeddings K} {i : Nat} {v ns : List K} {c : Nat}
    {rows : List (List K)} (hst : e.storage = .nd ⟨c, rows⟩)
    (hrow : rows[i]? = some (v.map fun x => NumOps.div x (NumOps.normAxis v)))
    (hns : e.norms = some ns) (hn : ns[i]? = some (NumOps.normAxis v)) (h0 : ∃ x ∈ v, val x ≠ 0)
    (h2 : (1 + u) ^ v.length < 2) : RestoresUpTo u val e i v := by
  obtain ⟨hp, h3, h4⟩ := unit_axis hR h0 h2
  obtain ⟨d, hd, hd2⟩ := hR.normAxis v
  obtain ⟨h5, h6⟩ := norm_bounds hR.u_nonneg hR.u_lt hd hd2
  rw [List.length_map] at h5 h6
  have hs : StoredRow e.storage i (v.map fun x => NumOps.div x (NumOps.normAxis v)) := by
    rw [hst]; exact hrow
  refine ⟨_, _, ns, (v.map fun x => NumOps.div x (NumOps.normAxis v)).map
      fun x => NumOps.mul x (NumOps.normAxis v), hs, hns, hn, hp, by simp, h3, h4, h5, h6, ?_, by simp, ?_⟩
  · refine ⟨_, hs, ?_⟩
    rw [hns]
    refine ⟨_, hn, by simp, fun t x hx => ?_⟩
    rw [List.getElem?_map, hx]; rfl
  · intro t x y hx hy
    rw [List.getElem?_map, List.getElem?_map, hx] at hy
    cases hy
    exact restore_error hR.u_nonneg hp (hR.div _ _ hp.ne') (hR.mul _ _)

theorem normalized_restoresUpTo (hR : Rounded u val) {cols : Nat} {words : List PyStr}
    {vs : List (List K)} {e : Embeddings K} (h : Normalized cols words vs e) {i : Nat} {v : List K}
    (hv : vs[i]? = some v) (h0 : ∃ x ∈ v, val x ≠ 0) (h2 : (1 + u) ^ v.length < 2) :
    RestoresUpTo u val e i v := by
  obtain ⟨_, _, _, _, h5, rows, h6, _, h7⟩ := h
  exact restoresUpTo_core hR h6 (h7 i v hv) h5 (by rw [List.getElem?_map, hv]; rfl) h0 h2

/-- word2vec files. -/
theorem C58_word2vec [Codec K] (hR : Rounded u val) (lossy : Bool) (cols : Nat)
    (rows : List (PyStr × List F32)) (hw : ∀ p ∈ rows, W2vWord p.1) (hl : ∀ p ∈ rows, p.2.length = cols)
    (hn : (rows.map Prod.fst).Nodup) (hs : ShapeOk rows.length cols) (h2 : (1 + u) ^ cols < 2) :
    ∃ e : Embeddings K, Rd.run (loadWord2vec lossy) (w2vFile cols rows) = .ok e ∧
      ∀ (i : Nat) w r, rows[i]? = some (w, r) → (∃ b ∈ r, val (Codec.ofBits b) ≠ 0) →
        e.vocab.words[i]? = some w ∧ RestoresUpTo u val e i (r.map Codec.ofBits) := by
  obtain ⟨e, h1, hN⟩ := C38_load (K := K) lossy cols rows hw hl hn hs
  refine ⟨e, h1, fun i w r hr h0 => ⟨?_, normalized_restoresUpTo hR hN ?_ ?_ ?_⟩⟩
  · rw [hN.1, List.getElem?_map, hr]; rfl
  · rw [List.getElem?_map, hr]; rfl
  · obtain ⟨b, hb, h0⟩ := h0
    exact ⟨_, List.mem_map_of_mem hb, h0⟩
  · rw [List.length_map, hl _ (List.mem_of_getElem? hr)]
    exact h2

/-- Text files, with and without dimensions. -/
theorem C58_text [TextIO] [NumText K] (hR : Rounded u val) (dims lossy : Bool) (sep : PyStr) (hs : TextSep sep)
    (cols : Nat) (rows : List (PyStr × List K)) (h : TextRows cols rows) (hne : dims = false → rows ≠ [])
    (h2 : (1 + u) ^ cols < 2) :
    ∃ e : Embeddings K, (if dims then loadTextDims lossy else loadText lossy)
        (utf8 (textFile dims sep cols (strRows rows))) = .ok e ∧
      ∀ (i : Nat) w v, rows[i]? = some (w, v) → (∃ x ∈ v, val x ≠ 0) →
        e.vocab.words[i]? = some w ∧ RestoresUpTo u val e i v := by
  have key : ∀ e, Normalized cols (rows.map Prod.fst) (rows.map Prod.snd) e →
      ∀ (i : Nat) w v, rows[i]? = some (w, v) → (∃ x ∈ v, val x ≠ 0) →
        e.vocab.words[i]? = some w ∧ RestoresUpTo u val e i v := by
    intro e hN i w v hr h0
    refine ⟨?_, normalized_restoresUpTo hR hN ?_ h0 ?_⟩
    · rw [hN.1, List.getElem?_map, hr]; rfl
    · rw [List.getElem?_map, hr]; rfl
    · rw [h.len _ (List.mem_of_getElem? hr)]
      exact h2
  cases dims with
  | true =>
    obtain ⟨e, h1, hN⟩ := C40_load_dims lossy sep hs cols rows h
    exact ⟨e, h1, key e hN⟩
  | false =>
    obtain ⟨e, h1, hN⟩ := C40_load lossy sep hs cols rows h (hne rfl)
    exact ⟨e, h1, key e hN⟩

/-- fastText files: the vector of a word is the mean of its row and the rows of its n-grams. -/
theorem C58_fasttext [Codec K] (hR : Rounded u val) (f : FtFile) (hf : f.OK) (lossy : Bool)
    (h2 : (1 + u) ^ f.cols < 2) :
    ∃ e : Embeddings K, Rd.run (loadFasttext lossy) f.bytes = .ok e ∧
      ∀ (i : Nat) p, f.words[i]? = some p → e.vocab.words[i]? = some p.1 ∧
        ∃ is sel mean, FtSubwords ⟨f.buckets, f.minN, f.maxN⟩ f.words.length p.1 is ∧
          List.Forall₂ (fun j r => (f.rows.map fun r => r.map Codec.ofBits)[j]? = some r) (i :: is) sel ∧
          IsMean f.cols sel mean ∧
          ((∃ x ∈ mean, val x ≠ 0) → RestoresUpTo u val e i mean) := by
  obtain ⟨e, h1, h3, _, _, _, rows, norms, h4, h5, _, _, _, h6⟩ := C42_load (K := K) f hf lossy
  refine ⟨e, h1, fun i p hp => ?_⟩
  have hw : (f.words.map Prod.fst)[i]? = some p.1 := by rw [List.getElem?_map, hp]; rfl
  obtain ⟨is, sel, mean, g1, g2, g3, g4, g5⟩ := h6 i _ hw
  refine ⟨by rw [h3]; exact hw, is, sel, mean, g1, g2, g3,
    fun h0 => restoresUpTo_core hR h4 g5 h5 g4 h0 ?_⟩
  obtain ⟨s, hs, rfl⟩ := g3
  rw [List.length_map, hs.1]
  exact h2

/-! ### Sums of rows -/

theorem foldl_rsum (hR : Rounded u val) (xs : List K) (a : K) (as : List ℝ) (hne : as ≠ [])
    (h : RSum u as (val a)) : RSum u (as ++ xs.map val) (val (xs.foldl NumOps.add a)) := by
  induction xs generalizing a as with
  | nil => simpa using h
  | cons x xs ih =>
    have := ih (NumOps.add a x) (as ++ [val x]) (by simp)
      (.add hne (by simp) h (.one _) (hR.add a x))
    simpa using this

/-- Sums from left to right. -/
theorem numSum_rsum (hR : Rounded u val) (xs : List K) : RSum u (xs.map val) (val (numSum xs)) := by
  cases xs with
  | nil =>
    have : val (numSum ([] : List K)) = 0 := hR.zero
    rw [this]; exact .nil
  | cons x xs => exact foldl_rsum hR xs x [val x] (by simp) (.one _)

/-- The computed mean of `m` numbers: every number goes through at most `m - 1` additions, a division
and the conversion of `m`. -/
theorem C58_mean (hR : Rounded u val) (xs : List K) (hne : xs ≠ []) :
    |val (NumOps.div (numSum xs) (NumOps.ofNat xs.length)) - (xs.map val).sum / xs.length| ≤
      ((1 + u) ^ xs.length / (1 - u) - 1) * ((xs.map fun x => |val x|).sum / xs.length) := by
  have hm : 0 < (xs.length : ℝ) := by exact_mod_cast List.length_pos_iff.mpr hne
  have hu := hR.u_nonneg
  have hu1 : 0 < 1 - u := by linarith [hR.u_lt]
  have h1 := (numSum_rsum hR xs).error hu
  rw [List.length_map] at h1
  have hab : absSum (xs.map val) = (xs.map fun x => |val x|).sum := by simp [absSum, Function.comp_def]
  rw [hab] at h1
  have hA0 : |(xs.map val).sum| ≤ (xs.map fun x => |val x|).sum := hab ▸ abs_sum_le _
  have h2 := hR.ofNat xs.length
  have hP : (1 + u) ^ xs.length = (1 + u) * (1 + u) ^ (xs.length - 1) := by
    rw [← pow_succ']
    congr 1
    have := List.length_pos_iff.mpr hne
    omega
  have hP1 : 1 ≤ (1 + u) ^ (xs.length - 1) := one_le_pow₀ (by linarith)
  rw [hP]
  generalize (1 + u) ^ (xs.length - 1) = P at h1 hP1
  generalize (xs.map fun x => |val x|).sum = A at h1 hA0
  generalize (xs.map val).sum = S at h1 hA0
  have hs : |val (numSum xs)| ≤ P * A := by
    have := abs_add_le (val (numSum xs) - S) S
    rw [sub_add_cancel] at this
    linarith
  have hA : 0 ≤ A := (abs_nonneg _).trans hA0
  obtain ⟨hN1, hN2⟩ := abs_le.mp (show |val (NumOps.ofNat xs.length) - (xs.length : ℝ)| ≤ u * |(xs.length : ℝ)|
    from h2)
  rw [abs_of_pos hm] at hN1 hN2
  have hN : (1 - u) * xs.length ≤ val (NumOps.ofNat xs.length : K) := by linarith
  have hd := hR.div (numSum xs) (NumOps.ofNat xs.length) (lt_of_lt_of_le (by positivity) hN).ne'
  unfold Near at hd
  generalize val (NumOps.div (numSum xs) (NumOps.ofNat xs.length)) = r at hd
  generalize val (numSum xs) = s at h1 hs hd
  generalize val (NumOps.ofNat xs.length : K) = N at hN hN1 hN2 hd
  generalize (xs.length : ℝ) = m at hm hN hN1 hN2
  have hN0 : 0 < N := lt_of_lt_of_le (by positivity) hN
  have e1 : |r - s / N| ≤ u * (P * A) / ((1 - u) * m) := by
    refine hd.trans ?_
    rw [abs_div, abs_of_pos hN0, ← mul_div_assoc]
    exact div_le_div₀ (by positivity) (mul_le_mul_of_nonneg_left hs hu) (by positivity) hN
  have e2 : |s / N - s / m| ≤ (P * A) * u / ((1 - u) * m) := by
    have : s / N - s / m = s * (m - N) / (N * m) := by field_simp
    rw [this, abs_div, abs_mul, abs_of_pos (mul_pos hN0 hm)]
    have hmN : |m - N| ≤ u * m := abs_le.mpr ⟨by linarith, by linarith⟩
    calc |s| * |m - N| / (N * m) ≤ (P * A) * (u * m) / (((1 - u) * m) * m) :=
          div_le_div₀ (by positivity) (mul_le_mul hs hmN (abs_nonneg _) (by positivity)) (by positivity)
            (mul_le_mul_of_nonneg_right hN hm.le)
      _ = _ := by field_simp
  have e3 : |s / m - S / m| ≤ (P - 1) * A / m := by
    rw [← sub_div, abs_div, abs_of_pos hm]
    exact div_le_div_of_nonneg_right h1 hm.le
  have t1 := abs_add_le (r - s / N) (s / N - s / m)
  have t2 := abs_add_le (r - s / m) (s / m - S / m)
  rw [sub_add_sub_cancel] at t1 t2
  have : ((1 + u) * P / (1 - u) - 1) * (A / m) =
      u * (P * A) / ((1 - u) * m) + (P * A) * u / ((1 - u) * m) + (P - 1) * A / m := by
    have := hu1.ne'
    field_simp
    ring
  rw [this]
  linarith

/-- Unknown words: the result is the sum of the rows of the n-grams, divided by its length; it has length
one up to rounding. -/
theorem C58_unknown (hR : Rounded u val) (e : Embeddings K) (he : BuiltEmb e) (w : PyStr) (is : List Int)
    (rows : List (List K)) (hidx : e.vocab.idx w = .ok (some (.many is)))
    (hrows : List.Forall₂ (fun i r => e.storage.getOne i = .ok r) is rows)
    (h2 : (1 + u) ^ e.storage.nCols < 2) :
    ∃ s v n, IsSum e.storage.nCols rows s ∧ e.getItem w = .ok v ∧
      (e.norms ≠ none → e.embeddingWithNorm w = .ok (some (v, some n))) ∧
      v.length = e.storage.nCols ∧
      ((∃ x ∈ s, val x ≠ 0) → 0 < val n ∧
        val n ≤ (1 + u) * Real.sqrt ((1 + u) ^ e.storage.nCols) * exactLen (s.map val) ∧
        (1 - u) * Real.sqrt (2 - (1 + u) ^ e.storage.nCols) * exactLen (s.map val) ≤ val n ∧
        lenLo u e.storage.nCols ≤ exactLen (v.map val) ∧
        exactLen (v.map val) ≤ lenHi u e.storage.nCols ∧
        ∀ (t : Nat) x y, s[t]? = some x → v[t]? = some y → Near u (val x / val n) (val y)) := by
  obtain ⟨h1, _, h3⟩ := C28_unknown e w is rows hidx hrows
  have hlen : ∀ r ∈ rows, r.length = e.storage.nCols := by
    intro r hr
    obtain ⟨j, hj, rfl⟩ := List.getElem_of_mem hr
    have := (List.forall₂_iff_get.mp hrows).2 j (by rw [hrows.length_eq]; exact hj) hj
    exact getOne_length he.storage this
  have hsum := addReduce_isSum hlen
  refine ⟨_, _, _, hsum, h1, h3, by simp [vdiv, hsum.1], fun h0 => ?_⟩
  obtain ⟨d, hd, hd2⟩ := hR.norm (addReduce e.storage.nCols rows)
  obtain ⟨h5, h6⟩ := norm_bounds hR.u_nonneg hR.u_lt hd hd2
  have h7 := unit_norm hR h0 (by rw [hsum.1]; exact h2)
  rw [List.length_map, hsum.1] at h5 h6
  rw [hsum.1] at h7
  refine ⟨h7.1, h5, h6, h7.2.1, h7.2.2, ?_⟩
  intro t x y hx hy
  exact vdiv_near hR h7.1.ne' t _ _ (by rw [List.getElem?_map, hx]; rfl) (by rw [List.getElem?_map, hy]; rfl)

/-- The sums are right up to rounding, componentwise. -/
theorem C58_sums (hR : Rounded u val) (cols : Nat) (rows : List (List K)) (s : List K)
    (h : IsSum cols rows s) (t : Nat) (ht : t < cols) :
    ∃ (ys : List K) (x : K), rows.map (fun r => r[t]?) = ys.map some ∧ s[t]? = some x ∧
      |val x - (ys.map val).sum| ≤
        ((1 + u) ^ (rows.length - 1) - 1) * (ys.map fun y => |val y|).sum := by
  obtain ⟨ys, h1, h2⟩ := h.2 t ht
  refine ⟨ys, _, h1, h2, ?_⟩
  have := (numSum_rsum hR ys).error hR.u_nonneg
  have hl : rows.length = ys.length := by
    have := congrArg List.length h1
    simpa using this
  rw [hl]
  simpa [absSum, Function.comp_def] using this

/-! ### Similarities -/

variable [Score K]

omit [Score K] in
/-- The score of two normalised vectors is the cosine of the originals. -/
theorem score_error (hR : Rounded u val) {v w : List K} (hl : w.length = v.length)
    (h2 : (1 + u) ^ v.length < 2) (hv : ∃ x ∈ v, val x ≠ 0) (hw : ∃ x ∈ w, val x ≠ 0) :
    |val (NumOps.dot (vdiv v (NumOps.normAxis v)) (vdiv w (NumOps.normAxis w))) -
      exactCos (v.map val) (w.map val)| ≤ cosErr u v.length := by
  obtain ⟨d, hd, hn⟩ := hR.normAxis v
  obtain ⟨d', hd', hn'⟩ := hR.normAxis w
  have := cos_error hR.u_nonneg hR.u_lt (v := v.map val) (w := w.map val)
    (r := (vdiv v (NumOps.normAxis v)).map val) (q := (vdiv w (NumOps.normAxis w)).map val)
    (by simpa using hl) (by simp [vdiv]) (by simp [vdiv]) (by simpa using h2)
    (map_nonzero hv) (map_nonzero hw) hd hn hd' hn' (fun h => vdiv_near hR h) (fun h => vdiv_near hR h)
    (hR.dot _ _)
  rw [List.length_map] at this
  exact this

/-- `word_similarity` on loaded embeddings: every score is the cosine similarity of the vectors of the
file up to `cosErr`, and no word that is left out is more similar than an answer by more than twice
that.  No score may be NaN; see C68 for words with a zero vector. -/
theorem C58_word_similarity (hR : Rounded u val)
    (hval : ∀ a b : K, Score.nan a = false → Score.nan b = false → Score.lt a b = false → val b ≤ val a) (S : Sel K) (hS : S.Admissible)
    (e : Embeddings K) (he : BuiltEmb e) (cols : Nat) (words : List PyStr) (vs : List (List K))
    (hN : Normalized cols words vs e) (h2 : (1 + u) ^ cols < 2) (j : Nat) (w : PyStr) (v : List K)
    (hw : words[j]? = some w) (hv : vs[j]? = some v) (h0 : ∃ x ∈ v, val x ≠ 0)
    (hnan : ∀ v' ∈ vs, Score.nan (NumOps.dot (vdiv v' (NumOps.normAxis v')) (vdiv v (NumOps.normAxis v))) = false)
    (k : Nat) (hk : k + knownSkips words [w] ≤ words.length) :
    ∃ res, e.wordSimilarity S w k = .ok (some res) ∧ res.length = k ∧ (res.map Prod.fst).Nodup ∧
      (∀ w' x, (w', x) ∈ res → w' ≠ w ∧ ∃ (i : Nat) (v' : List K), words[i]? = some w' ∧ vs[i]? = some v' ∧
        ((∃ x ∈ v', val x ≠ 0) →
          |val x - exactCos (v'.map val) (v.map val)| ≤ cosErr u cols)) ∧
      ∀ (i i' : Nat) w' w'' v' v'', words[i]? = some w' → vs[i]? = some v' → (∃ x ∈ v', val x ≠ 0) →
        words[i']? = some w'' → vs[i']? = some v'' → (∃ x ∈ v'', val x ≠ 0) → w'' ≠ w →
        w' ∈ res.map Prod.fst → w'' ∉ res.map Prod.fst →
        exactCos (v''.map val) (v.map val) ≤ exactCos (v'.map val) (v.map val) + 2 * cosErr u cols := by
  obtain ⟨n1, _, n3, _, _, rows, n6, n7, n8⟩ := hN
  subst n1
  have hwf : ∀ r ∈ rows, r.length = cols := by
    have := he.storage
    rw [n6] at this
    exact this.1
  have hlen : ∀ (i : Nat) v, vs[i]? = some v → v.length = cols := by
    intro i v hv
    have := hwf _ (List.mem_of_getElem? (n8 i v hv))
    simpa using this
  have hget : ∀ (i : Nat) v, vs[i]? = some v →
      e.storage.getOne i = .ok (vdiv v (NumOps.normAxis v)) := by
    intro i v hv
    rw [n6]
    exact npGet_nat.mpr (n8 i v hv)
  have hinj : ∀ {i i' : Nat} {w : PyStr}, e.vocab.words[i]? = some w → e.vocab.words[i']? = some w → i = i' := by
    intro i i' w h h'
    have a := he.vocab.get.mpr h
    have b := he.vocab.get.mpr h'
    rw [a] at b
    exact_mod_cast Option.some.inj b
  have hvl := hlen j v hv
  obtain ⟨_, hemb, _⟩ := C28_known e he j w _ hw (hget j v hv)
  have hvs : ∀ {i : Nat} {w}, e.vocab.words[i]? = some w → ∃ v, vs[i]? = some v := by
    intro i w h
    have hi := (List.getElem?_eq_some_iff.mp h).1
    have hle : e.vocab.words.length ≤ vs.length := by
      have := he.words_le
      rw [n6] at this
      rw [← n7]
      exact this
    exact ⟨_, List.getElem?_eq_getElem (by omega)⟩
  obtain ⟨res, h1, hT⟩ := C31_word_similarity S hS e he _ n6 w _ hemb k
    (by rintro h; rw [h] at hw; simp at hw) hk (by
      intro i w' row hi hrow _
      obtain ⟨v', hv'⟩ := hvs hi
      rw [hget i v' hv'] at hrow
      cases hrow
      exact hnan v' (List.mem_of_getElem? hv'))
  have score : ∀ (i : Nat) v', vs[i]? = some v' → (∃ x ∈ v', val x ≠ 0) →
      |val (NumOps.dot (vdiv v' (NumOps.normAxis v')) (vdiv v (NumOps.normAxis v))) -
        exactCos (v'.map val) (v.map val)| ≤ cosErr u cols := by
    intro i v' hv' h0'
    have hl' := hlen i v' hv'
    have := score_error hR (v := v') (w := v) (by omega) (by rw [hl']; exact h2) h0' h0
    rwa [hl'] at this
  refine ⟨res, h1, hT.length, hT.nodup, ?_, ?_⟩
  · intro w' x hx
    obtain ⟨hne, i, row, hi, hrow, rfl⟩ := hT.scores w' x hx
    obtain ⟨v', hv'⟩ := hvs hi
    refine ⟨by simpa using hne, i, v', hi, hv', fun h0' => ?_⟩
    rw [hget i v' hv'] at hrow
    cases hrow
    exact score i v' hv' h0'
  · intro i i' w' w'' v' v'' hi hv' h0' hi' hv'' h0'' hne hin hout
    obtain ⟨⟨w1, x⟩, hx, rfl⟩ := List.mem_map.mp hin
    obtain ⟨_, i1, row, hi1, hrow, hxe⟩ := hT.scores w1 x hx
    have := hinj hi hi1
    subst this
    rw [hget i v' hv'] at hrow
    cases hrow
    have hb := hval _ _ (by rw [hxe]; exact hnan v' (List.mem_of_getElem? hv'))
      (hnan v'' (List.mem_of_getElem? hv'')) (hT.best i' w'' _ hi' (hget i' v'' hv'') (by simpa using hne) hout _ hx)
    simp only at hb
    rw [hxe] at hb
    have s1 := abs_le.mp (score i v' hv' h0')
    have s2 := abs_le.mp (score i' v'' hv'' h0'')
    linarith [s1.1, s1.2, s2.1, s2.2]

/-- The same from the bytes of a word2vec file. -/
theorem C58_word2vec_similarity [Codec K] (hR : Rounded u val)
    (hval : ∀ a b : K, Score.nan a = false → Score.nan b = false → Score.lt a b = false → val b ≤ val a)
    (S : Sel K) (hS : S.Admissible) (lossy : Bool) (cols : Nat) (rows : List (PyStr × List F32))
    (hw : ∀ p ∈ rows, W2vWord p.1) (hl : ∀ p ∈ rows, p.2.length = cols)
    (hn : (rows.map Prod.fst).Nodup) (hs : ShapeOk rows.length cols) (h2 : (1 + u) ^ cols < 2)
    (j : Nat) (w : PyStr) (r : List F32) (hj : rows[j]? = some (w, r))
    (h0 : ∃ b ∈ r, val (Codec.ofBits b) ≠ 0)
    (hnan : ∀ p ∈ rows, Score.nan (NumOps.dot
      (vdiv (p.2.map Codec.ofBits) (NumOps.normAxis (p.2.map (Codec.ofBits : F32 → K))))
      (vdiv (r.map Codec.ofBits) (NumOps.normAxis (r.map (Codec.ofBits : F32 → K))))) = false) (k : Nat)
    (hk : k + knownSkips (rows.map Prod.fst) [w] ≤ rows.length) :
    ∃ (e : Embeddings K) (res : List (PyStr × K)),
      Rd.run (loadWord2vec lossy) (w2vFile cols rows) = .ok e ∧
      e.wordSimilarity S w k = .ok (some res) ∧ res.length = k ∧
      ∀ w' x, (w', x) ∈ res → w' ≠ w ∧ ∃ (i : Nat) (r' : List F32), rows[i]? = some (w', r') ∧
        ((∃ b ∈ r', val (Codec.ofBits b) ≠ 0) →
          |val x - exactCos (r'.map fun b => val (Codec.ofBits b)) (r.map fun b => val (Codec.ofBits b))| ≤
            cosErr u cols) := by
  obtain ⟨e, h1, hN⟩ := C38_load (K := K) lossy cols rows hw hl hn hs
  obtain ⟨b, hb, hb0⟩ := h0
  obtain ⟨res, h3, h4, _, h5, _⟩ := C58_word_similarity hR hval S hS e (loadWord2vec_built h1).1 cols _ _ hN
    h2 j w (r.map Codec.ofBits) (by rw [List.getElem?_map, hj]; rfl) (by rw [List.getElem?_map, hj]; rfl)
    ⟨_, List.mem_map_of_mem hb, hb0⟩ (by
      intro v' hv'
      obtain ⟨p, hp, rfl⟩ := List.mem_map.mp hv'
      exact hnan p hp) k (by rw [List.length_map]; exact hk)
  refine ⟨e, res, h1, h3, h4, fun w' x hx => ?_⟩
  obtain ⟨hne, i, v', hi, hv', hc⟩ := h5 w' x hx
  rw [List.getElem?_map] at hi hv'
  obtain ⟨⟨w1, r'⟩, hr', rfl⟩ := Option.map_eq_some_iff.mp hi
  rw [hr'] at hv'
  cases hv'
  refine ⟨hne, i, r', hr', ?_⟩
  rintro ⟨b, hb, hb0⟩
  have := hc ⟨_, List.mem_map_of_mem hb, hb0⟩
  rwa [List.map_map, List.map_map] at this

end

/-! ### Numbers -/

/-- In float32 arithmetic and up to 1024 dimensions, similarities are right to `1.3e-4`, and lengths of
normalised vectors to `1e-4`. -/
theorem C58_float32 (n : Nat) (hn : n ≤ 1024) :
    (1 + (2 : ℝ)⁻¹ ^ 24) ^ n < 2 ∧ cosErr ((2 : ℝ)⁻¹ ^ 24) n ≤ 13 / 100000 ∧
      1 - 1 / 10000 ≤ lenLo ((2 : ℝ)⁻¹ ^ 24) n ∧ lenHi ((2 : ℝ)⁻¹ ^ 24) n ≤ 1 + 1 / 10000 := by
  set u : ℝ := (2 : ℝ)⁻¹ ^ 24 with hu
  have hu0 : 0 < u := by positivity
  have huv : u = 1 / 16777216 := by rw [hu]; norm_num
  have pow_le : ∀ m : Nat, m ≤ 1026 → (1 + u) ^ m ≤ 1 + 612 / 10000000 := by
    intro m hm
    have h1 := pow_mul_le hu0.le m
    have hm' : (m : ℝ) ≤ 1026 := by exact_mod_cast hm
    have h2 : (1 : ℝ) - 1026 / 16777216 ≤ 1 - m * u := by
      rw [huv]
      linarith
    have h3 : 1 ≤ (1 + u) ^ m := one_le_pow₀ (by linarith)
    generalize (1 + u) ^ m = P at h1 h3
    have h4 : P * (1 - 1026 / 16777216) ≤ 1 :=
      (mul_le_mul_of_nonneg_left h2 (by linarith)).trans h1
    linarith
  have hP := pow_le n (by omega)
  have hQ := pow_le (n + 2) (by omega)
  have hP1 : 1 ≤ (1 + u) ^ n := one_le_pow₀ (by linarith)
  have hQ1 : 1 ≤ (1 + u) ^ (n + 2) := one_le_pow₀ (by linarith)
  unfold cosErr lenLo lenHi
  generalize (1 + u) ^ n = P at *
  generalize (1 + u) ^ (n + 2) = Q at *
  have hG : 1 / ((1 - u) ^ 2 * (2 - P)) ≤ 1 + 614 / 10000000 := by
    rw [div_le_iff₀ (by
      have : 0 < 1 - u := by rw [huv]; norm_num
      have : 0 < 2 - P := by linarith
      positivity)]
    have h1 : (1 - 612 / 10000000 : ℝ) ≤ 2 - P := by linarith
    have h2 : (1 - 2 / 16777216 : ℝ) ≤ (1 - u) ^ 2 := by rw [huv]; norm_num
    have h3 : (1 - 2 / 16777216 : ℝ) * (1 - 612 / 10000000) ≤ (1 - u) ^ 2 * (2 - P) :=
      mul_le_mul h2 h1 (by norm_num) (by positivity)
    nlinarith
  have hG0 : 0 < 1 / ((1 - u) ^ 2 * (2 - P)) := by
    have : 0 < 1 - u := by rw [huv]; norm_num
    have : 0 < 2 - P := by linarith
    positivity
  refine ⟨by linarith, ?_, ?_, ?_⟩
  · have h1 : (Q - 1) / ((1 - u) ^ 2 * (2 - P)) ≤ 612 / 10000000 * (1 + 614 / 10000000) := by
      rw [div_eq_mul_one_div]
      exact mul_le_mul (by linarith) hG hG0.le (by norm_num)
    have h2 : max (1 / ((1 - u) ^ 2 * (2 - P)) - 1) (Q - 1) ≤ 614 / 10000000 :=
      max_le (by linarith) (by linarith)
    refine (add_le_add h1 h2).trans (by norm_num)
  · have hs : Real.sqrt P ≤ P := by
      rw [Real.sqrt_le_iff]
      exact ⟨by linarith, by nlinarith⟩
    have hs0 : 0 < Real.sqrt P := Real.sqrt_pos.mpr (by linarith)
    rw [le_div_iff₀ (by positivity)]
    have : (1 + u) * Real.sqrt P ≤ (1 + u) * (1 + 612 / 10000000) :=
      mul_le_mul_of_nonneg_left (by linarith) (by linarith)
    calc (1 - 1 / 10000) * ((1 + u) * Real.sqrt P) ≤ (1 - 1 / 10000) * ((1 + u) * (1 + 612 / 10000000)) :=
          mul_le_mul_of_nonneg_left this (by norm_num)
      _ ≤ 1 - u := by rw [huv]; norm_num
  · have hs : 2 - P ≤ Real.sqrt (2 - P) := by
      refine Real.le_sqrt_of_sq_le ?_
      nlinarith
    have hs' : (1 - 612 / 10000000 : ℝ) ≤ Real.sqrt (2 - P) := by linarith
    have h1u : 0 < 1 - u := by rw [huv]; norm_num
    rw [div_le_iff₀ (by have := lt_of_lt_of_le (show (0 : ℝ) < 1 - 612 / 10000000 by norm_num) hs'; positivity)]
    calc 1 + u ≤ (1 + 1 / 10000) * ((1 - u) * (1 - 612 / 10000000)) := by rw [huv]; norm_num
      _ ≤ _ := mul_le_mul_of_nonneg_left (mul_le_mul_of_nonneg_left hs' h1u.le) (by norm_num)

/-! ### The hypotheses can be met

Binary numbers with 24 significant bits, rounded to nearest, without limits of the exponent. -/

namespace Sample

/-- Round to 24 significant bits. -/
noncomputable def fl (x : ℝ) : ℝ :=
  (round (x * (2 : ℝ) ^ (23 - Int.log 2 |x|)) : ℝ) * (2 : ℝ) ^ (Int.log 2 |x| - 23)

theorem fl_near (x : ℝ) : Near ((2 : ℝ)⁻¹ ^ 24) x (fl x) := by
  unfold Near fl
  rcases eq_or_ne x 0 with rfl | hx
  · simp
  have hpos : 0 < |x| := abs_pos.mpr hx
  have hlog := Int.zpow_log_le_self (R := ℝ) (b := 2) (by norm_num) hpos
  push_cast at hlog
  generalize Int.log 2 |x| = e at hlog
  have h2 : (0 : ℝ) < (2 : ℝ) ^ (e - 23) := zpow_pos (by norm_num) _
  have hmul : (2 : ℝ) ^ (23 - e) * (2 : ℝ) ^ (e - 23) = 1 := by
    rw [← zpow_add₀ (by norm_num)]
    simp
  have e1 : (round (x * (2 : ℝ) ^ (23 - e)) : ℝ) * (2 : ℝ) ^ (e - 23) - x =
      ((round (x * (2 : ℝ) ^ (23 - e)) : ℝ) - x * (2 : ℝ) ^ (23 - e)) * (2 : ℝ) ^ (e - 23) := by
    rw [sub_mul, mul_assoc x, hmul, mul_one]
  rw [e1, abs_mul, abs_of_pos h2, abs_sub_comm]
  have h3 := abs_sub_round (x * (2 : ℝ) ^ (23 - e))
  have h4 : (2 : ℝ) ^ (e - 23) = (2 : ℝ) ^ e * ((2 : ℝ)⁻¹ ^ 24 * 2) := by
    rw [zpow_sub₀ (by norm_num)]
    norm_num
    ring
  calc _ ≤ 1 / 2 * (2 : ℝ) ^ (e - 23) := mul_le_mul_of_nonneg_right h3 h2.le
    _ = (2 : ℝ)⁻¹ ^ 24 * (2 : ℝ) ^ e := by rw [h4]; ring
    _ ≤ _ := mul_le_mul_of_nonneg_left hlog (by positivity)

/-- The numbers. -/
def Rnd : Type := ℝ

/-- What they stand for. -/
def Rnd.val (x : Rnd) : ℝ := x

/-- Sum from right to left. -/
noncomputable def sumR : List ℝ → ℝ
  | [] => 0
  | [x] => x
  | x :: y :: xs => fl (x + sumR (y :: xs))

theorem sumR_rsum (xs : List ℝ) : RSum ((2 : ℝ)⁻¹ ^ 24) xs (sumR xs) := by
  induction xs with
  | nil => exact .nil
  | cons x xs ih =>
    cases xs with
    | nil => exact .one x
    | cons y xs => exact .add (xs := [x]) (by simp) (by simp) (.one x) ih (fl_near _)

noncomputable def dotR (xs ys : List ℝ) : ℝ := sumR (List.zipWith (fun x y => fl (x * y)) xs ys)

theorem dotR_rdot (xs ys : List ℝ) : RDot ((2 : ℝ)⁻¹ ^ 24) xs ys (dotR xs ys) := by
  refine ⟨_, List.length_zipWith, sumR_rsum _, ?_⟩
  intro t p x y hp hx hy
  rw [List.getElem?_zipWith, hx, hy] at hp
  cases hp
  exact fl_near _

@[instance_reducible] noncomputable def rndOps : NumOps Rnd where
  add x y := fl (x.val + y.val)
  sub x y := fl (x.val - y.val)
  mul x y := fl (x.val * y.val)
  div x y := fl (x.val / y.val)
  zero := (0 : ℝ)
  ofNat n := fl n
  dot xs ys := dotR (xs.map Rnd.val) (ys.map Rnd.val)
  norm v := fl (Real.sqrt (dotR (v.map Rnd.val) (v.map Rnd.val)))
  normAxis v := fl (Real.sqrt (dotR (v.map Rnd.val) (v.map Rnd.val)))

@[instance_reducible] noncomputable def rndOrder : LinearOrder Rnd := inferInstanceAs (LinearOrder ℝ)

@[instance_reducible] noncomputable def rndScore : Score Rnd := @Score.ofOrder Rnd rndOrder

theorem rnd_val (a b : Rnd) (h : rndScore.lt a b = false) : b.val ≤ a.val :=
  le_of_not_gt fun h' => by
    have : rndScore.lt a b = true := @decide_eq_true _ (rndOrder.toDecidableLT a b) h'
    rw [h] at this
    cases this

theorem rounded : @Rounded Rnd rndOps ((2 : ℝ)⁻¹ ^ 24) Rnd.val :=
  @Rounded.mk Rnd rndOps _ _ (by positivity) (by norm_num) rfl (fun n => fl_near n) (fun _ _ => fl_near _)
    (fun _ _ => fl_near _) (fun _ _ => fl_near _) (fun _ _ _ => fl_near _) (fun _ _ => dotR_rdot _ _)
    (fun v => ⟨_, dotR_rdot _ _, fl_near _⟩) (fun v => ⟨_, dotR_rdot _ _, fl_near _⟩)

/-- The bits of a natural number. -/
@[instance_reducible] noncomputable def rndCodec : Codec Rnd :=
  ⟨fun x => UInt32.ofNat ⌊x.val⌋₊, fun b => ((b.toNat : ℝ) : Rnd)⟩

theorem rnd_nonzero {r : List F32} (h : ∃ b ∈ r, b.toNat ≠ 0) :
    ∃ b ∈ r, Rnd.val (@Codec.ofBits Rnd rndCodec b) ≠ 0 := by
  obtain ⟨b, hb, h0⟩ := h
  exact ⟨b, hb, by
    show (b.toNat : ℝ) ≠ 0
    exact_mod_cast h0⟩

/-- Three words with vectors (3, 1), (1, 3) and (1, 1): rows, norms and exports, and the neighbours of
the first. -/
example : (∃ e : Embeddings Rnd, Rd.run (@loadWord2vec Rnd rndOps rndCodec false)
      (w2vFile 2 [([97], [3, 1]), ([0xDF], [1, 3]), ([98], [1, 1])]) = .ok e ∧
      @RestoresUpTo Rnd rndOps ((2 : ℝ)⁻¹ ^ 24) Rnd.val e 0 ([3, 1].map rndCodec.ofBits)) ∧
    ∀ S : Sel Rnd, @Sel.Admissible Rnd rndScore S →
      ∃ (e : Embeddings Rnd) (res : List (PyStr × Rnd)),
        @Embeddings.wordSimilarity Rnd rndOps S e [97] (2 : Nat) = .ok (some res) ∧ res.length = 2 ∧
        ∀ w x, (w, x) ∈ res → ∃ r : List F32, (w = [0xDF] ∧ r = [1, 3] ∨ w = [98] ∧ r = [1, 1]) ∧
          |x.val - exactCos (r.map fun b => (b.toNat : ℝ)) [3, 1]| ≤ 13 / 100000 := by
  have hw : ∀ p ∈ [(([97] : PyStr), ([3, 1] : List F32)), ([0xDF], [1, 3]), ([98], [1, 1])], W2vWord p.1 := by
    intro p hp
    simp only [List.mem_cons, List.not_mem_nil, or_false] at hp
    rcases hp with rfl | rfl | rfl <;>
    · refine ⟨?_, ?_, ?_, ?_⟩ <;> intro c hc <;> simp at hc <;> subst hc <;> decide
  have hl : ∀ p ∈ [(([97] : PyStr), ([3, 1] : List F32)), ([0xDF], [1, 3]), ([98], [1, 1])],
      p.2.length = 2 := by decide
  have hn : ([(([97] : PyStr), ([3, 1] : List F32)), ([0xDF], [1, 3]), ([98], [1, 1])].map Prod.fst).Nodup := by
    decide
  have hs : ShapeOk 3 2 := by unfold ShapeOk; decide
  have h2 := (C58_float32 2 (by norm_num)).1
  constructor
  · obtain ⟨e, h1, h3⟩ := @C58_word2vec Rnd rndOps _ Rnd.val rndCodec rounded false 2 _ hw hl hn hs h2
    exact ⟨e, h1, (h3 0 [97] [3, 1] rfl (rnd_nonzero ⟨3, by decide, by decide⟩)).2⟩
  · intro S hS
    obtain ⟨e, res, _, h3, h4, h5⟩ := @C58_word2vec_similarity Rnd rndOps _ Rnd.val rndScore rndCodec rounded
      (fun a b _ _ h => rnd_val a b h) S hS false 2 _ hw hl hn hs h2 0 [97] [3, 1] rfl (rnd_nonzero ⟨3, by decide, by decide⟩)
      (fun _ _ => rfl) 2 (by decide)
    refine ⟨e, res, h3, h4, fun w x hx => ?_⟩
    obtain ⟨hne, i, r, hr, hc⟩ := h5 w x hx
    have hmem := List.mem_of_getElem? hr
    simp only [List.mem_cons, List.not_mem_nil, or_false, Prod.mk.injEq] at hmem
    have h31 : (([3, 1] : List F32).map fun b => Rnd.val (@Codec.ofBits Rnd rndCodec b)) = [3, 1] := by
      show [((3 : Nat) : ℝ), ((1 : Nat) : ℝ)] = _
      norm_num
    rw [h31] at hc
    have hbound := (C58_float32 2 (by norm_num)).2.1
    rcases hmem with ⟨rfl, rfl⟩ | ⟨rfl, rfl⟩ | ⟨rfl, rfl⟩
    · exact absurd rfl hne
    · exact ⟨_, Or.inl ⟨rfl, rfl⟩, (hc (rnd_nonzero ⟨3, by decide, by decide⟩)).trans hbound⟩
    · exact ⟨_, Or.inr ⟨rfl, rfl⟩, (hc (rnd_nonzero ⟨1, by decide, by decide⟩)).trans hbound⟩

/-- fastText: the mean of (1, 2) and (5, 6) is not zero, whatever is rounded. -/
example : ∃ e : Embeddings Rnd, Rd.run (@loadFasttext Rnd rndOps rndCodec false) ftFile1.bytes = .ok e ∧
    ∃ mean, @RestoresUpTo Rnd rndOps ((2 : ℝ)⁻¹ ^ 24) Rnd.val e 0 mean := by
  obtain ⟨e, h1, h2⟩ := @C58_fasttext Rnd rndOps _ Rnd.val rndCodec rounded ftFile1 ftFile1_ok false
    (C58_float32 2 (by norm_num)).1
  obtain ⟨_, is, sel, mean, g1, g2, g3, g4⟩ := h2 0 ([97], 7) rfl
  refine ⟨e, h1, mean, g4 ?_⟩
  have := ftSubwords_unique g1 ftSub1
  subst this
  have hs : List.Forall₂ (fun j r => (ftFile1.rows.map fun r => r.map rndCodec.ofBits)[j]? = some r)
      [0, 1] [[rndCodec.ofBits 1, rndCodec.ofBits 2], [rndCodec.ofBits 5, rndCodec.ofBits 6]] :=
    .cons rfl (.cons rfl .nil)
  have hsel := forall₂_get_unique g2 hs
  subst hsel
  obtain ⟨s, b1, rfl⟩ := g3
  obtain ⟨ys, y1, y2⟩ := b1.2 0 (by decide)
  have hys : ys = [rndCodec.ofBits 1, rndCodec.ofBits 5] := by
    match ys, y1 with
    | [a, b], y1 =>
      simp only [List.map_cons, List.map_nil, List.getElem?_cons_zero, List.cons.injEq,
        Option.some.injEq, and_true] at y1
      rw [← y1.1, ← y1.2]
  subst hys
  have hm := @C58_mean Rnd rndOps _ Rnd.val rounded [rndCodec.ofBits 1, rndCodec.ofBits 5] (by simp)
  refine ⟨_, List.mem_map_of_mem (List.mem_of_getElem? y2), ?_⟩
  intro h0
  have e1 : Rnd.val (rndCodec.ofBits 1) = 1 := by
    show ((1 : Nat) : ℝ) = 1
    norm_num
  have e5 : Rnd.val (rndCodec.ofBits 5) = 5 := by
    show ((5 : Nat) : ℝ) = 5
    norm_num
  have hz : Rnd.val (rndOps.div (@numSum Rnd rndOps [rndCodec.ofBits 1, rndCodec.ofBits 5])
      (rndOps.ofNat 2)) = 0 := h0
  simp only [List.length_cons, List.length_nil, List.map_cons, List.map_nil, e1, e5] at hm
  rw [hz] at hm
  norm_num at hm

/-- Text files. -/
example : ∃ e : Embeddings Rnd, @loadText Rnd rndOps realText Sample.textIO false
    (utf8 (textFile false [32] 2 (@strRows ℝ realText [([97], [3, 4])]))) = .ok e ∧
    @RestoresUpTo Rnd rndOps ((2 : ℝ)⁻¹ ^ 24) Rnd.val e 0 ([(3 : ℝ), (4 : ℝ)] : List ℝ) := by
  obtain ⟨e, h1, h2⟩ := @C58_text Rnd rndOps _ Rnd.val Sample.textIO realText rounded false false [32] ⟨by decide, by
    intro c hc; rw [List.mem_singleton] at hc; subst hc; decide⟩ 2 _ textRows34 (fun _ => List.cons_ne_nil _ _)
    (C58_float32 2 (by norm_num)).1
  exact ⟨e, h1, (h2 0 [97] _ rfl nonZero34).2⟩

/-- An unknown word with four n-grams. -/
noncomputable example : ∃ (e : Embeddings Rnd) (rows : List (List Rnd)), BuiltEmb e ∧
    e.vocab.idx [97, 98, 97] = .ok (some (.many [4, 2, 4, 2])) ∧
    List.Forall₂ (fun (i : Int) r => @Storage.getOne Rnd rndOps e.storage i = .ok r) [4, 2, 4, 2] rows ∧
    (1 + (2 : ℝ)⁻¹ ^ 24) ^ e.storage.nCols < 2 := by
  let n (k : ℝ) : Rnd := k
  refine ⟨⟨.nd ⟨1, [[n 1], [n 1], [n 2], [n 3], [n 4]]⟩, Sample.embRat.vocab, none, none⟩,
    [[n 4], [n 2], [n 4], [n 2]], ⟨Sample.builtEmbRat.vocab, ?_, embNew_iff.mpr ⟨rfl, by decide, by simp⟩⟩,
    by decide +kernel, .cons rfl (.cons rfl (.cons rfl (.cons rfl .nil))),
    (C58_float32 1 (by norm_num)).1⟩
  refine ⟨fun r hr => ?_, by unfold ShapeOk; decide⟩
  simp only [List.mem_cons, List.not_mem_nil, or_false] at hr
  rcases hr with rfl | rfl | rfl | rfl | rfl <;> rfl

end Sample

end FF
