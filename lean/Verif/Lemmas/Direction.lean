import Verif.Spec.Direction
import Verif.Lemmas.Alike
import Verif.Props.C58
import Verif.Props.C62
import Verif.Props.C97
import Verif.Props.C43
/-! Lemmas for C99: directions and lengths. -/

namespace FF

/-! ### Vectors -/

theorem sumProd_times (c d : ℝ) (v w : List ℝ) : sumProd (times c v) (times d w) = c * d * sumProd v w := by
  induction v generalizing w with
  | nil => simp [times, sumProd]
  | cons x v ih =>
    cases w with
    | nil => simp [times, sumProd]
    | cons y w =>
      have := ih w
      unfold times at this ⊢
      simp only [List.map_cons, sumProd, this]
      ring

theorem norm_times {c : ℝ} (hc : 0 < c) (v : List ℝ) : NumOps.normAxis (times c v) = c * NumOps.normAxis v := by
  show Real.sqrt (sumProd _ _) = c * Real.sqrt (sumProd _ _)
  rw [sumProd_times, Real.sqrt_mul (by positivity), Real.sqrt_mul_self hc.le]

/-- The direction of a vector does not depend on its length. -/
theorem unit_times {c : ℝ} (hc : 0 < c) (v : List ℝ) :
    vdiv (times c v) (NumOps.normAxis (times c v)) = vdiv v (NumOps.normAxis v) := by
  rw [norm_times hc]
  unfold vdiv times
  rw [List.map_map]
  refine List.map_congr_left fun x _ => ?_
  show c * x / (c * _) = x / _
  exact mul_div_mul_left _ _ hc.ne'

theorem vadd_times (c : ℝ) (v w : List ℝ) : vadd (times c v) (times c w) = times c (vadd v w) := by
  unfold vadd times
  rw [List.zipWith_map, List.map_zipWith]
  congr 1
  funext x y
  show c * x + c * y = c * (x + y)
  ring

theorem addReduce_times {c : ℝ} (cols : Nat) (rows : List (List ℝ)) :
    addReduce cols (rows.map (times c)) = times c (addReduce cols rows) := by
  cases rows with
  | nil =>
    show List.replicate cols (0 : ℝ) = times c (List.replicate cols (0 : ℝ))
    simp [times]
  | cons r rs =>
    show (rs.map (times c)).foldl vadd (times c r) = times c (rs.foldl vadd r)
    induction rs generalizing r with
    | nil => rfl
    | cons s rs ih =>
      simp only [List.map_cons, List.foldl_cons, vadd_times]
      exact ih _

theorem sumProd_exact (v w : List ℝ) : sumProd v w = exactDot v w := by
  induction v generalizing w with
  | nil => rfl
  | cons x v ih =>
    cases w with
    | nil => rfl
    | cons y w =>
      show x * y + sumProd v w = x * y + exactDot v w
      rw [ih]

/-- The dot product of two normalised vectors is the cosine of their angle. -/
theorem dot_units (v w : List ℝ) :
    NumOps.dot (vdiv v (NumOps.normAxis v)) (vdiv w (NumOps.normAxis w)) = exactCos v w := by
  have hd : ∀ (v : List ℝ) (n : ℝ), vdiv v n = times n⁻¹ v := by
    intro v n
    unfold vdiv times
    refine List.map_congr_left fun x _ => ?_
    show x / n = n⁻¹ * x
    rw [div_eq_inv_mul]
  show sumProd _ _ = _
  rw [hd, hd, sumProd_times, sumProd_exact]
  have hl : ∀ v : List ℝ, (NumOps.normAxis v : ℝ) = exactLen v := by
    intro v
    show Real.sqrt (sumProd v v) = Real.sqrt (exactDot v v)
    rw [sumProd_exact]
  rw [hl, hl]
  unfold exactCos
  rw [div_eq_inv_mul, mul_inv]

theorem exactCos_le (v w : List ℝ) : |exactCos v w| ≤ 1 := by
  unfold exactCos
  have h := exactDot_abs_le v w
  have h0 : 0 ≤ exactLen v * exactLen w := mul_nonneg (Real.sqrt_nonneg _) (Real.sqrt_nonneg _)
  rw [abs_div, abs_of_nonneg h0]
  exact div_le_one_of_le₀ h h0

/-! ### Embeddings -/

theorem sameBearing_of {c : PyStr → ℝ} {a b : Embeddings ℝ} (hb : BuiltVocab a.vocab) (hv : b.vocab = a.vocab)
    (hn : a.norms ≠ none) (hn' : b.norms ≠ none)
    (hone : ∀ (i : Nat) w, a.vocab.words[i]? = some w →
      ∃ row n, a.embed (.one i) = .ok (row, some n) ∧ b.embed (.one i) = .ok (row, some (c w * n)))
    (hmany : ∀ w is, a.vocab.idx w = .ok (some (.many is)) →
      ∃ row n, a.embed (.many is) = .ok (row, some n) ∧ b.embed (.many is) = .ok (row, some (c w * n)))
    (hsim : ∀ S q k sk, b.similarity S q k sk = a.similarity S q k sk) : SameBearing c a b := by
  have hidx : ∀ w idx, a.vocab.idx w = .ok (some idx) →
      ∃ row n, a.embed idx = .ok (row, some n) ∧ b.embed idx = .ok (row, some (c w * n)) := by
    intro w idx h
    cases idx with
    | many is => exact hmany w is h
    | one i =>
      have hi : Dict.get? a.vocab.index w = some i := by
        unfold Vocab.idx at h
        cases hs : a.vocab.sub with
        | none =>
          rw [hs] at h
          simp only at h
          cases hg : Dict.get? a.vocab.index w with
          | none => rw [hg] at h; cases h
          | some j => rw [hg] at h; cases h; rfl
        | some ix =>
          rw [hs] at h
          simp only at h
          cases hg : Dict.get? a.vocab.index w with
          | some j => rw [hg] at h; cases h; rfl
          | none =>
            rw [hg] at h
            simp only at h
            cases hx : a.vocab.subwordIndices ix w with
            | error x => rw [hx] at h; cases h
            | ok is =>
              rw [hx] at h
              simp only [res_bind_ok] at h
              split at h <;> cases h
      exact hone i w (hb.get.mp hi)
  have hemb : ∀ w, b.embedding w = a.embedding w := by
    intro w
    unfold Embeddings.embedding
    rw [hv]
    cases hx : a.vocab.idx w with
    | error x => rfl
    | ok o =>
      cases o with
      | none => rfl
      | some idx =>
        obtain ⟨row, n, h1, h2⟩ := hidx w idx hx
        simp only [res_bind_ok, h1, h2]
  refine ⟨hv, fun w => ?_, hemb, fun w v n h => ?_, fun S q k sk => hsim _ _ _ _, fun S w k => ?_, fun S w1 w2 w3 k sk => ?_⟩
  · unfold Embeddings.getItem
    rw [hv, idx_getItem]
    cases hx : a.vocab.idx w with
    | error x => rfl
    | ok o =>
      cases o with
      | none => rfl
      | some idx =>
        obtain ⟨row, n, h1, h2⟩ := hidx w idx hx
        simp only [res_bind_ok, h1, h2]
  · unfold Embeddings.embeddingWithNorm at h ⊢
    rw [hv]
    cases ha : a.norms with
    | none => exact absurd ha hn
    | some ns =>
    cases hb' : b.norms with
    | none => exact absurd hb' hn'
    | some ns' =>
    rw [ha] at h
    simp only at h ⊢
    cases hx : a.vocab.idx w with
    | error x => rw [hx] at h; cases h
    | ok o =>
      rw [hx] at h
      cases o with
      | none => cases h
      | some idx =>
        obtain ⟨row, m, h1, h2⟩ := hidx w idx hx
        simp only [res_bind_ok, h1, h2] at h ⊢
        cases h
        rfl
  · unfold Embeddings.wordSimilarity
    simp only [hemb, hsim]
  · unfold Embeddings.analogy
    simp only [hemb, hsim]

theorem embed_one {e : Embeddings ℝ} {i : Nat} {row : List ℝ} {ns : List ℝ} {n : ℝ} (hr : e.storage.getOne i = .ok row)
    (hn : e.norms = some ns) (hi : ns[i]? = some n) : e.embed (.one i) = .ok (row, some n) := by
  unfold Embeddings.embed
  simp only [hr, hn, res_bind_ok, npGet_nat.mpr hi]
  rfl

/-- Words and vectors without n-grams. -/
theorem normalized_bearing {cols : Nat} (c : PyStr → ℝ) (ps : List (PyStr × List ℝ)) (hc : ∀ p ∈ ps, 0 < c p.1)
    {e e' : Embeddings ℝ} (h : Normalized cols (ps.map Prod.fst) (ps.map Prod.snd) e)
    (h' : Normalized cols (ps.map Prod.fst) (ps.map fun p => times (c p.1) p.2) e') : SameBearing c e e' := by
  rw [normalized_iff] at h h'
  obtain ⟨a1, a2, a3, a4, a5, a6⟩ := h
  obtain ⟨b1, b2, b3, b4, b5, b6⟩ := h'
  have hv : e'.vocab = e.vocab := by
    have g := a3.2
    have g' := b3.2
    rw [a1, a2] at g
    rw [b1, b2, g] at g'
    exact (Except.ok.inj g').symm
  have hs : e'.storage = e.storage := by
    rw [a6, b6, List.map_map, List.map_map]
    congr 2
    exact List.map_congr_left fun p hp => unit_times (hc p hp) p.2
  refine sameBearing_of a3 hv (by rw [a5]; simp) (by rw [b5]; simp) ?_ ?_ ?_
  · intro i w hi
    rw [a1, List.getElem?_map] at hi
    cases hp : ps[i]? with
    | none => rw [hp] at hi; cases hi
    | some p =>
      rw [hp] at hi
      cases hi
      have hr : e.storage.getOne i = .ok (vdiv p.2 (NumOps.normAxis p.2)) := by
        rw [a6]
        refine npGet_nat.mpr ?_
        rw [List.getElem?_map, List.getElem?_map, hp]; rfl
      refine ⟨_, NumOps.normAxis p.2, embed_one hr a5 ?_, embed_one (hs ▸ hr) b5 ?_⟩
      · rw [List.getElem?_map, List.getElem?_map, hp]; rfl
      · rw [List.getElem?_map, List.getElem?_map, hp]
        exact congrArg some (norm_times (hc p (List.mem_of_getElem? hp)) _)
  · intro w is hw
    unfold Vocab.idx at hw
    rw [a2] at hw
    simp only at hw
    cases hg : Dict.get? e.vocab.index w <;> rw [hg] at hw <;> cases hw
  · intro S q k sk
    unfold Embeddings.similarity
    rw [hv, hs]

/-! ### fastText -/

theorem isSum_times {c : ℝ} {cols : Nat} {rows : List (List ℝ)} {s : List ℝ} (h : IsSum cols rows s) :
    IsSum cols (rows.map (times c)) (times c s) := by
  refine ⟨by simp [times, h.1], fun t ht => ?_⟩
  obtain ⟨ys, h1, h2⟩ := h.2 t ht
  refine ⟨times c ys, ?_, ?_⟩
  · have : (rows.map (times c)).map (fun r => r[t]?) = (rows.map fun r => r[t]?).map (Option.map (c * ·)) := by
      rw [List.map_map, List.map_map]
      refine List.map_congr_left fun r _ => ?_
      simp [times]
    rw [this, h1]
    simp [times]
  · unfold times
    rw [List.getElem?_map, h2]
    refine congrArg some ?_
    cases ys with
    | nil => exact mul_zero c
    | cons y ys =>
      show c * ys.foldl NumOps.add y = (ys.map fun x => c * x).foldl NumOps.add (c * y)
      clear h1 h2
      induction ys generalizing y with
      | nil => rfl
      | cons z ys ih =>
        simp only [List.map_cons, List.foldl_cons]
        rw [ih]
        congr 1
        exact mul_add c y z

theorem forall₂_times {c : ℝ} {raw : List (List ℝ)} {is : List Nat} {sel : List (List ℝ)}
    (h : List.Forall₂ (fun j r => raw[j]? = some r) is sel) :
    List.Forall₂ (fun j r => (raw.map (times c))[j]? = some r) is (sel.map (times c)) := by
  induction h with
  | nil => exact .nil
  | cons h _ ih =>
    refine .cons ?_ ih
    rw [List.getElem?_map, h]; rfl

theorem ftLoaded_bearing {c : ℝ} (hc : 0 < c) {f f' : FtFile} (hw : f'.words = f.words) (hB : f'.buckets = f.buckets)
    (hmn : f'.minN = f.minN) (hmx : f'.maxN = f.maxN) (hcol : f'.cols = f.cols) (hlen : f.words.length < 2 ^ 31)
    {raw : List (List ℝ)} {e e' : Embeddings ℝ}
    (h : FtLoaded f raw e) (h' : FtLoaded f' (raw.map (times c)) e') : SameBearing (fun _ => c) e e' := by
  obtain ⟨a1, a2, a3, _, rows, norms, a4, a5, a6, a7, a8, a9⟩ := h
  obtain ⟨b1, b2, b3, _, rows', norms', b4, b5, b6, b7, b8, b9⟩ := h'
  rw [hw] at b1 b7 b8 b9
  rw [hB, hmn, hmx] at b2 b9
  rw [hcol] at b4 b9
  have hv : e'.vocab = e.vocab := by
    have g := a3.vocab.2
    have g' := b3.vocab.2
    rw [a1, a2] at g
    rw [b1, b2, g] at g'
    exact (Except.ok.inj g').symm
  have key : ∀ (i : Nat) w, e.vocab.words[i]? = some w → ∃ row n, rows[i]? = some row ∧ norms[i]? = some n ∧
      rows'[i]? = some row ∧ norms'[i]? = some (c * n) := by
    intro i w hi
    rw [a1] at hi
    obtain ⟨is, sel, mean, c1, c2, ⟨s, c3, c3'⟩, c4, c5⟩ := a9 i w hi
    obtain ⟨is', sel', mean', d1, d2, ⟨s', d3, d3'⟩, d4, d5⟩ := b9 i w hi
    have := ftSubwords_unique c1 d1
    subst this
    have := forall₂_get_unique d2 (forall₂_times (c := c) c2)
    subst this
    have := isSum_unique d3 (isSum_times (c := c) c3)
    subst this
    have hm : mean' = times c mean := by
      rw [d3', c3']
      unfold times
      rw [List.map_map, List.map_map, List.length_map]
      refine List.map_congr_left fun x _ => ?_
      show c * x / _ = c * (x / _)
      exact mul_div_assoc c x _
    subst hm
    refine ⟨_, _, c5, c4, ?_, ?_⟩
    · rw [d5]; exact congrArg some (unit_times hc mean)
    · rw [d4, norm_times hc]
  have hget : ∀ i : Nat, i < e.vocab.words.length → e'.storage.getOne i = e.storage.getOne i := by
    intro i hi
    obtain ⟨row, n, k1, _, k2, _⟩ := key i _ (List.getElem?_eq_getElem hi)
    rw [a4, b4]
    show npGet rows' (i : Int) = npGet rows (i : Int)
    rw [npGet_nat.mpr k1, npGet_nat.mpr k2]
  refine sameBearing_of a3.vocab hv (by rw [a5]; simp) (by rw [b5]; simp) ?_ ?_ ?_
  · intro i w hi
    obtain ⟨row, n, k1, k2, k3, k4⟩ := key i w hi
    exact ⟨row, n, embed_one (by rw [a4]; exact npGet_nat.mpr k1) a5 k2,
      embed_one (by rw [b4]; exact npGet_nat.mpr k3) b5 k4⟩
  · intro w is hx
    have hr : InRange e.vocab (.many is) := by
      refine (C15_bounds_partial e.vocab a3.vocab (by rw [a1, List.length_map]; omega) ?_ w).2.1 _ hx
      intro ix hix
      rw [a2] at hix
      cases hix
      intro x hx
      cases hx
    have hrow : ∃ sel, List.Forall₂ (fun i r => e.storage.getOne i = .ok r) is sel ∧
        List.Forall₂ (fun i r => e'.storage.getOne i = .ok r) is (sel.map (times c)) := by
      have hb : ∀ i ∈ is, (e.vocab.words.length : Int) ≤ i ∧ i < e.vocab.upperBound := hr
      have hub : e.vocab.upperBound = rows.length := by
        have := (embNew_iff.mp a3.new).2.1
        rw [a4] at this
        have this : (rows.length : Int) = e.vocab.upperBound := by exact_mod_cast this
        exact this.symm
      clear hr hx
      induction is with
      | nil => exact ⟨[], .nil, .nil⟩
      | cons i is ih =>
        obtain ⟨sel, g1, g2⟩ := ih fun j hj => hb j (List.mem_cons_of_mem _ hj)
        obtain ⟨h1, h2⟩ := hb i List.mem_cons_self
        obtain ⟨j, rfl⟩ := Int.eq_ofNat_of_zero_le (by omega : 0 ≤ i)
        have hj : j < rows.length := by omega
        have hj' : f.words.length ≤ j := by
          have : e.vocab.words.length = f.words.length := by rw [a1, List.length_map]
          omega
        have hraw := a8 j hj'
        have hraw' := b8 j hj'
        rw [List.getElem?_map, ← hraw, List.getElem?_eq_getElem hj] at hraw'
        refine ⟨rows[j] :: sel, .cons ?_ g1, .cons ?_ g2⟩
        · rw [a4]; exact npGet_nat.mpr (List.getElem?_eq_getElem hj)
        · rw [b4]; exact npGet_nat.mpr hraw'
    obtain ⟨sel, g1, g2⟩ := hrow
    have m1 : e.storage.getMany is = .ok sel := by rw [getMany_eq, mapRes_ok]; exact g1
    have m2 : e'.storage.getMany is = .ok (sel.map (times c)) := by rw [getMany_eq, mapRes_ok]; exact g2
    have hcols : e'.storage.nCols = e.storage.nCols := by rw [a4, b4]; rfl
    refine ⟨vdiv (addReduce e.storage.nCols sel) (NumOps.norm (addReduce e.storage.nCols sel)),
      NumOps.norm (addReduce e.storage.nCols sel), ?_, ?_⟩
    · unfold Embeddings.embed
      simp only [m1, res_bind_ok]
      rfl
    · unfold Embeddings.embed
      simp only [m2, res_bind_ok, hcols, addReduce_times]
      refine congrArg Except.ok (Prod.ext ?_ ?_)
      · exact unit_times hc _
      · exact congrArg some (norm_times hc _)
  · intro S q k sk
    exact similarity_rows S a3 b3 (by rw [hv]) a4 b4 rfl hget q k sk

end FF
