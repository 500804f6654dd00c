import Verif.Props.C27
import Mathlib.Data.List.GetD
import Mathlib.Algebra.BigOperators.Field
/-! C28: what a lookup returns. -/

namespace FF

section
variable {K : Type} [NumOps K]

/-- Known words return their storage row and, if there are norms, their norm. -/
theorem C28_known (e : Embeddings K) (he : BuiltEmb e) (i : Nat) (w : PyStr) (row : List K)
    (hw : e.vocab.words[i]? = some w) (hrow : e.storage.getOne i = .ok row) :
    e.getItem w = .ok row ∧ e.embedding w = .ok (some row) ∧
    ∀ ns, e.norms = some ns → ∃ n, ns[i]? = some n ∧
      e.embeddingWithNorm w = .ok (some (row, some n)) := by
  have hg : Dict.get? e.vocab.index w = some i := he.vocab.get.mpr hw
  have hidx : e.vocab.idx w = .ok (some (.one i)) := by
    unfold Vocab.idx
    rw [hg]
    cases e.vocab.sub <;> rfl
  have hemb : ∃ o, e.embed (.one i) = .ok (row, o) ∧
      ∀ ns, e.norms = some ns → ∃ n, ns[i]? = some n ∧ o = some n := by
    unfold Embeddings.embed
    simp only
    rw [hrow]
    simp only [res_bind_ok]
    cases hn : e.norms with
    | none => exact ⟨none, rfl, by simp⟩
    | some ns =>
      have h1 := ((embNew_iff.mp he.new).2.2 ns hn).2
      rw [he.vocab.len] at h1
      have hi := (List.getElem?_eq_some_iff.mp hw).1
      have h2 := List.getElem?_eq_getElem (l := ns) (i := i) (by omega)
      simp only
      rw [npGet_nat.mpr h2]
      refine ⟨_, rfl, ?_⟩
      intro m hm
      cases hm
      exact ⟨_, h2, rfl⟩
  obtain ⟨o, h1, h2⟩ := hemb
  have hem : e.embedding w = .ok (some row) := by
    unfold Embeddings.embedding
    rw [hidx]
    simp only [res_bind_ok]
    rw [h1]; rfl
  refine ⟨((C27_agree e w).2.1 row).mpr hem, hem, ?_⟩
  intro ns hns
  obtain ⟨n, h3, h4⟩ := h2 ns hns
  refine ⟨n, h3, ?_⟩
  unfold Embeddings.embeddingWithNorm
  rw [hns]
  simp only
  rw [hidx]
  simp only [res_bind_ok]
  rw [h1, h4]; rfl

/-- Other strings with subword indices: the rows are added in order, and the sum is divided by
its norm, which is reported. -/
theorem C28_unknown (e : Embeddings K) (w : PyStr) (is : List Int) (rows : List (List K))
    (hidx : e.vocab.idx w = .ok (some (.many is)))
    (hrows : List.Forall₂ (fun i r => e.storage.getOne i = .ok r) is rows) :
    e.getItem w = .ok (vdiv (addReduce e.storage.nCols rows)
      (NumOps.norm (addReduce e.storage.nCols rows))) ∧
    e.embedding w = .ok (some (vdiv (addReduce e.storage.nCols rows)
      (NumOps.norm (addReduce e.storage.nCols rows)))) ∧
    (e.norms ≠ none → e.embeddingWithNorm w = .ok (some (vdiv (addReduce e.storage.nCols rows)
      (NumOps.norm (addReduce e.storage.nCols rows)),
      some (NumOps.norm (addReduce e.storage.nCols rows))))) := by
  have h1 : e.storage.getMany is = .ok rows := by rw [getMany_eq, mapRes_ok]; exact hrows
  have hem : e.embedding w = .ok (some (vdiv (addReduce e.storage.nCols rows)
      (NumOps.norm (addReduce e.storage.nCols rows)))) := by
    unfold Embeddings.embedding Embeddings.embed
    rw [hidx]
    simp only [res_bind_ok]
    rw [h1]; rfl
  refine ⟨((C27_agree e w).2.1 _).mpr hem, hem, fun hn => ?_⟩
  unfold Embeddings.embeddingWithNorm Embeddings.embed
  cases hn' : e.norms with
  | none => exact absurd hn' hn
  | some ns =>
    simp only
    rw [hidx]
    simp only [res_bind_ok]
    rw [h1]; rfl

end

/-! ### Exact arithmetic -/

/-- Component `t` of the sum of the rows. -/
noncomputable def sumAt (rows : List (List ℝ)) (t : Nat) : ℝ := (rows.map fun r => r.getD t 0).sum

theorem vadd_length {a b : List ℝ} {n : Nat} (ha : a.length = n) (hb : b.length = n) :
    (vadd a b).length = n := by unfold vadd; rw [List.length_zipWith, ha, hb]; simp

theorem vadd_getD {a b : List ℝ} (h : a.length = b.length) (t : Nat) :
    (vadd a b).getD t 0 = a.getD t 0 + b.getD t 0 := by
  unfold vadd
  induction a generalizing b t with
  | nil => cases b with
    | nil => simp
    | cons y b => cases h
  | cons x a ih => cases b with
    | nil => cases h
    | cons y b =>
      cases t with
      | zero => rfl
      | succ t =>
        simp only [List.zipWith_cons_cons, List.getD_cons_succ]
        exact ih (by simpa using h) t

theorem foldl_vadd {n : Nat} (rows : List (List ℝ)) (r : List ℝ) (hr : r.length = n)
    (h : ∀ x ∈ rows, x.length = n) : (rows.foldl vadd r).length = n ∧
      ∀ t, (rows.foldl vadd r).getD t 0 = r.getD t 0 + sumAt rows t := by
  induction rows generalizing r with
  | nil => exact ⟨hr, fun t => by simp [sumAt]⟩
  | cons x rows ih =>
    have hx := h x (by simp)
    obtain ⟨h1, h2⟩ := ih (vadd r x) (vadd_length hr hx) fun y hy => h y (List.mem_cons_of_mem _ hy)
    refine ⟨h1, fun t => ?_⟩
    rw [List.foldl_cons, h2, vadd_getD (by rw [hr, hx])]
    unfold sumAt
    rw [List.map_cons, List.sum_cons]
    ring

/-- The sum of the rows, component by component. -/
theorem addReduce_spec {n : Nat} (rows : List (List ℝ)) (h : ∀ x ∈ rows, x.length = n) :
    (addReduce n rows).length = n ∧ ∀ t, (addReduce n rows).getD t 0 = sumAt rows t := by
  cases rows with
  | nil =>
    refine ⟨by simp [addReduce], fun t => ?_⟩
    show (List.replicate n (0 : ℝ)).getD t 0 = 0
    by_cases ht : t < n
    · rw [List.getD_eq_getElem _ _ (by simpa using ht)]; simp
    · rw [List.getD_eq_default _ _ (by simpa using ht)]
  | cons r rows =>
    obtain ⟨h1, h2⟩ := foldl_vadd rows r (h r (by simp)) fun x hx => h x (List.mem_cons_of_mem _ hx)
    refine ⟨h1, fun t => ?_⟩
    show (rows.foldl vadd r).getD t 0 = _
    rw [h2]; rfl

theorem sumProd_self (v : List ℝ) : sumProd v v = ∑ t ∈ Finset.range v.length, v.getD t 0 ^ 2 := by
  induction v with
  | nil => rfl
  | cons x v ih =>
    rw [List.length_cons, Finset.sum_range_succ']
    simp only [sumProd, List.getD_cons_succ, List.getD_cons_zero]
    rw [ih]; ring

theorem vdiv_getD (v : List ℝ) (n : ℝ) (t : Nat) : (vdiv v n).getD t 0 = v.getD t 0 / n := by
  unfold vdiv
  induction v generalizing t with
  | nil => simp
  | cons x v ih =>
    cases t with
    | zero => rfl
    | succ t => simp only [List.map_cons, List.getD_cons_succ]; exact ih t

/-- Over the reals: component `t` of the result is the sum of the components of the rows divided by
the L2 norm of the sum; that norm is reported; the result has unit norm.  If the sum is zero the
code divides by zero (NaN), which the reals cannot express, so that case is excluded. -/
theorem C28_real (e : Embeddings ℝ) (he : BuiltEmb e) (w : PyStr) (is : List Int)
    (rows : List (List ℝ)) (hidx : e.vocab.idx w = .ok (some (.many is)))
    (hrows : List.Forall₂ (fun i r => e.storage.getOne i = .ok r) is rows)
    (hne : ∃ t, sumAt rows t ≠ 0) :
    ∃ v n, e.getItem w = .ok v ∧ (e.norms ≠ none → e.embeddingWithNorm w = .ok (some (v, some n))) ∧
      v.length = e.storage.nCols ∧
      n = Real.sqrt (∑ t ∈ Finset.range e.storage.nCols, sumAt rows t ^ 2) ∧ 0 < n ∧
      (∀ t, v.getD t 0 = sumAt rows t / n) ∧
      ∑ t ∈ Finset.range e.storage.nCols, v.getD t 0 ^ 2 = 1 := by
  obtain ⟨h1, _, h3⟩ := C28_unknown e w is rows hidx hrows
  have hlen : ∀ r ∈ rows, r.length = e.storage.nCols := by
    intro r hr
    obtain ⟨j, hj, rfl⟩ := List.getElem_of_mem hr
    have := (List.forall₂_iff_get.mp hrows).2 j (by rw [hrows.length_eq]; exact hj) hj
    exact getOne_length he.storage this
  obtain ⟨h4, h5⟩ := addReduce_spec rows hlen
  have hnorm : NumOps.norm (addReduce e.storage.nCols rows) =
      Real.sqrt (∑ t ∈ Finset.range e.storage.nCols, sumAt rows t ^ 2) := by
    show Real.sqrt (sumProd _ _) = _
    rw [sumProd_self, h4]
    congr 1
    exact Finset.sum_congr rfl fun t _ => by rw [h5]
  have hpos : 0 < ∑ t ∈ Finset.range e.storage.nCols, sumAt rows t ^ 2 := by
    obtain ⟨t, ht⟩ := hne
    have htlt : t < e.storage.nCols := by
      by_contra hc
      apply ht
      rw [← h5, List.getD_eq_default _ _ (by rw [h4]; omega)]
    exact Finset.sum_pos' (fun _ _ => sq_nonneg _) ⟨t, Finset.mem_range.mpr htlt, by positivity⟩
  have hlv : (vdiv (addReduce e.storage.nCols rows)
      (NumOps.norm (addReduce e.storage.nCols rows))).length = e.storage.nCols := by
    unfold vdiv; rw [List.length_map, h4]
  have hcomp : ∀ t, (vdiv (addReduce e.storage.nCols rows)
      (NumOps.norm (addReduce e.storage.nCols rows))).getD t 0 =
      sumAt rows t / NumOps.norm (addReduce e.storage.nCols rows) := by
    intro t; rw [vdiv_getD, h5]
  refine ⟨_, _, h1, h3, hlv, hnorm, ?_, hcomp, ?_⟩
  · rw [hnorm]; exact Real.sqrt_pos.mpr hpos
  · simp only [hcomp]
    rw [hnorm]
    simp only [div_pow]
    rw [← Finset.sum_div, Real.sq_sqrt hpos.le, div_self hpos.ne']

/-- The subword indices of an unknown word: hash vocabularies use every n-gram, explicit ones the
n-grams they know. -/
theorem C28_indices (v : Vocab) (hv : BuiltVocab v) (hlen : v.words.length < 2 ^ 63) (ix : Indexer)
    (hs : v.sub = some ix) (w : PyStr) (hw : w ∉ v.words) (gs : List PyStr)
    (hgs : NgramsOf (wrap true w) ix.minN ix.maxN gs) (is : List Int)
    (hidx : v.idx w = .ok (some (.many is))) :
    ∃ kept : List PyStr, kept.Sublist gs ∧ kept ≠ [] ∧
      List.Forall₂ (fun g i => ∃ k, ix.call g = .ok (some k) ∧ i = v.words.length + k) kept is ∧
      ((∀ x, ix ≠ .expl x) → kept = gs) ∧
      (∀ x, ix = .expl x → kept = gs.filter fun g => (x.call g).isSome) := by
  have hix := hv.1 ix hs
  have hgse : gs = wordNgrams ix w := C17_unique _ _ _ _ _ hgs (ngramsOf_wordNgrams hix w)
  subst hgse
  unfold Vocab.idx at hidx
  rw [hs, hv.get_none.mpr hw] at hidx
  simp only at hidx
  obtain ⟨is', h1, hidx⟩ := res_bind_inv hidx
  have h2 : is' ≠ [] ∧ is' = is := by
    by_cases h : is' = []
    · rw [if_neg (by simpa using h)] at hidx; cases hidx
    · rw [if_pos h] at hidx; cases hidx; exact ⟨h, rfl⟩
  obtain ⟨h2, rfl⟩ := h2
  unfold Vocab.subwordIndices at h1
  by_cases hx : ∃ x, ix = .expl x
  · obtain ⟨x, rfl⟩ := hx
    rw [expl_indices hix] at h1
    have h1 := Except.ok.inj h1
    have hfm : ∀ l : List PyStr, List.Forall₂ (fun g i => ∃ k, (Indexer.expl x).call g =
        .ok (some k) ∧ i = (v.words.length : Int) + k) (l.filter fun g => (x.call g).isSome)
        (l.filterMap fun g => (x.call g).map fun i => (v.words.length : Int) + i) := by
      intro l
      induction l with
      | nil => exact .nil
      | cons g l ih =>
        cases hc : x.call g with
        | none =>
          rw [List.filter_cons_of_neg (by simp [hc]), List.filterMap_cons, hc]
          exact ih
        | some k =>
          rw [List.filter_cons_of_pos (by simp [hc]), List.filterMap_cons, hc]
          refine .cons ⟨k, ?_, rfl⟩ ih
          unfold Indexer.call
          simp only
          rw [hc]
    have hf := hfm (wordNgrams (.expl x) w)
    rw [h1] at hf
    refine ⟨_, List.filter_sublist, ?_, hf, fun h => absurd rfl (h x), ?_⟩
    · intro hc
      rw [hc] at hf
      cases hf
      exact h2 rfl
    · intro y hy; cases hy; rfl
  · have hsur : (∃ f, ix = .ft f) → w.any isSurrogate = false := by
      rintro ⟨f, rfl⟩
      cases hsu : w.any isSurrogate with
      | false => rfl
      | true =>
        have hsb : (bracketed true w).any isSurrogate = true := by
          obtain ⟨c, hc, hcs⟩ := List.any_eq_true.mp hsu
          exact List.any_eq_true.mpr ⟨c, by unfold bracketed; simp [hc], hcs⟩
        unfold Indexer.indices FtIndexer.indices at h1
        simp only at h1
        rw [ftSub_eq, encode_err hsb] at h1
        cases h1
    obtain ⟨h3, h4⟩ := hash_indices hix (fun x h => hx ⟨x, h⟩) w hlen hsur
    rw [h3] at h1
    have h1 := Except.ok.inj h1
    refine ⟨_, List.Sublist.refl _, ?_, ?_, fun _ => rfl, fun x hxx => absurd ⟨x, hxx⟩ hx⟩
    · intro hc
      rw [hc] at h1
      exact h2 h1.symm
    · rw [← h1, List.forall₂_map_right_iff]
      exact List.forall₂_same.mpr fun g hg => ⟨_, h4 g hg, rfl⟩

/-! ### The hypotheses can be met -/

/-- `ab` is row 0; `aba` is unknown with four n-grams in buckets 2, 0, 2, 0. -/
example : BuiltEmb Sample.embRat ∧ Sample.embRat.vocab.words[0]? = some [97, 98] ∧
    Sample.embRat.storage.getOne (0 : Nat) = .ok [3, 4] ∧
    Sample.embRat.vocab.idx [97, 98, 97] = .ok (some (.many [4, 2, 4, 2])) ∧
    mapRes Sample.embRat.storage.getOne [4, 2, 4, 2] =
      .ok [[0, 400], [300, 0], [0, 400], [300, 0]] :=
  ⟨Sample.builtEmbRat, by decide, by decide +kernel, by decide +kernel, by decide +kernel⟩

/-- Real embeddings with an unknown word whose sum is not zero. -/
noncomputable example : ∃ (e : Embeddings ℝ) (rows : List (List ℝ)), BuiltEmb e ∧
    e.vocab.idx [97, 98, 97] = .ok (some (.many [4, 2, 4, 2])) ∧
    List.Forall₂ (fun (i : Int) r => e.storage.getOne i = .ok r) [4, 2, 4, 2] rows ∧
    ∃ t, sumAt rows t ≠ 0 := by
  refine ⟨⟨.nd ⟨1, [[1], [1], [2], [3], [4]]⟩, Sample.embRat.vocab, none, none⟩,
    [[4], [2], [4], [2]], ⟨Sample.builtEmbRat.vocab, ?_, embNew_iff.mpr ⟨rfl, by decide, by simp⟩⟩,
    by decide +kernel, .cons rfl (.cons rfl (.cons rfl (.cons rfl .nil))), 0, ?_⟩
  · refine ⟨fun r hr => ?_, by unfold ShapeOk; decide⟩
    simp only [List.mem_cons, List.not_mem_nil, or_false] at hr
    rcases hr with rfl | rfl | rfl | rfl | rfl <;> rfl
  · simp [sumAt]
    norm_num

end FF
