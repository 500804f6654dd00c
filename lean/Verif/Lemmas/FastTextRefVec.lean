import Verif.Lemmas.FastTextRef
import Verif.Props.C43
/-! Word vectors of fastText's own code against those of the loader. -/

namespace FF

theorem wrap_eq (w : PyStr) : wrap true w = bracketed true w := by
  unfold wrap bracketed
  simp [langle, rangle]

theorem utf8_wrap (w : PyStr) : utf8 (wrap true w) = [60] ++ utf8 w ++ [62] := by
  unfold wrap
  rw [if_pos rfl, utf8_append, utf8_append]
  rfl

/-- The n-gram rows of a word, with fastText's hash. -/
theorem ftSubwords_occs {ix : FtIndexer} (h0 : 0 < ix.minN) {n : Nat} {w : PyStr} {is : List Nat}
    (hw : w.any isSurrogate = false) (h : FtSubwords ix n w is) :
    is = (occs (wrap true w).length ix.minN ix.maxN).map fun q =>
      n + refHash (utf8 (((wrap true w).drop q.1).take q.2)) % ix.nBuckets := by
  obtain ⟨gs, hg, hf⟩ := h
  have hs : (wrap true w).any isSurrogate = false := by
    unfold wrap
    simp only [if_true, List.any_append, hw, List.any_cons, List.any_nil]
    decide
  have hgs : NgramsOf (wrap true w) ix.minN ix.maxN ((occs (wrap true w).length ix.minN ix.maxN).map fun q =>
      ((wrap true w).drop q.1).take q.2) :=
    ⟨_, rfl, fun s l => mem_occs h0, occs_sorted _ _ _ h0⟩
  have := C17_unique _ _ _ _ _ hg hgs
  subst this
  clear hg hgs
  rw [List.forall₂_map_left_iff] at hf
  generalize occs (wrap true w).length ix.minN ix.maxN = o at hf ⊢
  induction hf with
  | nil => rfl
  | cons hd _ ih =>
    obtain ⟨k, hk, rfl⟩ := hd
    rw [ftCall_eq (noSurrogate_slice hs _ _), ftHash_spec] at hk
    cases hk
    rw [List.map_cons, ← ih]
    rfl

/-- The n-gram rows of fastText in its order. -/
theorem refNgrams_occs (minn maxn bucket n : Nat) (w : PyStr) (he : utf8 w ≠ refEos) :
    refNgrams minn maxn bucket n (utf8 w) = (refOccs minn maxn (wrap true w).length true 0).map fun q =>
      n + refHash (utf8 (((wrap true w).drop q.1).take q.2)) % bucket := by
  unfold refNgrams
  rw [if_neg he, ← utf8_wrap, refWord_utf8 true _ [], List.map_map]
  rfl

theorem ftSubwords_perm {ix : FtIndexer} (h2 : 2 ≤ ix.minN) {n : Nat} {w : PyStr} {is : List Nat}
    (hw : w.any isSurrogate = false) (he : utf8 w ≠ refEos) (h : FtSubwords ix n w is) :
    is.Perm (refNgrams ix.minN ix.maxN ix.nBuckets n (utf8 w)) := by
  rw [ftSubwords_occs (by omega) hw h, refNgrams_occs _ _ _ _ _ he]
  exact (occs_perm h2).map _

theorem ftSubwords_perm_one {ix : FtIndexer} (h2 : ix.minN = 1) (h1 : ix.minN ≤ ix.maxN) {n : Nat} {w : PyStr}
    {is : List Nat} (hw : w.any isSurrogate = false) (he : utf8 w ≠ refEos) (h : FtSubwords ix n w is) :
    is.Perm ((n + refHash [60] % ix.nBuckets) :: (n + refHash [62] % ix.nBuckets) ::
      refNgrams ix.minN ix.maxN ix.nBuckets n (utf8 w)) := by
  rw [ftSubwords_occs (by omega) hw h, refNgrams_occs _ _ _ _ _ he, h2]
  have hl : (wrap true w).length = w.length + 2 := by unfold wrap; simp
  refine ((occs_perm_one (by omega) (by omega)).map _).trans ?_
  rw [List.map_cons, List.map_cons]
  have ha : ((wrap true w).drop 0).take 1 = [60] := by unfold wrap; rfl
  have hb : ((wrap true w).drop ((wrap true w).length - 1)).take 1 = [62] := by
    rw [hl]
    unfold wrap
    have : w.length + 2 - 1 = ([60] ++ w : PyStr).length := by simp
    rw [if_pos rfl, this]
    show (([60] ++ w ++ [62] : PyStr).drop _).take 1 = _
    rw [List.drop_left]; rfl
  show ((n + refHash (utf8 (((wrap true w).drop 0).take 1)) % _) ::
    (n + refHash (utf8 (((wrap true w).drop ((wrap true w).length - 1)).take 1)) % _) :: _).Perm _
  rw [ha, hb]
  exact List.Perm.refl _

/-! ### Means -/

theorem refMean_perm (cols : Nat) (rows : List (List ℝ)) {is is' : List Nat} (h : is.Perm is') :
    refMean cols rows is = refMean cols rows is' := by
  unfold refMean
  apply List.map_congr_left
  intro t _
  rw [(h.map _).sum_eq, h.length_eq]

theorem refMean_length (cols : Nat) (rows : List (List ℝ)) (is : List Nat) : (refMean cols rows is).length = cols := by
  unfold refMean; simp

theorem column_eq {rows : List (List ℝ)} {is : List Nat} {sel : List (List ℝ)}
    (h : List.Forall₂ (fun (j : Nat) r => rows[j]? = some r) is sel) (t : Nat) :
    (is.map fun j => ((rows[j]?.getD [])[t]?).getD 0) = sel.map fun r => (r[t]?).getD 0 := by
  induction h with
  | nil => rfl
  | cons hd _ ih => rw [List.map_cons, List.map_cons, ih, hd]; rfl

theorem isMean_ref {cols : Nat} {rows : List (List ℝ)} {is : List Nat} {sel : List (List ℝ)} {mean : List ℝ}
    (h : List.Forall₂ (fun (j : Nat) r => rows[j]? = some r) is sel) (hm : IsMean cols sel mean) :
    mean = refMean cols rows is := by
  obtain ⟨s, ⟨h1, h2⟩, rfl⟩ := hm
  apply List.ext_getElem?
  intro t
  by_cases ht : t < cols
  · obtain ⟨ys, a1, a2⟩ := h2 t ht
    unfold refMean
    rw [List.getElem?_map, a2, List.getElem?_map, List.getElem?_range ht, numSum_real]
    show some (ys.sum / (sel.length : ℝ)) = some (_ * _)
    have : (is.map fun j => ((rows[j]?.getD [])[t]?).getD 0) = ys := by
      rw [column_eq h]
      have : sel.map (fun r => (r[t]?).getD 0) = (sel.map fun r => r[t]?).map fun o => o.getD 0 := by
        rw [List.map_map]; rfl
      rw [this, a1, List.map_map]
      exact List.map_id _
    rw [this, h.length_eq, mul_one_div]
  · rw [List.getElem?_eq_none (by rw [List.length_map, h1]; omega),
      List.getElem?_eq_none (by rw [refMean_length]; omega)]

/-! ### Where the input matrix ends -/

theorem loadFasttext_parses {K : Type} [NumOps K] [Codec K] {f : FtFile} (hf : f.OK) (lossy : Bool) :
    ∃ e : Embeddings K, Parses (loadFasttext lossy : Rd (Embeddings K)) [] (FtFile.headerBytes ++
      (f.cfgBytes ++ (f.dictBytes ++ f.matrixBytes))) e := by
  obtain ⟨out, e, h1, h2, h3⟩ := hf.finish (K := K)
  refine ⟨e, ?_⟩
  unfold loadFasttext
  refine Parses.bind (readFtHeader_parses _) (Parses.bind (readFtCfg_parses hf _)
      (Parses.bind (readFtVocab_parses lossy hf _) (Parses.bind_last (readFtStorage_parses hf h1 _) ?_)))
  exact Parses.lift _ h2

theorem ftBytes_split (f : FtFile) :
    f.bytes = (FtFile.headerBytes ++ (f.cfgBytes ++ (f.dictBytes ++ f.matrixBytes))) ++ f.output := by
  unfold FtFile.bytes
  simp only [List.append_assoc]

theorem parses_unique {α : Type} {m : Rd α} {a b x y : Bytes} {u v : α} (h1 : Parses m [] a u)
    (h2 : Parses m [] b v) (h : a ++ x = b ++ y) : x = y := by
  have e1 := h1 x
  have e2 := h2 y
  simp only [List.nil_append] at e1 e2
  rw [h, e2] at e1
  have : b.length = a.length := by
    have := congrArg (fun r : Res (α × RFile) => match r with | .ok r => r.2.pos | .error _ => 0) e1
    exact this
  exact (List.append_inj h this.symm).2

/-- The bytes of a file determine what follows the input matrix. -/
theorem ftOutput_unique {f g : FtFile} (hf : f.OK) (hg : g.OK) (h : f.bytes = g.bytes) : f.output = g.output := by
  let _ : Codec ℝ := ⟨fun _ => 0, fun _ => 0⟩
  obtain ⟨e, h1⟩ := loadFasttext_parses (K := ℝ) hf false
  obtain ⟨e', h2⟩ := loadFasttext_parses (K := ℝ) hg false
  rw [ftBytes_split, ftBytes_split] at h
  exact parses_unique h1 h2 h

end FF
