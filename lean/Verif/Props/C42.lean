import Verif.Lemmas.FastTextWrite
import Verif.Props.C28
import Verif.Props.C38
/-! C42: the fastText format. -/

namespace FF

section
variable {K : Type} [NumOps K] [Codec K]

/-- What `write_fasttext` writes: the file format with the vectors of `FtRaw` for the words, the
rows of the buckets as they are, and the whole storage after the matrix. -/
theorem C42_written (e : Embeddings K) (he : BuiltEmb e) (ix : FtIndexer) (m : Mat K)
    (hsub : e.vocab.sub = some (.ft ix)) (hst : e.storage = .nd m)
    (hn : e.vocab.words.length < 2 ^ 63) (bs : Bytes) (hw : (writeFasttext e).file = (.ok (), bs)) :
    ∃ vs : List (List K), vs.length = e.vocab.words.length ∧
      (∀ (i : Nat) w v, e.vocab.words[i]? = some w → vs[i]? = some v →
        FtRaw ix e.vocab.words.length m e.norms i w v) ∧
      bs = (ftExport ix e.vocab.words m.cols (vs.map fun v => v.map Codec.bits)
        ((m.rows.drop e.vocab.words.length).map fun v => v.map Codec.bits)
        (m.rows.map fun v => v.map Codec.bits).flatten).bytes := by
  obtain ⟨vs, h1, _, h2, h3, _⟩ := writeFasttext_inv ⟨he, hsub, hst, hn⟩ hw
  exact ⟨vs, h1, h2, h3⟩

/-- Writing succeeds if the numbers fit into the fields of the format. -/
theorem C42_write_succeeds (e : Embeddings K) (he : BuiltEmb e) (ix : FtIndexer) (m : Mat K)
    (hsub : e.vocab.sub = some (.ft ix)) (hst : e.storage = .nd m) (hcols : m.cols < 2 ^ 31)
    (hbuckets : ix.nBuckets < 2 ^ 31) (hmax : ix.maxN < 2 ^ 31)
    (hwords : e.vocab.words.length < 2 ^ 31)
    (htext : ∀ w ∈ e.vocab.words, ∀ c ∈ w, c.val < 0xD800 ∨ 0xDFFF < c.val) :
    ∃ vs : List (List K), vs.length = e.vocab.words.length ∧
      (∀ (i : Nat) w v, e.vocab.words[i]? = some w → vs[i]? = some v →
        FtRaw ix e.vocab.words.length m e.norms i w v) ∧
      let f := ftExport ix e.vocab.words m.cols (vs.map fun v => v.map Codec.bits)
        ((m.rows.drop e.vocab.words.length).map fun v => v.map Codec.bits)
        (m.rows.map fun v => v.map Codec.bits).flatten
      f.bytes.length < 2 ^ 63 → (writeFasttext e).file = (.ok (), f.bytes) := by
  have hf : FtEmb e ix m := ⟨he, hsub, hst, by omega⟩
  obtain ⟨_, _, _, i1, i2, i3, i4, i5⟩ := ftNew_ok.mp (builtIndexer_wf (he.vocab.1 _ hsub))
  have ht : ∀ w ∈ e.vocab.words, w.any isSurrogate = false := fun w h => any_surrogate.mpr (htext w h)
  choose f hf1 using fun (i : Fin e.vocab.words.length) =>
    ftWordRow_total hf (List.getElem?_eq_getElem i.isLt) (ht _ (List.getElem_mem i.isLt))
  have hv : ∀ (i : Nat) w v, e.vocab.words[i]? = some w → (List.ofFn f)[i]? = some v →
      FtRaw ix e.vocab.words.length m e.norms i w v := by
    intro i w v hw hv
    obtain ⟨hi, rfl⟩ := List.getElem?_eq_some_iff.mp hw
    obtain ⟨hi', rfl⟩ := List.getElem?_eq_some_iff.mp hv
    rw [List.getElem_ofFn]
    exact (hf1 ⟨i, hi⟩).2
  refine ⟨List.ofFn f, by simp, hv, ?_⟩
  intro g hg
  exact writeFasttext_ok hf ⟨hcols, hbuckets, lt_of_le_of_lt i2 hmax, hmax, hwords, ht⟩ (by simp) hv hg

/-- What `load_fasttext` returns for files of the format, whatever follows the input matrix. -/
theorem C42_load (f : FtFile) (hf : f.OK) (lossy : Bool) :
    ∃ e : Embeddings K, Rd.run (loadFasttext lossy) f.bytes = .ok e ∧
      FtLoaded f (f.rows.map fun r => r.map Codec.ofBits) e :=
  loadFasttext_ok hf lossy

/-- Words, n-gram range, number of buckets and dimensions survive; so does the size of the
matrix. -/
theorem C42_vocab (e : Embeddings K) (he : BuiltEmb e) (ix : FtIndexer) (m : Mat K)
    (hsub : e.vocab.sub = some (.ft ix)) (hst : e.storage = .nd m)
    (hn : e.vocab.words.length < 2 ^ 63) (hnul : ∀ w ∈ e.vocab.words, ∀ c ∈ w, c.val ≠ 0)
    (bs : Bytes) (hw : (writeFasttext e).file = (.ok (), bs)) (lossy : Bool) :
    ∃ e' : Embeddings K, Rd.run (loadFasttext lossy) bs = .ok e' ∧ BuiltEmb e' ∧
      e'.vocab = e.vocab ∧ e'.storage.nCols = m.cols ∧ e'.storage.nRows = m.rows.length := by
  have hf : FtEmb e ix m := ⟨he, hsub, hst, hn⟩
  obtain ⟨vs, h1, h2, h3, rfl, h5⟩ := writeFasttext_inv hf hw
  have hc : ∀ v ∈ vs, v.length = m.cols := by
    intro v hv
    obtain ⟨i, hi, rfl⟩ := List.getElem_of_mem hv
    obtain ⟨_, _, _, _, _, _, _, _, h, _⟩ := h3 i _ _
      (List.getElem?_eq_getElem (by omega)) (List.getElem?_eq_getElem hi)
    exact h
  have hok := ftExportOf_ok hf h2 hnul h1 hc h5
  obtain ⟨e', g1, g2, g3, g4, g5, rows, norms, g6, g7, g8, _⟩ := loadFasttext_ok (K := K) hok lossy
  have hwords : e'.vocab.words = e.vocab.words := by
    rw [g2]
    show (e.vocab.words.map fun w => (w, (0 : Int))).map Prod.fst = _
    rw [List.map_map]
    exact List.map_id _
  have hv : e'.vocab = e.vocab := by
    have a := g4.vocab.2
    have b := he.vocab.2
    rw [hwords, g3] at a
    rw [hsub] at b
    exact Except.ok.inj (a.symm.trans b)
  refine ⟨e', g1, g4, hv, by rw [g6]; rfl, ?_⟩
  have := (embNew_iff.mp g4.new).2.1
  rw [hv] at this
  have h' := (embNew_iff.mp he.new).2.1
  rw [hst] at h'
  have : (e'.storage.nRows : Int) = ((Storage.nd m).nRows : Int) := this.trans h'.symm
  exact_mod_cast this

end

/-! ### Exact arithmetic -/

theorem numSum_real (ys : List ℝ) : numSum ys = ys.sum := by
  have key : ∀ (ys : List ℝ) (x : ℝ), ys.foldl NumOps.add x = x + ys.sum := by
    intro ys
    induction ys with
    | nil => intro x; simp
    | cons y ys ih =>
      intro x
      rw [List.foldl_cons, ih, List.sum_cons]
      show x + y + _ = _
      ring
  cases ys with
  | nil => rfl
  | cons y ys => rw [numSum, key, List.sum_cons]

section
variable [Codec ℝ]

/-- The value survives the conversion to float32 and back. -/
def CodecExact (x : ℝ) : Prop := (Codec.ofBits (Codec.bits x) : ℝ) = x

theorem exact_rows {rows : List (List ℝ)} (h : ∀ r ∈ rows, ∀ x ∈ r, CodecExact x) :
    (bitRows rows).map (fun r => r.map (Codec.ofBits : F32 → ℝ)) = rows := by
  unfold bitRows
  rw [List.map_map]
  conv => rhs; rw [← List.map_id rows]
  apply List.map_congr_left
  intro r hr
  simp only [Function.comp, List.map_map, id]
  conv => rhs; rw [← List.map_id r]
  exact List.map_congr_left fun x hx => h r hr x hx

/-- Redoing the precomputation on a written row gives the exported vector. -/
theorem mean_raw {e : Embeddings ℝ} {ix : FtIndexer} {m : Mat ℝ} (hf : FtEmb e ix m)
    {vs : List (List ℝ)} (hl : vs.length = e.vocab.words.length)
    (hv : ∀ (i : Nat) w v, e.vocab.words[i]? = some w → vs[i]? = some v →
        FtRaw ix e.vocab.words.length m e.norms i w v)
    {i : Nat} {w : PyStr} (hw : e.vocab.words[i]? = some w) {is : List Nat} {sel : List (List ℝ)}
    {mean : List ℝ} (hsub : FtSubwords ix e.vocab.words.length w is)
    (hsel : List.Forall₂ (fun j r => (vs ++ m.rows.drop e.vocab.words.length)[j]? = some r) (i :: is) sel)
    (hmean : IsMean m.cols sel mean) {u : List ℝ} (hu : Exported e i u) : mean = u := by
  have hi := (List.getElem?_eq_some_iff.mp hw).1
  have hvi := List.getElem?_eq_getElem (l := vs) (i := i) (by omega)
  generalize hvv : vs[i]'(by omega) = v at hvi
  obtain ⟨is', row, sw, s, a1, a2, a3, a4, a5, a6⟩ := hv i w v hw hvi
  have := ftSubwords_unique hsub a1
  subst this
  have hul := exported_length hf.built hu
  have hcol : e.storage.nCols = m.cols := by rw [hf.storage]; rfl
  rw [hcol] at hul
  obtain ⟨row', hr', hu⟩ := hu
  rw [hf.storage] at hr'
  have hr' : m.rows[i]? = some row' := hr'
  rw [a2] at hr'
  cases hr'
  have hrl : row.length = m.cols := hf.wf _ (List.mem_of_getElem? a2)
  -- the selected rows
  cases hsel with
  | cons hd tl =>
    rename_i v' sw'
    rw [List.getElem?_append_left (by omega), hvi] at hd
    cases hd
    have hbound : ∀ j ∈ is, e.vocab.words.length ≤ j := by
      obtain ⟨gs, _, hg⟩ := hsub
      intro j hj
      obtain ⟨k, hk, rfl⟩ := List.getElem_of_mem hj
      obtain ⟨c, _, hc⟩ := (List.forall₂_iff_get.mp hg).2 k (by rw [hg.length_eq]; exact hk) hk
      have : is[k] = e.vocab.words.length + c := hc
      omega
    have htl : List.Forall₂ (fun j r => m.rows[j]? = some r) is sw' := by
      refine forall₂_imp_mem tl ?_
      intro j r hj hr
      have := hbound j hj
      rw [List.getElem?_append_right (by omega), List.getElem?_drop] at hr
      rw [← hr]
      congr 1
      omega
    have := forall₂_get_unique a3 htl
    subst this
    have hlen : sw.length = is.length := htl.length_eq.symm
    obtain ⟨s', b1, b2⟩ := hmean
    have hml : mean.length = m.cols := by rw [b2, List.length_map]; exact b1.1
    apply List.ext_getElem?
    intro t
    by_cases ht : t < m.cols
    · obtain ⟨ys, c1, c2⟩ := a4.2 t ht
      obtain ⟨ys', d1, d2⟩ := b1.2 t ht
      have hx := List.getElem?_eq_getElem (l := row) (i := t) (by omega)
      generalize row[t]'(by omega) = x at hx
      have hvt := a6 t x _ hx c2
      rw [List.map_cons, c1] at d1
      have hne : ((is.length : ℝ) + 1) ≠ 0 := by positivity
      -- the first component of the column
      have hys' : ∀ z, v[t]? = some z → ys' = z :: ys := by
        intro z hz
        rw [hz, ← List.map_cons] at d1
        exact (List.map_injective_iff.mpr (Option.some_injective _) d1).symm
      have hmt : ∀ z, v[t]? = some z → mean[t]? = some ((z + ys.sum) / ((is.length : ℝ) + 1)) := by
        intro z hz
        rw [b2, List.getElem?_map, d2, hys' z hz, numSum_real, List.sum_cons]
        show some ((z + ys.sum) / (((v :: sw).length : Nat) : ℝ)) = _
        rw [List.length_cons, hlen]
        push_cast
        rfl
      cases hn : e.norms with
      | none =>
        rw [hn] at hvt hu
        simp only at hvt hu
        rw [hmt _ hvt, hu, hx]
        congr 1
        show (x * ((is.length + 1 : Nat) : ℝ) - numSum ys + ys.sum) / _ = x
        rw [numSum_real]
        push_cast
        field_simp
        ring
      | some ns =>
        rw [hn] at hvt hu
        simp only at hvt hu
        obtain ⟨c, hc, hvt⟩ := hvt
        obtain ⟨c', hc', _, hut⟩ := hu
        rw [hc] at hc'
        cases hc'
        rw [hmt _ hvt, hut t x hx]
        congr 1
        show (x * ((is.length + 1 : Nat) : ℝ) * c - numSum ys + ys.sum) / _ = x * c
        rw [numSum_real]
        push_cast
        field_simp
        ring
    · rw [List.getElem?_eq_none (by omega), List.getElem?_eq_none (by omega)]

/-- Over the reals, if the written values are exactly representable: loading what was written
returns the same vocabulary; the bucket rows are the same; the row of a word is its exported vector
(row times norm) divided by its length, which is the new norm. -/
theorem C42_round_trip (e : Embeddings ℝ) (he : BuiltEmb e) (ix : FtIndexer) (m : Mat ℝ)
    (hsub : e.vocab.sub = some (.ft ix)) (hst : e.storage = .nd m)
    (hn : e.vocab.words.length < 2 ^ 63) (hnul : ∀ w ∈ e.vocab.words, ∀ c ∈ w, c.val ≠ 0)
    (hex : ∀ (i : Nat) w v, e.vocab.words[i]? = some w →
      FtRaw ix e.vocab.words.length m e.norms i w v → ∀ x ∈ v, CodecExact x)
    (hex' : ∀ r ∈ m.rows.drop e.vocab.words.length, ∀ x ∈ r, CodecExact x)
    (bs : Bytes) (hw : (writeFasttext e).file = (.ok (), bs)) (lossy : Bool) :
    ∃ (e' : Embeddings ℝ) (rows : List (List ℝ)) (norms : List ℝ),
      Rd.run (loadFasttext lossy) bs = .ok e' ∧ BuiltEmb e' ∧
      e'.vocab = e.vocab ∧ e'.storage = .nd ⟨m.cols, rows⟩ ∧ e'.norms = some norms ∧
      rows.length = m.rows.length ∧ norms.length = e.vocab.words.length ∧
      (∀ j : Nat, e.vocab.words.length ≤ j → rows[j]? = m.rows[j]?) ∧
      ∀ (i : Nat) u, i < e.vocab.words.length → Exported e i u →
        norms[i]? = some (Real.sqrt (∑ t ∈ Finset.range m.cols, u.getD t 0 ^ 2)) ∧
        ∃ row, rows[i]? = some row ∧ row.length = m.cols ∧
          ∀ t, row.getD t 0 = u.getD t 0 / Real.sqrt (∑ t ∈ Finset.range m.cols, u.getD t 0 ^ 2) := by
  have hf : FtEmb e ix m := ⟨he, hsub, hst, hn⟩
  obtain ⟨vs, h1, h2, h3, h4, h5⟩ := writeFasttext_inv hf hw
  have hc : ∀ v ∈ vs, v.length = m.cols := by
    intro v hv
    obtain ⟨i, hi, rfl⟩ := List.getElem_of_mem hv
    obtain ⟨_, _, _, _, _, _, _, _, h, _⟩ := h3 i _ _
      (List.getElem?_eq_getElem (by omega)) (List.getElem?_eq_getElem hi)
    exact h
  rw [h4] at h5
  have hok := ftExportOf_ok hf h2 hnul h1 hc h5
  obtain ⟨e', g1, g2, g3, g4, g5, rows, norms, g6, g7, g8, g9, g10, g11⟩ :=
    loadFasttext_ok (K := ℝ) hok lossy
  have hraw : ((ftExportOf ix e m vs).raw : List (List ℝ)) = vs ++ m.rows.drop e.vocab.words.length := by
    unfold FtFile.raw
    show (bitRows vs ++ bitRows (m.rows.drop e.vocab.words.length)).map _ = _
    rw [List.map_append, exact_rows, exact_rows hex']
    intro v hv x hx
    obtain ⟨i, hi, rfl⟩ := List.getElem_of_mem hv
    have hwi := List.getElem?_eq_getElem (l := e.vocab.words) (i := i) (by omega)
    exact hex i _ _ hwi (h3 i _ _ hwi (List.getElem?_eq_getElem hi)) x hx
  have hfw : (ftExportOf ix e m vs).words.map Prod.fst = e.vocab.words := by
    show (e.vocab.words.map fun w => (w, (0 : Int))).map Prod.fst = _
    rw [List.map_map]
    exact List.map_id _
  have hfl : (ftExportOf ix e m vs).words.length = e.vocab.words.length := by
    rw [← hfw, List.length_map]
  rw [hraw, hfl] at g10
  rw [hraw, hfl, hfw] at g11
  rw [hraw] at g8
  rw [hfl] at g9
  obtain ⟨e'', k1, _, k2, _⟩ := C42_vocab e he ix m hsub hst hn hnul bs hw lossy
  rw [h4, g1] at k1
  have k1 := Except.ok.inj k1
  subst k1
  have hrl := hf.rows
  refine ⟨e', rows, norms, by rw [h4]; exact g1, g4, k2, g6, g7, ?_, g9, ?_, ?_⟩
  · rw [g8, List.length_append, List.length_drop, h1, Nat.add_sub_cancel' (by rw [hrl]; exact Nat.le_add_right _ _)]
  · intro j hj
    have hv' : vs.length ≤ j := h1.trans_le hj
    rw [g10 j hj, List.getElem?_append_right hv', List.getElem?_drop, h1, Nat.add_sub_cancel' hj]
  · intro i u hi hu
    have hwi := List.getElem?_eq_getElem hi
    obtain ⟨is, sel, mean, l1, l2, l3, l4, l5⟩ := g11 i _ hwi
    have hmu : mean = u := mean_raw hf h1 h3 hwi l1 l2 l3 hu
    subst hmu
    have hml : mean.length = m.cols := by
      obtain ⟨s, b1, b2⟩ := l3
      rw [b2, List.length_map]; exact b1.1
    have hnorm : NumOps.normAxis mean = Real.sqrt (∑ t ∈ Finset.range m.cols, mean.getD t 0 ^ 2) := by
      show Real.sqrt (sumProd _ _) = _
      rw [sumProd_self, hml]
    rw [hnorm] at l4 l5
    refine ⟨l4, _, l5, by rw [List.length_map]; exact hml, fun t => ?_⟩
    exact vdiv_getD mean _ t

/-- If the rows of the words have length one and the norms are positive, the storage and the norms
are the same. -/
theorem C42_same (e : Embeddings ℝ) (he : BuiltEmb e) (ix : FtIndexer) (m : Mat ℝ) (ns : List ℝ)
    (hsub : e.vocab.sub = some (.ft ix)) (hst : e.storage = .nd m) (hns : e.norms = some ns)
    (hn : e.vocab.words.length < 2 ^ 63) (hnul : ∀ w ∈ e.vocab.words, ∀ c ∈ w, c.val ≠ 0)
    (hex : ∀ (i : Nat) w v, e.vocab.words[i]? = some w →
      FtRaw ix e.vocab.words.length m e.norms i w v → ∀ x ∈ v, CodecExact x)
    (hex' : ∀ r ∈ m.rows.drop e.vocab.words.length, ∀ x ∈ r, CodecExact x)
    (hunit : ∀ (i : Nat) row, i < e.vocab.words.length → m.rows[i]? = some row →
      ∑ t ∈ Finset.range m.cols, row.getD t 0 ^ 2 = 1)
    (hpos : ∀ c ∈ ns, 0 < c)
    (bs : Bytes) (hw : (writeFasttext e).file = (.ok (), bs)) (lossy : Bool) :
    ∃ e' : Embeddings ℝ, Rd.run (loadFasttext lossy) bs = .ok e' ∧ e'.vocab = e.vocab ∧
      e'.storage = e.storage ∧ e'.norms = e.norms := by
  have hf : FtEmb e ix m := ⟨he, hsub, hst, hn⟩
  obtain ⟨e', rows, norms, h1, h2, h3, h4, h5, h6, h7, h8, h9⟩ :=
    C42_round_trip e he ix m hsub hst hn hnul hex hex' bs hw lossy
  have hnl := ((embNew_iff.mp he.new).2.2 ns hns).2
  rw [he.vocab.len] at hnl
  have hrl := hf.rows
  have key : ∀ i : Nat, i < e.vocab.words.length → norms[i]? = ns[i]? ∧ rows[i]? = m.rows[i]? := by
    intro i hi
    have hrow := List.getElem?_eq_getElem (l := m.rows) (i := i) (by omega)
    generalize m.rows[i]'(by omega) = row at hrow
    have hc := List.getElem?_eq_getElem (l := ns) (i := i) (by omega)
    have hcpos := hpos _ (List.getElem_mem (l := ns) (n := i) (by omega))
    generalize ns[i]'(by omega) = c at hc hcpos
    have hlr : row.length = m.cols := hf.wf _ (List.mem_of_getElem? hrow)
    have hexp : Exported e i (row.map fun x => x * c) := by
      refine ⟨row, by rw [hst]; exact hrow, ?_⟩
      rw [hns]
      refine ⟨c, hc, by simp, fun t x hx => ?_⟩
      rw [List.getElem?_map, hx]; rfl
    have hgd : ∀ t, (row.map fun x => x * c).getD t 0 = row.getD t 0 * c := by
      intro t
      by_cases ht : t < row.length
      · rw [List.getD_eq_getElem _ _ (by simpa using ht), List.getD_eq_getElem _ _ ht]; simp
      · rw [List.getD_eq_default _ _ (by simpa using ht), List.getD_eq_default _ _ (by simpa using ht)]
        simp
    have hsum : Real.sqrt (∑ t ∈ Finset.range m.cols, (row.map fun x => x * c).getD t 0 ^ 2) = c := by
      have : ∑ t ∈ Finset.range m.cols, (row.map fun x => x * c).getD t 0 ^ 2 = c ^ 2 := by
        rw [Finset.sum_congr rfl fun t _ => by rw [hgd, mul_pow], ← Finset.sum_mul, hunit i row hi hrow,
          one_mul]
      rw [this, Real.sqrt_sq hcpos.le]
    obtain ⟨g1, row', g2, g3, g4⟩ := h9 i _ hi hexp
    rw [hsum] at g1
    refine ⟨by rw [g1, hc], ?_⟩
    rw [g2, hrow]
    congr 1
    apply List.ext_getElem (by omega)
    intro t ht ht'
    have := g4 t
    rw [hsum, hgd, List.getD_eq_getElem _ _ ht, List.getD_eq_getElem _ _ ht'] at this
    rw [this]
    field_simp
  refine ⟨e', h1, h3, ?_, ?_⟩
  · rw [h4, hst]
    congr 1
    have : rows = m.rows := by
      apply List.ext_getElem?
      intro j
      by_cases hj : j < e.vocab.words.length
      · exact (key j hj).2
      · exact h8 j (by omega)
    rw [this]
  · rw [h5, hns]
    congr 1
    apply List.ext_getElem?
    intro j
    by_cases hj : j < e.vocab.words.length
    · exact (key j hj).1
    · rw [List.getElem?_eq_none (by omega), List.getElem?_eq_none (by omega)]

end

/-! ### Limits -/

theorem sle_length (w : Nat) (i : Int) : (sle w i).length = w := by simp [sle]

theorem ftHeader_ok : ∃ s, (writeSigned [(4, ftMagic), (4, 12)] : Wr Unit).file = (.ok (), s) := by
  have h : (8 : Nat) < maxSize := by decide
  refine ⟨_, writeSigned_ok (rest := []) (s := []) (fs := [(4, ftMagic), (4, 12)]) (by simp) ?_ ?_⟩
  · simp only [List.mem_cons, List.not_mem_nil, or_false, forall_eq_or_imp, forall_eq]
    decide
  · simp only [List.flatMap_cons, List.flatMap_nil, List.append_nil, List.nil_append]
    rw [List.length_append, sle_length, sle_length]
    exact h

theorem wr_second_fails {α β : Type} {a : Wr α} {b : Wr β} {c : β → Wr Unit} {x : α} {err : PyErr} {s s' : Bytes}
    (h1 : a.file = (.ok x, s)) (h2 : b s = (.error err, s')) :
    (a >>= fun _ => b >>= c).file.1 = .error err := by
  unfold Wr.file at h1 ⊢
  rw [wr_bind_ok h1, wr_bind, h2]

theorem writeFtCfg_limit (dims buckets mn mx : Nat) (hb : 2 ^ 31 ≤ buckets) (s : Bytes) :
    writeFtCfg dims buckets mn mx s = (.error .structError, s) := by
  have : packS [(4, (dims : Int)), (4, 0), (4, 0), (4, 0), (4, 0), (4, 1), (4, 1), (4, 1),
      (4, buckets), (4, mn), (4, mx), (4, 0)] = .error .structError := by
    unfold packS
    rw [if_neg]
    intro h
    have h := List.all_eq_true.mp h (4, (buckets : Int)) (by simp)
    have h := (signedOk_iff (w := 4)).mp h
    have h : (buckets : Int) < 2 ^ 31 := h.2
    exact absurd (by exact_mod_cast h) (Nat.not_lt.mpr hb)
  unfold writeFtCfg writeSigned
  rw [this]
  rfl

/-- A number of buckets from 2^31 on does not fit into the field of the format. -/
theorem C42_bucket_limit {K : Type} [NumOps K] [Codec K] (e : Embeddings K) (ix : FtIndexer)
    (hsub : e.vocab.sub = some (.ft ix)) (hb : 2 ^ 31 ≤ ix.nBuckets) :
    (writeFasttext e).file.1 = .error .structError := by
  obtain ⟨s, h2⟩ := ftHeader_ok
  unfold writeFasttext
  rw [hsub]
  exact wr_second_fails h2 (writeFtCfg_limit _ _ _ _ hb _)

/-! ### Cases -/

theorem ftBytes_length (f : FtFile) : f.bytes.length =
    109 + (f.words.map fun p => (utf8 p.1).length + 10).sum + f.rows.flatten.length * 4 + f.output.length := by
  have : (f.words.flatMap ftWordBytes).length = (f.words.map fun p => (utf8 p.1).length + 10).sum := by
    rw [List.length_flatMap]
    congr 1
    apply List.map_congr_left
    intro p _
    simp only [ftWordBytes, List.length_append, sle_length, List.length_singleton]
  simp only [FtFile.bytes, FtFile.headerBytes, FtFile.cfgBytes, FtFile.dictBytes, FtFile.matrixBytes,
    List.length_append, sle_length, this, length_f32sLE, List.length_singleton, length_le]
  omega

namespace Sample

/-- Floats are natural numbers here. -/
noncomputable abbrev natCodec : Codec ℝ := ⟨fun x => UInt32.ofNat ⌊x⌋₊, fun b => (b.toNat : ℝ)⟩

theorem natCodec_exact {n : Nat} (h : n < 2 ^ 32) : @CodecExact natCodec (n : ℝ) := by
  show (((UInt32.ofNat ⌊(n : ℝ)⌋₊).toNat : Nat) : ℝ) = n
  rw [Nat.floor_natCast, UInt32.toNat_ofNat', Nat.mod_eq_of_lt h]

/-- One word `a` with the one trigram `<a>` in the only bucket. -/
def ftVocab1 : Vocab := ⟨[[97]], enumItems [[97]], some (.ft ⟨1, 3, 3⟩)⟩
noncomputable def ftMat1 : Mat ℝ := ⟨2, [[3 / 5, 4 / 5], [1, 2]]⟩
noncomputable def ftEmb1 : Embeddings ℝ := ⟨.nd ftMat1, ftVocab1, some [5], none⟩

theorem ftMat1_wf : ftMat1.WF := by
  intro r hr
  simp only [ftMat1, List.mem_cons, List.not_mem_nil, or_false] at hr
  rcases hr with rfl | rfl <;> rfl

theorem builtFtEmb1 : BuiltEmb ftEmb1 :=
  ⟨⟨by intro ix h; cases h; exact .ft (b := 1) (mn := 3) (mx := 3) (by decide), by decide⟩,
    ⟨ftMat1_wf, by unfold ShapeOk; decide⟩, rfl⟩

theorem ftSub1 : FtSubwords ⟨1, 3, 3⟩ 1 [97] [1] := by
  refine ⟨[[60, 97, 62]], ⟨[(0, 3)], by decide, ?_, by simp⟩, ?_⟩
  · intro start len
    have : (wrap true [97]).length = 3 := by decide
    rw [this]
    simp only [List.mem_cons, List.not_mem_nil, or_false, Prod.mk.injEq]
    omega
  · exact .cons ⟨0, by decide, rfl⟩ .nil

/-- (3/5, 4/5) * 2 * 5 - (1, 2) = (5, 6) -/
theorem ftRaw1 : FtRaw ⟨1, 3, 3⟩ 1 ftMat1 (some [5]) 0 [97] [5, 6] := by
  refine ⟨[1], [3 / 5, 4 / 5], [[1, 2]], [1, 2], ftSub1, rfl, .cons rfl .nil, ⟨rfl, ?_⟩, rfl, ?_⟩
  · intro t ht
    have : t = 0 ∨ t = 1 := by have : t < 2 := ht; omega
    rcases this with rfl | rfl
    · exact ⟨[1], rfl, rfl⟩
    · exact ⟨[2], rfl, rfl⟩
  · intro t x y hx hy
    refine ⟨5, rfl, ?_⟩
    have : t < 2 := (List.getElem?_eq_some_iff.mp hy).1
    have : t = 0 ∨ t = 1 := by omega
    rcases this with rfl | rfl
    · cases hx; cases hy
      show some (5 : ℝ) = some (3 / 5 * ((2 : Nat) : ℝ) * 5 - 1)
      norm_num
    · cases hx; cases hy
      show some (6 : ℝ) = some (4 / 5 * ((2 : Nat) : ℝ) * 5 - 2)
      norm_num

theorem ftExact1 : ∀ (i : Nat) w v, ftEmb1.vocab.words[i]? = some w →
    FtRaw ⟨1, 3, 3⟩ 1 ftMat1 (some [5]) i w v → ∀ x ∈ v, @CodecExact natCodec x := by
  intro i w v hw hv x hx
  have : i = 0 := by
    have : i < 1 := (List.getElem?_eq_some_iff.mp hw).1
    omega
  subst this
  cases hw
  have := ftRaw_unique ftMat1_wf hv ftRaw1
  subst this
  simp only [List.mem_cons, List.not_mem_nil, or_false] at hx
  rcases hx with rfl | rfl
  · exact_mod_cast natCodec_exact (n := 5) (by decide)
  · exact_mod_cast natCodec_exact (n := 6) (by decide)

theorem ftExact1' : ∀ r ∈ ftMat1.rows.drop 1, ∀ x ∈ r, @CodecExact natCodec x := by
  intro r hr x hx
  simp only [ftMat1, List.drop_succ_cons, List.drop_zero, List.mem_cons, List.not_mem_nil, or_false] at hr
  subst hr
  simp only [List.mem_cons, List.not_mem_nil, or_false] at hx
  rcases hx with rfl | rfl
  · exact_mod_cast natCodec_exact (n := 1) (by decide)
  · exact_mod_cast natCodec_exact (n := 2) (by decide)

/-- Writing succeeds, and loading gives the same storage and norms. -/
example : ∃ bs, (@writeFasttext ℝ _ natCodec ftEmb1).file = (.ok (), bs) ∧
    ∃ e', Rd.run (@loadFasttext ℝ _ natCodec false) bs = .ok e' ∧ e'.vocab = ftEmb1.vocab ∧
      e'.storage = ftEmb1.storage ∧ e'.norms = ftEmb1.norms := by
  let _ : Codec ℝ := natCodec
  obtain ⟨vs, h1, h2, h3⟩ := C42_write_succeeds ftEmb1 builtFtEmb1 ⟨1, 3, 3⟩ ftMat1 rfl rfl (by decide)
    (by decide) (by decide) (by decide) (by
      intro w hw c hc
      simp only [ftEmb1, ftVocab1, List.mem_singleton] at hw
      subst hw
      rw [List.mem_singleton] at hc
      subst hc
      decide)
  have hvs : vs = [[5, 6]] := by
    obtain ⟨v, rfl⟩ := List.length_eq_one_iff.mp h1
    rw [ftRaw_unique ftMat1_wf (h2 0 [97] v rfl rfl) ftRaw1]
  subst hvs
  have h3 := h3 (by
    rw [ftBytes_length]
    decide)
  refine ⟨_, h3, ?_⟩
  · exact C42_same ftEmb1 builtFtEmb1 ⟨1, 3, 3⟩ ftMat1 [5] rfl rfl rfl (by decide) (by
      intro w hw c hc
      simp only [ftEmb1, ftVocab1, List.mem_singleton] at hw
      subst hw
      rw [List.mem_singleton] at hc
      subst hc
      decide) ftExact1 ftExact1' (by
      intro i row hi hr
      have : i = 0 := by
        have : i < 1 := hi
        omega
      subst this
      cases hr
      show ∑ t ∈ Finset.range 2, _ = _
      rw [Finset.sum_range_succ, Finset.sum_range_one]
      show (3 / 5 : ℝ) ^ 2 + (4 / 5) ^ 2 = 1
      norm_num) (by
      intro c hc
      rw [List.mem_singleton] at hc
      subst hc
      norm_num) _ h3 false

/-- Words with zero characters do not survive. -/
def ftNul : Embeddings F32 :=
  ⟨.nd ⟨1, [[1], [2]]⟩, ⟨[[97, 0, 98]], enumItems [[97, 0, 98]], some (.ft ⟨1, 3, 3⟩)⟩, none, none⟩

theorem builtFtNul : BuiltEmb ftNul :=
  ⟨⟨by intro ix h; cases h; exact .ft (b := 1) (mn := 3) (mx := 3) (by decide), by decide⟩,
    by unfold ftNul StorageWF Mat.WF ShapeOk; decide, rfl⟩

/-- A file as fastText writes them: two words, two buckets, frequencies, an output matrix. -/
def ftFile2 : FtFile where
  dims := 2
  windowSize := 5
  epoch := 10
  minCount := 3
  ns := 5
  wordNgrams := 1
  loss := 1
  model := 1
  buckets := 2
  minN := 3
  maxN := 6
  lrUpdateRate := 100
  samplingThreshold := 0x3F1A36E2EB1C432D
  nWords := 2
  nTokens := 1000
  prune := -1
  words := [([97, 98], 700), ([0xDF], 300)]
  cols := 2
  rows := [[1, 2], [3, 4], [5, 6], [7, 8]]
  output := [0, 1, 2, 3]

theorem ftFile2_ok : ftFile2.OK where
  ints := by
    unfold Int32Ok Int64Ok
    refine ⟨by decide, by decide, by decide, by decide, by decide, by decide, by decide, by decide,
      by decide, by decide, by decide⟩
  buckets := by decide
  range := by decide
  prune := by decide
  count := by decide
  nul := by
    have h : ∀ p ∈ ftFile2.words, p.1.all (fun c => c.val != 0) = true := by decide
    intro p hp c hc
    simpa using List.all_eq_true.mp (h p hp) c hc
  text := by
    have h : ∀ p ∈ ftFile2.words, p.1.any isSurrogate = false := by decide
    exact fun p hp => any_surrogate.mp (h p hp)
  nodup := by decide
  shape := by decide
  cols := by decide
  size := by unfold ShapeOk; decide

example : ∃ e : Embeddings F32, Rd.run (@loadFasttext F32 f32Ops _ true) ftFile2.bytes = .ok e ∧
    @FtLoaded F32 f32Ops ftFile2 ftFile2.rows e := by
  have := @C42_load F32 f32Ops _ ftFile2 ftFile2_ok true
  exact this

/-- Three words, two buckets, n-grams of length 2 and 3, with norms. -/
def embFt5 : Embeddings F32 := ⟨.nd nd5, ft, some [7, 8, 9], none⟩
theorem builtEmbFt5 : BuiltEmb embFt5 := ⟨builtFt, wf5, rfl⟩

example : ∃ bs e', (@writeFasttext F32 f32Ops _ embFt5).file = (.ok (), bs) ∧
    Rd.run (@loadFasttext F32 f32Ops _ false) bs = .ok e' ∧ e'.vocab = embFt5.vocab := by
  have h : (@writeFasttext F32 f32Ops _ embFt5).file =
      (.ok (), (@writeFasttext F32 f32Ops _ embFt5).file.2) := by decide +kernel
  obtain ⟨e', h1, _, h2, _⟩ := @C42_vocab F32 f32Ops _ embFt5 builtEmbFt5 ⟨2, 2, 3⟩ nd5 rfl rfl (by decide)
    (by
      have h : ∀ w ∈ embFt5.vocab.words, w.all (fun c => c.val != 0) = true := by decide
      intro w hw c hc
      simpa using List.all_eq_true.mp (h w hw) c hc) _ h false
  exact ⟨_, e', h, h1, h2⟩

end Sample

/-- A word with a zero character ends there for the reader: the file cannot be loaded. -/
theorem C42_nul_refuted : ∃ (inst : NumOps F32) (e : Embeddings F32) (bs : Bytes), BuiltEmb e ∧
    (@writeFasttext F32 inst _ e).file = (.ok (), bs) ∧
    ∀ lossy, Rd.run (@loadFasttext F32 inst _ lossy) bs = .error .valueError :=
  ⟨Sample.f32Ops, Sample.ftNul, (@writeFasttext F32 Sample.f32Ops _ Sample.ftNul).file.2,
    Sample.builtFtNul, by decide +kernel, by
      have key : ∀ lossy, (match Rd.run (@loadFasttext F32 Sample.f32Ops _ lossy)
          (@writeFasttext F32 Sample.f32Ops _ Sample.ftNul).file.2 with
          | .ok _ => none
          | .error e => some e) = some PyErr.valueError := by decide +kernel
      intro lossy
      have := key lossy
      revert this
      cases Rd.run (@loadFasttext F32 Sample.f32Ops _ lossy)
        (@writeFasttext F32 Sample.f32Ops _ Sample.ftNul).file.2 with
      | ok e => intro h; cases h
      | error e => intro h; exact congrArg _ (Option.some.inj h)⟩

end FF
