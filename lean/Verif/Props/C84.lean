import Verif.Lemmas.FastTextRefVec
/-!
# C84: fastText models mean the same to finalfusion-python and to fastText

`Spec/FastTextRef` has the reference: fastText's own n-gram extraction, word vectors and file layout.
-/

namespace FF

/-! ### N-grams -/

theorem ft_indices_occs {b mn mx : Int} {ix : FtIndexer} (h : FtIndexer.new b mn mx = .ok ix) {word : PyStr}
    {enc : Bytes} (he : encode word = .ok enc) {off : Nat} (ho : off + ix.upperBound ≤ 2 ^ 64) :
    ∃ is, ix.indices word (UInt64.ofNat off) true = .ok is ∧ FtSubwords ix off word is ∧
      word.any isSurrogate = false ∧ enc = utf8 word := by
  obtain ⟨_, _, _, h0, h1, _, h2, _⟩ := ftNew_ok.mp h
  obtain ⟨gs, is, g1, g2, -, g4⟩ := C19_bulk b mn mx ix h word off ho true enc he
  have hw : word.any isSurrogate = false := by
    cases hc : word.any isSurrogate with
    | false => rfl
    | true => rw [encode_err hc] at he; cases he
  rw [encode_eq hw] at he
  refine ⟨_, g4, ⟨gs, ?_, ?_⟩, hw, (Except.ok.inj he).symm⟩
  · obtain ⟨gs', k1, k2⟩ := C17_enumerates word ix.minN ix.maxN true h1 h0
    rw [g1] at k1
    cases k1
    exact k2
  · rw [List.forall₂_map_right_iff]
    clear g1 g4
    induction gs generalizing is with
    | nil => cases is with
      | nil => exact .nil
      | cons i is => cases g2
    | cons g gs ih => cases is with
      | nil => cases g2
      | cons i is =>
        rw [List.map_cons, List.map_cons] at g2
        injection g2 with ga gb
        exact .cons ⟨i, ga, rfl⟩ (ih is gb)

/-- For n-grams of at least two characters: the indices of a word's n-grams are those of fastText, with the same
multiplicities. -/
theorem C84_ngrams_partial (b mn mx : Int) (ix : FtIndexer) (h : FtIndexer.new b mn mx = .ok ix) (h2 : 2 ≤ mn) (word : PyStr)
    (enc : Bytes) (he : encode word = .ok enc) (heos : enc ≠ refEos) (off : Nat) (ho : off + ix.upperBound ≤ 2 ^ 64) :
    ∃ is, ix.indices word (UInt64.ofNat off) true = .ok is ∧
      is.Perm (refNgrams mn.toNat mx.toNat b.toNat off enc) := by
  obtain ⟨rfl, rfl, rfl, -⟩ := ftNew_ok.mp h
  obtain ⟨is, h1, h3, hw, rfl⟩ := ft_indices_occs h he ho
  exact ⟨is, h1, ftSubwords_perm (by omega) hw heos h3⟩

/-- Single characters: `<` and `>` are n-grams for finalfusion-python, but not for fastText. -/
theorem C84_single (b mx : Int) (ix : FtIndexer) (h : FtIndexer.new b 1 mx = .ok ix) (word : PyStr)
    (enc : Bytes) (he : encode word = .ok enc) (heos : enc ≠ refEos) (off : Nat) (ho : off + ix.upperBound ≤ 2 ^ 64) :
    ∃ is, ix.indices word (UInt64.ofNat off) true = .ok is ∧
      is.Perm ((off + refHash [60] % b.toNat) :: (off + refHash [62] % b.toNat) ::
        refNgrams 1 mx.toNat b.toNat off enc) := by
  obtain ⟨rfl, hm, rfl, h0, h1, -⟩ := ftNew_ok.mp h
  obtain ⟨is, h2, h3, hw, rfl⟩ := ft_indices_occs h he ho
  have hm : ix.minN = 1 := by omega
  have := ftSubwords_perm_one hm h1 hw heos h3
  rw [hm] at this
  exact ⟨is, h2, this⟩

section
variable [Codec ℝ]

/-- The numbers of the input matrix of a file. -/
noncomputable def FtFile.values (f : FtFile) : List (List ℝ) := f.rows.map fun r => r.map Codec.ofBits

/-! ### Loading -/

/-- Words of the model: row and norm are those of the vector that fastText computes. -/
theorem C84_known_partial (f : FtFile) (hf : f.OK) (hn : f.nWords = f.words.length) (h2 : 2 ≤ f.minN) (lossy : Bool) :
    ∃ e : Embeddings ℝ, Rd.run (loadFasttext lossy) f.bytes = .ok e ∧
      ∀ (i : Nat) p, f.words[i]? = some p → utf8 p.1 ≠ refEos → e.vocab.words[i]? = some p.1 ∧
        (NonZero (refKnown f f.values i (utf8 p.1)) → Restores e i (refKnown f f.values i (utf8 p.1))) := by
  obtain ⟨e, h, hall⟩ := C43_fasttext f hf lossy
  refine ⟨e, h, fun i p hp he => ?_⟩
  obtain ⟨h1, is, sel, mean, g1, g2, g3, g4⟩ := hall i p hp
  have hs := any_surrogate.mpr (hf.text p (List.mem_of_getElem? hp))
  have hm : mean = refKnown f f.values i (utf8 p.1) := by
    rw [isMean_ref g2 g3]
    unfold refKnown
    rw [hn]
    exact refMean_perm _ _ (.cons _ (ftSubwords_perm h2 hs he g1))
  rw [← hm]
  exact ⟨h1, g4⟩

/-- Other words: the vector has the direction of the one fastText computes, and length one.  The norm that is reported
belongs to the sum of the n-gram rows, fastText's vector is their mean. -/
theorem C84_unknown_partial (f : FtFile) (hf : f.OK) (hn : f.nWords = f.words.length) (h2 : 2 ≤ f.minN) (lossy : Bool) :
    ∃ e : Embeddings ℝ, Rd.run (loadFasttext lossy) f.bytes = .ok e ∧
      ∀ w, w ∉ f.words.map Prod.fst → (∀ c ∈ w, c.val < 0xD800 ∨ 0xDFFF < c.val) → utf8 w ≠ refEos →
        NonZero (refUnknown f f.values (utf8 w)) →
        ∃ v n, e.getItem w = .ok v ∧ v.length = f.cols ∧ 0 < n ∧
          n ^ 2 = ∑ t ∈ Finset.range f.cols, (refUnknown f f.values (utf8 w)).getD t 0 ^ 2 ∧
          (∀ t, n * v.getD t 0 = (refUnknown f f.values (utf8 w)).getD t 0) ∧
          e.embeddingWithNorm w =
            .ok (some (v, some ((refNgrams f.minN f.maxN f.buckets f.words.length (utf8 w)).length * n))) := by
  obtain ⟨e, h, h1, hsub, he, _, rows, norms, h3, h4, hlen, hnl, h5, _⟩ := C42_load (K := ℝ) f hf lossy
  refine ⟨e, h, fun w hw hs heos hz => ?_⟩
  have hs := any_surrogate.mpr hs
  have hwl : e.vocab.words.length = f.words.length := by rw [h1, List.length_map]
  obtain ⟨is, g1, g2, g3⟩ := ftSubwords_total he.vocab hsub (by rw [hwl]; have := hf.count; omega) hs
  rw [hwl] at g1 g3
  have hp := ftSubwords_perm (ix := ⟨f.buckets, f.minN, f.maxN⟩) h2 hs heos g1
  have hu : refUnknown f f.values (utf8 w) = refMean f.cols f.values is := by
    unfold refUnknown
    rw [hn]
    exact (refMean_perm _ _ hp).symm
  rw [hu] at hz ⊢
  have hne : is ≠ [] := by
    rintro rfl
    obtain ⟨x, hx, h0⟩ := hz
    obtain ⟨t, -, rfl⟩ := List.mem_map.mp hx
    exact h0 (by simp)
  have hidx : e.vocab.idx w = .ok (some (.many (is.map fun i : Nat => (i : Int)))) := by
    unfold Vocab.idx
    have hnone : Dict.get? e.vocab.index w = none := by
      rw [he.vocab.wf.index]
      rw [get?_enumItems_none, h1]
      exact hw
    rw [hsub]
    simp only
    rw [hnone]
    simp only
    rw [g2]
    show (if _ then _ else _) = _
    rw [if_pos (by simpa using hne)]
    rfl
  have hsel : ∃ sel, List.Forall₂ (fun (j : Nat) r => f.values[j]? = some r) is sel := by
    have hvl : f.values.length = f.words.length + f.buckets := by
      unfold FtFile.values
      rw [List.length_map, hf.shape]
    clear * - g3 hvl
    induction is with
    | nil => exact ⟨[], .nil⟩
    | cons j is ih =>
      obtain ⟨sel, h⟩ := ih fun k hk => g3 k (List.mem_cons_of_mem _ hk)
      have hj : j < f.values.length := by
        rw [hvl]
        exact (g3 j (by simp)).2
      exact ⟨_, .cons (List.getElem?_eq_getElem hj) h⟩
  obtain ⟨sel, hsel⟩ := hsel
  have hcols : e.storage.nCols = f.cols := by rw [h3]; rfl
  have hget : List.Forall₂ (fun i r => e.storage.getOne i = .ok r) (is.map fun i : Nat => (i : Int)) sel := by
    rw [List.forall₂_map_left_iff]
    refine forall₂_imp_mem hsel fun j r hj hr => ?_
    rw [h3]
    show npGet rows (j : Int) = _
    rw [npGet_nat, h5 j (g3 j hj).1]
    exact hr
  have hk : (0 : ℝ) < is.length := by
    exact_mod_cast List.length_pos_iff.mpr hne
  have hmean : ∀ t, (refMean f.cols f.values is).getD t 0 = if t < f.cols then sumAt sel t / is.length else 0 := by
    intro t
    unfold refMean
    split
    · rename_i ht
      rw [List.getD_eq_getElem?_getD, List.getElem?_map, List.getElem?_range ht]
      show (is.map _).sum * _ = _
      rw [column_eq hsel, mul_one_div]
      unfold sumAt
      simp only [List.getD_eq_getElem?_getD]
    · rename_i ht
      exact List.getD_eq_default _ _ (by simpa using ht)
  have hlen : ∀ r ∈ sel, r.length = f.cols := by
    intro r hr
    obtain ⟨j, hj, rfl⟩ := List.getElem_of_mem hr
    have := (List.forall₂_iff_get.mp hsel).2 j (by rw [hsel.length_eq]; exact hj) hj
    obtain ⟨r, hr, h⟩ := List.mem_map.mp (List.mem_of_getElem? this)
    simp only [List.get_eq_getElem] at h
    rw [← h, List.length_map]
    exact hf.cols r hr
  have hout : ∀ t, ¬ t < f.cols → sumAt sel t = 0 := by
    intro t ht
    unfold sumAt
    apply List.sum_eq_zero
    intro x hx
    obtain ⟨r, hr, rfl⟩ := List.mem_map.mp hx
    exact List.getD_eq_default _ _ (by rw [hlen r hr]; omega)
  have hmean : ∀ t, (refMean f.cols f.values is).getD t 0 = sumAt sel t / is.length := by
    intro t
    rw [hmean]
    split
    · rfl
    · rename_i ht
      rw [hout t ht, zero_div]
  obtain ⟨v, n, a1, a2, a3, a4, a5, a6, -⟩ := C28_real e he w _ sel hidx hget (by
    obtain ⟨x, hx, h0⟩ := hz
    obtain ⟨t, ht, rfl⟩ := List.getElem_of_mem hx
    refine ⟨t, fun hc => h0 ?_⟩
    have := hmean t
    rw [hc, zero_div, List.getD_eq_getElem _ _ ht] at this
    exact this)
  rw [hcols] at a3 a4
  refine ⟨v, n / is.length, a1, a3, div_pos a5 hk, ?_, fun t => ?_, ?_⟩
  · rw [div_pow, a4, Real.sq_sqrt (Finset.sum_nonneg fun t _ => sq_nonneg _), Finset.sum_div]
    exact Finset.sum_congr rfl fun t _ => by rw [hmean, div_pow]
  · rw [hmean, a6]
    field_simp
  · rw [a2 (by rw [h4]; simp), ← hp.length_eq, mul_div_cancel₀ n hk.ne']

/-! ### Exporting -/

/-- What fastText computes from the input matrix of a written file, if the written numbers are exact: the exported
vectors (row times norm) for words, and the same n-gram rows as before. -/
theorem C84_export_partial (e : Embeddings ℝ) (he : BuiltEmb e) (ix : FtIndexer) (m : Mat ℝ)
    (hsub : e.vocab.sub = some (.ft ix)) (hst : e.storage = .nd m) (h2 : 2 ≤ ix.minN)
    (hn : e.vocab.words.length < 2 ^ 63) (hnul : ∀ w ∈ e.vocab.words, ∀ c ∈ w, c.val ≠ 0)
    (hex : ∀ (i : Nat) w v, e.vocab.words[i]? = some w →
      FtRaw ix e.vocab.words.length m e.norms i w v → ∀ x ∈ v, CodecExact x)
    (hex' : ∀ r ∈ m.rows.drop e.vocab.words.length, ∀ x ∈ r, CodecExact x)
    (bs : Bytes) (hw : (writeFasttext e).file = (.ok (), bs)) :
    ∃ f : FtFile, f.OK ∧ f.bytes = bs ∧ f.words.map Prod.fst = e.vocab.words ∧ f.nWords = f.words.length ∧
      f.minN = ix.minN ∧ f.maxN = ix.maxN ∧ f.buckets = ix.nBuckets ∧ f.cols = m.cols ∧
      (∀ (i : Nat) w u, e.vocab.words[i]? = some w → utf8 w ≠ refEos → Exported e i u →
        refKnown f f.values i (utf8 w) = u) ∧
      ∀ j, e.vocab.words.length ≤ j → f.values[j]? = m.rows[j]? := by
  have hf : FtEmb e ix m := ⟨he, hsub, hst, hn⟩
  obtain ⟨vs, h1, hz, h3, h4, h5⟩ := writeFasttext_inv hf hw
  have hc : ∀ v ∈ vs, v.length = m.cols := by
    intro v hv
    obtain ⟨i, hi, rfl⟩ := List.getElem_of_mem hv
    obtain ⟨_, _, _, _, _, _, _, _, h, _⟩ := h3 i _ _
      (List.getElem?_eq_getElem (by omega)) (List.getElem?_eq_getElem hi)
    exact h
  rw [h4] at h5
  have hok := ftExportOf_ok hf hz hnul h1 hc h5
  have hraw : (ftExportOf ix e m vs).values = vs ++ m.rows.drop e.vocab.words.length := by
    unfold FtFile.values
    show (bitRows vs ++ bitRows (m.rows.drop e.vocab.words.length)).map _ = _
    rw [List.map_append, exact_rows, exact_rows hex']
    intro v hv x hx
    obtain ⟨i, hi, rfl⟩ := List.getElem_of_mem hv
    have hwi := List.getElem?_eq_getElem (l := e.vocab.words) (i := i) (by omega)
    exact hex i _ _ hwi (h3 i _ _ hwi (List.getElem?_eq_getElem hi)) x hx
  have hfw : (ftExportOf ix e m vs).words.map Prod.fst = e.vocab.words := by
    show (e.vocab.words.map fun w => (w, (0 : Int))).map Prod.fst = _
    rw [List.map_map]
    exact List.map_id _
  have hfl : (ftExportOf ix e m vs).words.length = e.vocab.words.length := by
    rw [← hfw, List.length_map]
  refine ⟨ftExportOf ix e m vs, hok, h4.symm, hfw, by rw [hfl]; rfl, rfl, rfl, rfl, rfl, ?_, ?_⟩
  · intro i w u hwi heos hu
    obtain ⟨e', -, g2, g3, g4, g5, rows, norms, g6, g7, g8, g9, g10, g11⟩ := loadFasttext_ok (K := ℝ) hok false
    rw [hfw] at g11
    obtain ⟨is, sel, mean, l1, l2, l3, -, -⟩ := g11 i w hwi
    have hr : ((ftExportOf ix e m vs).raw : List (List ℝ)) = (ftExportOf ix e m vs).values := rfl
    rw [hfl] at l1
    rw [hr] at l2
    have hs := any_surrogate.mpr (by
      obtain ⟨p, hp, hpw⟩ := List.mem_map.mp (hfw ▸ List.mem_of_getElem? hwi : w ∈ _)
      exact hpw ▸ hok.text p hp)
    have hm : mean = refKnown (ftExportOf ix e m vs) (ftExportOf ix e m vs).values i (utf8 w) := by
      rw [isMean_ref l2 l3]
      exact refMean_perm _ _ (.cons _ (ftSubwords_perm (ix := ix) h2 hs heos l1))
    rw [← hm]
    rw [hraw] at l2
    exact mean_raw hf h1 h3 hwi l1 l2 l3 hu
  · intro j hj
    have hv' : vs.length ≤ j := h1.trans_le hj
    rw [hraw, List.getElem?_append_right hv', List.getElem?_drop, h1, Nat.add_sub_cancel' hj]

end

/-- No written file is a model that fastText can load: the output matrix is there, but neither the flag nor the sizes
that precede it. -/
theorem C84_output_refuted {K : Type} [NumOps K] [Codec K] (e : Embeddings K) (he : BuiltEmb e) (ix : FtIndexer)
    (m : Mat K) (hsub : e.vocab.sub = some (.ft ix)) (hst : e.storage = .nd m)
    (hn : e.vocab.words.length < 2 ^ 63) (hnul : ∀ w ∈ e.vocab.words, ∀ c ∈ w, c.val ≠ 0)
    (bs : Bytes) (hw : (writeFasttext e).file = (.ok (), bs)) :
    (∃ f : FtFile, f.OK ∧ f.bytes = bs) ∧ ¬ ∃ f : FtFile, f.OK ∧ f.bytes = bs ∧ RefOutput f.output := by
  have hf : FtEmb e ix m := ⟨he, hsub, hst, hn⟩
  obtain ⟨vs, h1, hz, h3, h4, h5⟩ := writeFasttext_inv hf hw
  have hc : ∀ v ∈ vs, v.length = m.cols := by
    intro v hv
    obtain ⟨i, hi, rfl⟩ := List.getElem_of_mem hv
    obtain ⟨_, _, _, _, _, _, _, _, h, _⟩ := h3 i _ _
      (List.getElem?_eq_getElem (by omega)) (List.getElem?_eq_getElem hi)
    exact h
  rw [h4] at h5
  have hok := ftExportOf_ok hf hz hnul h1 hc h5
  refine ⟨⟨_, hok, h4.symm⟩, ?_⟩
  rintro ⟨f, hfo, hfb, q, a, b, data, -, -, hd, ho⟩
  have := ftOutput_unique hfo hok (hfb.trans h4)
  have hl : (ftExportOf ix e m vs).output.length % 4 = 0 := by
    show (f32sLE _).length % 4 = 0
    rw [length_f32sLE]
    omega
  rw [← this, ho, List.length_append, List.length_append, List.length_append, length_le, length_le, hd,
    List.length_singleton] at hl
  generalize a * b = c at hl
  omega

/-! ### Where the two differ -/

theorem restores_norm {e : Embeddings ℝ} {i : Nat} {v v' : List ℝ} (h : Restores e i v) (h' : Restores e i v') :
    ∑ t ∈ Finset.range v.length, v.getD t 0 ^ 2 = ∑ t ∈ Finset.range v'.length, v'.getD t 0 ^ 2 := by
  obtain ⟨_, n, ns, -, h1, h2, -, h3, -⟩ := h
  obtain ⟨_, n', ns', -, h1', h2', -, h3', -⟩ := h'
  rw [h1] at h1'
  cases h1'
  rw [h2] at h2'
  cases h2'
  rw [← h3, ← h3']

namespace Sample

/-- A model with the word `</s>`, two columns, one bucket -/
def ftEos : FtFile := { ftFile2 with
  buckets := 1, minN := 3, maxN := 3, nWords := 1, words := [([60, 47, 115, 62], 7)], rows := [[1, 0], [0, 1]] }

theorem ftEos_ok : ftEos.OK where
  ints := by
    unfold Int32Ok Int64Ok
    refine ⟨by decide, by decide, by decide, by decide, by decide, by decide, by decide, by decide,
      by decide, by decide, by decide⟩
  buckets := by decide
  range := by decide
  prune := by decide
  count := by decide
  nul := by
    have h : ∀ p ∈ ftEos.words, p.1.all (fun c => c.val != 0) = true := by decide
    intro p hp c hc
    simpa using List.all_eq_true.mp (h p hp) c hc
  text := by
    have h : ∀ p ∈ ftEos.words, p.1.any isSurrogate = false := by decide
    exact fun p hp => any_surrogate.mp (h p hp)
  nodup := by decide
  shape := by decide
  cols := by decide
  size := by unfold ShapeOk; decide

/-- A model with n-grams of one character and the word `a` -/
def ftOne : FtFile := { ftEos with minN := 1, maxN := 1, words := [([97], 7)] }

theorem ftOne_ok : ftOne.OK where
  ints := by
    unfold Int32Ok Int64Ok
    refine ⟨by decide, by decide, by decide, by decide, by decide, by decide, by decide, by decide,
      by decide, by decide, by decide⟩
  buckets := by decide
  range := by decide
  prune := by decide
  count := by decide
  nul := by
    have h : ∀ p ∈ ftOne.words, p.1.all (fun c => c.val != 0) = true := by decide
    intro p hp c hc
    simpa using List.all_eq_true.mp (h p hp) c hc
  text := by
    have h : ∀ p ∈ ftOne.words, p.1.any isSurrogate = false := by decide
    exact fun p hp => any_surrogate.mp (h p hp)
  nodup := by decide
  shape := by decide
  cols := by decide
  size := by unfold ShapeOk; decide

theorem ftEos_values : @FtFile.values natCodec ftEos = [[1, 0], [0, 1]] := by
  show [[((1 : Nat) : ℝ), ((0 : Nat) : ℝ)], [((0 : Nat) : ℝ), ((1 : Nat) : ℝ)]] = _
  norm_num

theorem ftOne_values : @FtFile.values natCodec ftOne = [[1, 0], [0, 1]] := ftEos_values

end Sample

/-- The word `</s>`, which every model trained by fastText has: fastText takes its row alone, the loader adds n-grams. -/
theorem C84_eos_refuted (lossy : Bool) : ∃ (inst : Codec ℝ) (f : FtFile) (e : Embeddings ℝ), f.OK ∧ f.nWords = f.words.length ∧
    2 ≤ f.minN ∧ (∃ c, f.words[0]? = some (([60, 47, 115, 62] : PyStr), c)) ∧ utf8 [60, 47, 115, 62] = refEos ∧
    Rd.run (@loadFasttext ℝ _ inst lossy) f.bytes = .ok e ∧
    refKnown f (@FtFile.values inst f) 0 refEos = [1, 0] ∧ Restores e 0 [1 / 5, 4 / 5] ∧ ¬ Restores e 0 [1, 0] := by
  let _ : Codec ℝ := Sample.natCodec
  obtain ⟨e, h, hall⟩ := C43_fasttext Sample.ftEos Sample.ftEos_ok lossy
  obtain ⟨-, is, sel, mean, g1, g2, g3, g4⟩ := hall 0 ([60, 47, 115, 62], 7) rfl
  have hu : utf8 [60, 47, 115, 62] = refEos := by decide +kernel
  obtain ⟨is', k1, k2, -⟩ := ft_indices_occs (b := 1) (mn := 3) (mx := 3) (ix := ⟨1, 3, 3⟩) (by decide)
    (word := [60, 47, 115, 62]) (enc := refEos) (by decide +kernel) (off := 1) (by decide +kernel)
  have hi : (⟨1, 3, 3⟩ : FtIndexer).indices [60, 47, 115, 62] (UInt64.ofNat 1) true = .ok [1, 1, 1, 1] := by
    decide +kernel
  rw [hi] at k1
  cases k1
  have := ftSubwords_unique g1 k2
  subst this
  have hm : mean = [1 / 5, 4 / 5] := by
    rw [isMean_ref g2 g3]
    show refMean 2 (Sample.ftEos.values) [0, 1, 1, 1, 1] = _
    rw [Sample.ftEos_values]
    simp [refMean, List.range_succ]
    norm_num
  subst hm
  have hr := g4 ⟨1 / 5, by simp, by norm_num⟩
  refine ⟨Sample.natCodec, Sample.ftEos, e, Sample.ftEos_ok, by decide, by decide, ⟨7, rfl⟩, hu, h, ?_, hr, fun hc => ?_⟩
  · show refMean 2 (Sample.ftEos.values) (0 :: refNgrams 3 3 1 1 refEos) = _
    rw [Sample.ftEos_values]
    simp [refMean, refNgrams, List.range_succ]
  · have := restores_norm hr hc
    simp [Finset.sum_range_succ] at this
    norm_num at this

/-- Single characters: fastText has no n-grams `<` and `>`. -/
theorem C84_single_refuted (lossy : Bool) : ∃ (inst : Codec ℝ) (f : FtFile) (e : Embeddings ℝ), f.OK ∧ f.nWords = f.words.length ∧
    f.minN = 1 ∧ (∃ c, f.words[0]? = some (([97] : PyStr), c)) ∧
    Rd.run (@loadFasttext ℝ _ inst lossy) f.bytes = .ok e ∧
    refKnown f (@FtFile.values inst f) 0 (utf8 [97]) = [1 / 2, 1 / 2] ∧ Restores e 0 [1 / 4, 3 / 4] ∧
    ¬ Restores e 0 [1 / 2, 1 / 2] := by
  let _ : Codec ℝ := Sample.natCodec
  obtain ⟨e, h, hall⟩ := C43_fasttext Sample.ftOne Sample.ftOne_ok lossy
  obtain ⟨-, is, sel, mean, g1, g2, g3, g4⟩ := hall 0 ([97], 7) rfl
  obtain ⟨is', k1, k2, -⟩ := ft_indices_occs (b := 1) (mn := 1) (mx := 1) (ix := ⟨1, 1, 1⟩) (by decide)
    (word := [97]) (enc := [97]) (by decide +kernel) (off := 1) (by decide +kernel)
  have hi : (⟨1, 1, 1⟩ : FtIndexer).indices [97] (UInt64.ofNat 1) true = .ok [1, 1, 1] := by
    decide +kernel
  rw [hi] at k1
  cases k1
  have := ftSubwords_unique g1 k2
  subst this
  have hm : mean = [1 / 4, 3 / 4] := by
    rw [isMean_ref g2 g3]
    show refMean 2 (Sample.ftOne.values) [0, 1, 1, 1] = _
    rw [Sample.ftOne_values]
    simp [refMean, List.range_succ]
    norm_num
  subst hm
  have hr := g4 ⟨1 / 4, by simp, by norm_num⟩
  refine ⟨Sample.natCodec, Sample.ftOne, e, Sample.ftOne_ok, by decide, rfl, ⟨7, rfl⟩, h, ?_, hr, fun hc => ?_⟩
  · show refMean 2 (Sample.ftOne.values) (0 :: refNgrams 1 1 1 1 (utf8 [97])) = _
    have : refNgrams 1 1 1 1 (utf8 [97]) = [1] := by decide +kernel
    rw [Sample.ftOne_values, this]
    simp [refMean, List.range_succ]
  · have := restores_norm hr hc
    simp [Finset.sum_range_succ] at this
    norm_num at this

namespace Sample

/-- The word `a`, no buckets; the output matrix has one row -/
def ftNone : FtFile := { ftFile2 with
  buckets := 0, minN := 3, maxN := 0, nWords := 1, words := [([97], 7)], rows := [[1, 0]],
  output := [0] ++ le 8 1 ++ le 8 2 ++ [1, 0, 0, 0, 2, 0, 0, 0] }

theorem refWord_none (minn bucket : Nat) (first : Bool) (bs : Bytes) : refWord minn 0 bucket first bs = [] := by
  induction bs generalizing first with
  | nil => rfl
  | cons b bs ih =>
    rw [refWord, ih, refFrom, if_pos (show 0 < 1 by decide), List.append_nil, ite_self]

end Sample

/-- Models without n-grams (`-maxn 0`, for which fastText sets the number of buckets to 0 and has a row for each word):
they cannot be loaded. -/
theorem C84_nosubwords_refuted : ∃ f : FtFile, f.minN = 3 ∧ f.maxN = 0 ∧ f.buckets = 0 ∧
    f.nWords = f.words.length ∧ f.rows.length = f.words.length ∧ (∀ r ∈ f.rows, r.length = f.cols) ∧
    (∀ n word, refNgrams f.minN f.maxN f.buckets n word = []) ∧ RefOutput f.output ∧
    ∀ lossy, Rd.run (@loadFasttext F32 Sample.f32Ops _ lossy) f.bytes = .error .assertionError := by
  refine ⟨Sample.ftNone, rfl, rfl, rfl, rfl, rfl, by decide, fun n word => ?_,
    ⟨0, 1, 2, [1, 0, 0, 0, 2, 0, 0, 0], by decide, by decide, rfl, rfl⟩, fun lossy => ?_⟩
  · unfold refNgrams
    split
    · rfl
    · show (refWord 3 0 0 true _).map _ = _
      rw [Sample.refWord_none]
      rfl
  · refine Sample.of_errOf ?_
    revert lossy
    decide +kernel


namespace Sample

/-! ### Examples -/

/-- `bß`: two bytes for the second character; sizes 2 to 4, seven buckets -/
example : ∃ is, (⟨7, 2, 4⟩ : FtIndexer).indices [98, 0xDF] (UInt64.ofNat 3) true = .ok is ∧ is.length = 6 ∧
    is.Perm (refNgrams 2 4 7 3 [98, 0xC3, 0x9F]) := by
  obtain ⟨is, h1, h2⟩ := C84_ngrams_partial 7 2 4 ⟨7, 2, 4⟩ (by decide) (by decide) [98, 0xDF] [98, 0xC3, 0x9F]
    (by decide +kernel) (by decide) 3 (by decide +kernel)
  refine ⟨is, h1, ?_, h2⟩
  rw [h2.length_eq]
  decide +kernel

example : ∃ is, (⟨7, 1, 2⟩ : FtIndexer).indices [98] (UInt64.ofNat 3) true = .ok is ∧ is.length = 5 ∧
    is.Perm ((3 + refHash [60] % 7) :: (3 + refHash [62] % 7) :: refNgrams 1 2 7 3 [98]) := by
  obtain ⟨is, h1, h2⟩ := C84_single 7 2 ⟨7, 1, 2⟩ (by decide) [98] [98] (by decide +kernel) (by decide) 3
    (by decide +kernel)
  refine ⟨is, h1, ?_, h2⟩
  rw [h2.length_eq]
  decide +kernel

/-- The word `a` with the trigram `<a>`; the rows are (1, 0) and (0, 1) -/
def ftTri : FtFile := { ftEos with words := [([97], 7)] }

theorem ftTri_ok : ftTri.OK where
  ints := by
    unfold Int32Ok Int64Ok
    refine ⟨by decide, by decide, by decide, by decide, by decide, by decide, by decide, by decide,
      by decide, by decide, by decide⟩
  buckets := by decide
  range := by decide
  prune := by decide
  count := by decide
  nul := by
    have h : ∀ p ∈ ftTri.words, p.1.all (fun c => c.val != 0) = true := by decide
    intro p hp c hc
    simpa using List.all_eq_true.mp (h p hp) c hc
  text := by
    have h : ∀ p ∈ ftTri.words, p.1.any isSurrogate = false := by decide
    exact fun p hp => any_surrogate.mp (h p hp)
  nodup := by decide
  shape := by decide
  cols := by decide
  size := by unfold ShapeOk; decide

theorem ftTri_values : @FtFile.values natCodec ftTri = [[1, 0], [0, 1]] := ftEos_values

/-- The vector of `a`: (1/2, 1/2) -/
example : ∃ e : Embeddings ℝ, Rd.run (@loadFasttext ℝ _ natCodec false) ftTri.bytes = .ok e ∧
    Restores e 0 [1 / 2, 1 / 2] := by
  obtain ⟨e, h, hall⟩ := @C84_known_partial natCodec ftTri ftTri_ok (by decide) (by decide) false
  have hk : refKnown ftTri (@FtFile.values natCodec ftTri) 0 (utf8 [97]) = [1 / 2, 1 / 2] := by
    show refMean 2 (@FtFile.values natCodec ftTri) (0 :: refNgrams 3 3 1 1 (utf8 [97])) = _
    have : refNgrams 3 3 1 1 (utf8 [97]) = [1] := by decide +kernel
    rw [ftTri_values, this]
    simp [refMean, List.range_succ]
  have := (hall 0 ([97], 7) rfl (by decide +kernel)).2
  simp only at this
  rw [hk] at this
  exact ⟨e, h, this ⟨1 / 2, by simp, by norm_num⟩⟩

/-- The vector of `bc`: (0, 1); the norm that is reported is 2, as there are two trigrams -/
example : ∃ e : Embeddings ℝ, Rd.run (@loadFasttext ℝ _ natCodec false) ftTri.bytes = .ok e ∧
    ∃ v n, n ^ 2 = 1 ∧ 0 < n ∧ e.embeddingWithNorm [98, 99] = .ok (some (v, some (2 * n))) := by
  obtain ⟨e, h, hall⟩ := @C84_unknown_partial natCodec ftTri ftTri_ok (by decide) (by decide) false
  have hn : refNgrams 3 3 1 1 (utf8 [98, 99]) = [1, 1] := by decide +kernel
  have hk : refUnknown ftTri (@FtFile.values natCodec ftTri) (utf8 [98, 99]) = [0, 1] := by
    show refMean 2 (@FtFile.values natCodec ftTri) (refNgrams 3 3 1 1 (utf8 [98, 99])) = _
    rw [ftTri_values, hn]
    simp [refMean, List.range_succ]
    norm_num
  have := hall [98, 99] (by decide) (any_surrogate.mp (by decide)) (by decide +kernel)
  rw [hk] at this
  obtain ⟨v, n, -, -, h0, h1, -, h3⟩ := this ⟨1, by simp, by norm_num⟩
  refine ⟨e, h, v, n, ?_, h0, ?_⟩
  · rw [h1]
    show ∑ t ∈ Finset.range 2, _ = _
    simp [Finset.sum_range_succ]
  · rw [h3]
    show Except.ok (some (v, some (((refNgrams 3 3 1 1 (utf8 [98, 99])).length : ℝ) * n))) = _
    rw [hn]
    norm_num

/-- The hypotheses about exporting: the file is written, and fastText reads (3, 4) for `a` and keeps the row of the
trigram. -/
example : ∃ (bs : Bytes) (f : FtFile), (@writeFasttext ℝ _ natCodec ftEmb1).file = (.ok (), bs) ∧ f.OK ∧ f.bytes = bs ∧
    refKnown f (@FtFile.values natCodec f) 0 (utf8 [97]) = [3, 4] ∧
    (@FtFile.values natCodec f)[1]? = some [1, 2] ∧ ¬ RefOutput f.output := by
  let _ : Codec ℝ := natCodec
  have hnul : ∀ w ∈ ftEmb1.vocab.words, ∀ c ∈ w, c.val ≠ 0 := by
    intro w hw c hc
    simp only [ftEmb1, ftVocab1, List.mem_singleton] at hw
    subst hw
    rw [List.mem_singleton] at hc
    subst hc
    decide
  obtain ⟨vs, h1, h2, h3⟩ := C42_write_succeeds ftEmb1 builtFtEmb1 ⟨1, 3, 3⟩ ftMat1 rfl rfl (by decide)
    (by decide) (by decide) (by decide) (by
      intro w hw c hc
      simp only [ftEmb1, ftVocab1, List.mem_singleton] at hw
      subst hw
      rw [List.mem_singleton] at hc
      subst hc
      decide)
  have hvs : vs = [[5, 6]] := by
    obtain ⟨v, rfl⟩ := List.length_eq_one_iff.mp h1
    rw [ftRaw_unique ftMat1_wf (h2 0 [97] v rfl rfl) ftRaw1]
  subst hvs
  have h3 := h3 (by rw [ftBytes_length]; decide)
  obtain ⟨f, g1, g2, -, -, -, -, -, -, g3, g4⟩ := C84_export_partial ftEmb1 builtFtEmb1 ⟨1, 3, 3⟩ ftMat1 rfl rfl (by decide)
    (by decide) hnul ftExact1 ftExact1' _ h3
  refine ⟨_, f, h3, g1, g2, ?_, g4 1 (by decide), fun hc => ?_⟩
  · refine g3 0 [97] [3, 4] rfl (by decide +kernel) ⟨[3 / 5, 4 / 5], rfl, 5, rfl, rfl, ?_⟩
    intro t x hx
    have : t = 0 ∨ t = 1 := by
      have : t < 2 := (List.getElem?_eq_some_iff.mp hx).1
      omega
    rcases this with rfl | rfl
    · cases hx
      show some (3 : ℝ) = some (3 / 5 * 5)
      norm_num
    · cases hx
      show some (4 : ℝ) = some (4 / 5 * 5)
      norm_num
  · exact (C84_output_refuted ftEmb1 builtFtEmb1 ⟨1, 3, 3⟩ ftMat1 rfl rfl (by decide) hnul _ h3).2 ⟨f, g1, g2, hc⟩

end Sample

end FF
