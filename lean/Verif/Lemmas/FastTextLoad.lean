import Verif.Lemmas.FastText
import Verif.Props.C24
/-! Loading fastText files. -/

namespace FF

/-! ### Subword rows -/

theorem ftSubwords_total {v : Vocab} (hv : BuiltVocab v) {ix : FtIndexer} (hs : v.sub = some (.ft ix))
    (hn : v.words.length < 2 ^ 63) {w : PyStr} (hw : w.any isSurrogate = false) :
    ∃ is : List Nat, FtSubwords ix v.words.length w is ∧
      v.subwordIndices (.ft ix) w = .ok (is.map fun i : Nat => (i : Int)) ∧
      ∀ j ∈ is, v.words.length ≤ j ∧ j < v.words.length + ix.nBuckets := by
  have hix := hv.1 _ hs
  obtain ⟨h1, h2⟩ := hash_indices hix (fun e h => by cases h) w hn (fun _ => hw)
  have hb := (ftNew_ok.mp (builtIndexer_wf hix)).2.2.2.2.2.2.1
  have h3 : ∀ g ∈ wordNgrams (.ft ix) w, ∃ k, ix.call g = .ok k ∧ bucketOf (.ft ix) g = (k : Int) := by
    intro g hg
    have hc := h2 g hg
    unfold CallOk Indexer.call at hc
    obtain ⟨k, hk, hc⟩ := res_bind_inv hc
    exact ⟨k, hk, (Option.some.inj (Except.ok.inj hc)).symm⟩
  refine ⟨(wordNgrams (.ft ix) w).map fun g => v.words.length + (bucketOf (.ft ix) g).toNat,
    ⟨_, ngramsOf_wordNgrams hix w, ?_⟩, ?_, ?_⟩
  · rw [List.forall₂_map_right_iff]
    refine List.forall₂_same.mpr fun g hg => ?_
    obtain ⟨k, hk, he⟩ := h3 g hg
    exact ⟨k, hk, by rw [he]; rfl⟩
  · unfold Vocab.subwordIndices
    rw [h1, List.map_map]
    congr 1
    apply List.map_congr_left
    intro g hg
    obtain ⟨k, hk, he⟩ := h3 g hg
    simp only [Function.comp]
    rw [he]
    push_cast
    rfl
  · intro j hj
    obtain ⟨g, hg, rfl⟩ := List.mem_map.mp hj
    obtain ⟨k, hk, he⟩ := h3 g hg
    have := ftCall_lt hb hk
    unfold FtIndexer.upperBound at this
    rw [he]
    exact ⟨Nat.le_add_right _ _, Nat.add_lt_add_left this _⟩

theorem ftSubwords_unique {ix : FtIndexer} {n : Nat} {w : PyStr} {is is' : List Nat}
    (h : FtSubwords ix n w is) (h' : FtSubwords ix n w is') : is = is' := by
  obtain ⟨gs, h1, h2⟩ := h
  obtain ⟨gs', h1', h2'⟩ := h'
  have := C17_unique _ _ _ _ _ h1 h1'
  subst this
  clear h1 h1'
  induction h2 generalizing is' with
  | nil => cases h2'; rfl
  | cons hd _ ih =>
    cases h2' with
    | cons hd' tl' =>
      obtain ⟨k, hk, rfl⟩ := hd
      obtain ⟨k', hk', rfl⟩ := hd'
      rw [hk] at hk'
      cases hk'
      rw [ih tl']

/-- Words with lone surrogates have no subword indices. -/
theorem ft_no_surrogate {v : Vocab} {ix : FtIndexer} {w : PyStr} {is : List Int}
    (h : v.subwordIndices (.ft ix) w = .ok is) : w.any isSurrogate = false := by
  cases hsu : w.any isSurrogate with
  | false => rfl
  | true =>
    have hsb : (bracketed true w).any isSurrogate = true := by
      obtain ⟨c, hc, hcs⟩ := List.any_eq_true.mp hsu
      exact List.any_eq_true.mpr ⟨c, by unfold bracketed; simp [hc], hcs⟩
    unfold Vocab.subwordIndices Indexer.indices FtIndexer.indices at h
    simp only at h
    rw [ftSub_eq, encode_err hsb] at h
    cases h

section
variable {K : Type} [NumOps K]

/-! ### Sums and means -/

theorem vadd_get? {a b : List K} (t : Nat) :
    (vadd a b)[t]? = match a[t]?, b[t]? with
      | some x, some y => some (NumOps.add x y)
      | _, _ => none := by
  unfold vadd
  rw [List.getElem?_zipWith]
  cases a[t]? <;> cases b[t]? <;> rfl

theorem foldl_vadd_get {cols : Nat} (rs : List (List K)) (r : List K) (hr : r.length = cols)
    (h : ∀ x ∈ rs, x.length = cols) :
    (rs.foldl vadd r).length = cols ∧ ∀ (t : Nat) x, r[t]? = some x →
      ∃ ys : List K, rs.map (fun r => r[t]?) = ys.map some ∧
        (rs.foldl vadd r)[t]? = some (ys.foldl NumOps.add x) := by
  induction rs generalizing r with
  | nil => exact ⟨hr, fun t x hx => ⟨[], rfl, hx⟩⟩
  | cons r' rs ih =>
    have hr' := h r' (by simp)
    have hl : (vadd r r').length = cols := by
      unfold vadd; rw [List.length_zipWith, hr, hr']; simp
    obtain ⟨h1, h2⟩ := ih (vadd r r') hl fun x hx => h x (List.mem_cons_of_mem _ hx)
    refine ⟨h1, fun t x hx => ?_⟩
    have ht := (List.getElem?_eq_some_iff.mp hx).1
    have hy := List.getElem?_eq_getElem (l := r') (i := t) (by omega)
    have hv : (vadd r r')[t]? = some (NumOps.add x (r'[t]'(by omega))) := by
      rw [vadd_get?, hx, hy]
    obtain ⟨ys, h3, h4⟩ := h2 t _ hv
    exact ⟨r'[t]'(by omega) :: ys, by rw [List.map_cons, List.map_cons, h3, hy], h4⟩

theorem addReduce_isSum {cols : Nat} {rows : List (List K)} (h : ∀ r ∈ rows, r.length = cols) :
    IsSum cols rows (addReduce cols rows) := by
  cases rows with
  | nil =>
    refine ⟨by simp [addReduce], fun t ht => ⟨[], rfl, ?_⟩⟩
    unfold addReduce numSum
    simp [ht]
  | cons r rs =>
    have hr := h r (by simp)
    obtain ⟨h1, h2⟩ := foldl_vadd_get rs r hr fun x hx => h x (List.mem_cons_of_mem _ hx)
    refine ⟨h1, fun t ht => ?_⟩
    have hx := List.getElem?_eq_getElem (l := r) (i := t) (by omega)
    obtain ⟨ys, h3, h4⟩ := h2 t _ hx
    exact ⟨r[t]'(by omega) :: ys, by rw [List.map_cons, List.map_cons, h3, hx], h4⟩

theorem isSum_unique {cols : Nat} {rows : List (List K)} {s s' : List K} (h : IsSum cols rows s)
    (h' : IsSum cols rows s') : s = s' := by
  apply List.ext_getElem?
  intro t
  by_cases ht : t < cols
  · obtain ⟨ys, h1, h2⟩ := h.2 t ht
    obtain ⟨ys', h1', h2'⟩ := h'.2 t ht
    rw [h1] at h1'
    have : ys = ys' := List.map_injective_iff.mpr (Option.some_injective _) h1'
    rw [h2, h2', this]
  · rw [List.getElem?_eq_none (by rw [h.1]; omega), List.getElem?_eq_none (by rw [h'.1]; omega)]

theorem forall₂_get_unique {α : Type} {xs : List α} {is : List Nat} {ys ys' : List α}
    (h : List.Forall₂ (fun i y => xs[i]? = some y) is ys)
    (h' : List.Forall₂ (fun i y => xs[i]? = some y) is ys') : ys = ys' := by
  induction h generalizing ys' with
  | nil => cases h'; rfl
  | cons hd _ ih =>
    cases h' with
    | cons hd' tl' =>
      rw [hd] at hd'
      cases hd'
      rw [ih tl']

theorem forall₂_get_mem {α : Type} {xs : List α} {is : List Nat} {ys : List α}
    (h : List.Forall₂ (fun i y => xs[i]? = some y) is ys) : ∀ y ∈ ys, y ∈ xs := by
  induction h with
  | nil => simp
  | cons hd _ ih =>
    intro y hy
    rcases List.mem_cons.mp hy with rfl | hy
    · exact List.mem_of_getElem? hd
    · exact ih y hy

theorem forall₂_imp_mem {α β : Type} {R S : α → β → Prop} {xs : List α} {ys : List β}
    (h : List.Forall₂ R xs ys) (hi : ∀ x y, x ∈ xs → R x y → S x y) : List.Forall₂ S xs ys := by
  induction h with
  | nil => exact .nil
  | cons hd _ ih =>
    exact .cons (hi _ _ (by simp) hd) (ih fun x y hx => hi x y (List.mem_cons_of_mem _ hx))

/-! ### Precomputation -/

theorem precompute_ok {v : Vocab} {ix : Indexer} {cols n : Nat} (ws : List PyStr) (i : Nat)
    (rows : List (List K)) (hi : i + ws.length ≤ n) (hn : n ≤ rows.length)
    (hsub : ∀ w ∈ ws, ∃ is : List Nat, v.subwordIndices ix w = .ok (is.map fun i : Nat => (i : Int)) ∧
      ∀ j ∈ is, n ≤ j ∧ j < rows.length) :
    ∃ out, precomputeWords v ix cols i ws rows = .ok out ∧ out.length = rows.length ∧
      (∀ j, j < i ∨ i + ws.length ≤ j → out[j]? = rows[j]?) ∧
      ∀ k w, ws[k]? = some w → ∃ (is : List Nat) (sel : List (List K)),
        v.subwordIndices ix w = .ok (is.map fun i : Nat => (i : Int)) ∧
        List.Forall₂ (fun j r => rows[j]? = some r) ((i + k) :: is) sel ∧
        out[i + k]? = some (vdiv (addReduce cols sel) (NumOps.ofNat sel.length)) := by
  induction ws generalizing i rows with
  | nil => exact ⟨rows, rfl, rfl, fun _ _ => rfl, by simp⟩
  | cons w ws ih =>
    rw [List.length_cons] at hi
    obtain ⟨is, h1, h2⟩ := hsub w (by simp)
    obtain ⟨sel, h3, h4⟩ := npTake_nat (xs := rows) (is := i :: is) (by
      intro j hj
      rcases List.mem_cons.mp hj with rfl | hj
      · omega
      · exact (h2 j hj).2)
    rw [List.map_cons] at h3
    have h5 : npSet rows (i : Int) (vdiv (addReduce cols sel) (NumOps.ofNat sel.length)) =
        .ok (rows.set i (vdiv (addReduce cols sel) (NumOps.ofNat sel.length))) :=
      npSet_ok.mpr ⟨by omega, rfl⟩
    obtain ⟨out, h6, h7, h8, h9⟩ := ih (i + 1)
      (rows.set i (vdiv (addReduce cols sel) (NumOps.ofNat sel.length))) (by omega)
      (by rw [List.length_set]; exact hn)
      (by
        intro w' hw'
        rw [List.length_set]
        exact hsub w' (List.mem_cons_of_mem _ hw'))
    rw [List.length_set] at h7
    refine ⟨out, ?_, h7, ?_, ?_⟩
    · unfold precomputeWords
      rw [h1, res_bind_ok, h3, res_bind_ok]
      simp only
      rw [h5, res_bind_ok, h6]
    · intro j hj
      rw [List.length_cons] at hj
      rw [h8 j (by omega), List.getElem?_set_ne (by omega)]
    · intro k w' hw'
      cases k with
      | zero =>
        rw [List.getElem?_cons_zero] at hw'
        cases hw'
        refine ⟨is, sel, h1, h4, ?_⟩
        rw [Nat.add_zero, h8 i (by omega), List.getElem?_set_self (by omega)]
      | succ k =>
        rw [List.getElem?_cons_succ] at hw'
        obtain ⟨is', sel', g1, g2, g3⟩ := h9 k w' hw'
        have hk := (List.getElem?_eq_some_iff.mp hw').1
        have hb : ∀ j ∈ is', n ≤ j := by
          obtain ⟨is2, e1, e2⟩ := hsub w' (List.mem_cons_of_mem _ (List.mem_of_getElem? hw'))
          rw [g1] at e1
          have : is' = is2 :=
            List.map_injective_iff.mpr (fun a b h => by exact_mod_cast h) (Except.ok.inj e1)
          subst this
          exact fun j hj => (e2 j hj).1
        refine ⟨is', sel', g1, ?_, by rw [← g3]; congr 1; omega⟩
        rw [show i + (k + 1) = i + 1 + k by omega]
        refine forall₂_imp_mem g2 ?_
        intro j r hj hr
        rw [List.getElem?_set_ne] at hr
        · exact hr
        · rcases List.mem_cons.mp hj with rfl | hj
          · omega
          · have := hb j hj; omega

/-! ### Loading -/

variable [Codec K]

/-- The matrix of the file. -/
def FtFile.raw (f : FtFile) : List (List K) := f.rows.map fun r => r.map Codec.ofBits

omit [NumOps K] in
theorem FtFile.OK.raw_cols {f : FtFile} (hf : f.OK) : ∀ r ∈ (f.raw : List (List K)), r.length = f.cols := by
  intro r hr
  obtain ⟨x, hx, rfl⟩ := List.mem_map.mp hr
  rw [List.length_map]
  exact hf.cols x hx

theorem flatten_length_of {α : Type} {c : Nat} {rows : List (List α)} (h : ∀ r ∈ rows, r.length = c) :
    rows.flatten.length = rows.length * c := by
  induction rows with
  | nil => simp
  | cons r rs ih =>
    rw [List.flatten_cons, List.length_append, ih fun x hx => h x (List.mem_cons_of_mem _ hx),
      h r (by simp), List.length_cons]
    ring

theorem FtFile.OK.precompute {f : FtFile} (hf : f.OK) :
    ∃ out, precomputeWords f.vocab (.ft f.ix) f.cols 0 f.vocab.words (f.raw : List (List K)) = .ok out ∧
      out.length = (f.raw : List (List K)).length ∧
      (∀ j, f.words.length ≤ j → out[j]? = (f.raw : List (List K))[j]?) ∧
      (∀ r ∈ out, r.length = f.cols) ∧
      ∀ (i : Nat) w, (f.words.map Prod.fst)[i]? = some w → ∃ (is : List Nat) (sel : List (List K)) (mean : List K),
        FtSubwords f.ix f.words.length w is ∧
        List.Forall₂ (fun j r => (f.raw : List (List K))[j]? = some r) (i :: is) sel ∧
        IsMean f.cols sel mean ∧ out[i]? = some mean := by
  have hwl : f.vocab.words.length = f.words.length := by unfold FtFile.vocab; simp
  have hrl : (f.raw : List (List K)).length = f.words.length + f.buckets := by
    unfold FtFile.raw; rw [List.length_map]; exact hf.shape
  have hn : f.vocab.words.length < 2 ^ 63 := by have := hf.count; rw [hwl]; omega
  have hsub : ∀ w ∈ f.vocab.words, ∃ is : List Nat, FtSubwords f.ix f.words.length w is ∧
      f.vocab.subwordIndices (.ft f.ix) w = .ok (is.map fun i : Nat => (i : Int)) ∧
      ∀ j ∈ is, f.words.length ≤ j ∧ j < (f.raw : List (List K)).length := by
    intro w hw
    obtain ⟨p, hp, rfl⟩ := List.mem_map.mp hw
    have := ftSubwords_total hf.built (ix := f.ix) rfl hn (any_surrogate.mpr (hf.text p hp))
    rw [hwl] at this
    rw [hrl]
    exact this
  obtain ⟨out, h1, h2, h3, h4⟩ := precompute_ok (cols := f.cols) (n := f.words.length) f.vocab.words 0
    (f.raw : List (List K)) (by rw [hwl]; omega) (by omega)
    (fun w hw => by obtain ⟨is, _, h⟩ := hsub w hw; exact ⟨is, h⟩)
  have h5 : ∀ (i : Nat) w, (f.words.map Prod.fst)[i]? = some w → ∃ (is : List Nat) (sel : List (List K)) (mean : List K),
        FtSubwords f.ix f.words.length w is ∧
        List.Forall₂ (fun j r => (f.raw : List (List K))[j]? = some r) (i :: is) sel ∧
        IsMean f.cols sel mean ∧ out[i]? = some mean := by
    intro i w hw
    obtain ⟨is, sel, g1, g2, g3⟩ := h4 i w hw
    obtain ⟨is', e1, e2, _⟩ := hsub w (List.mem_of_getElem? hw)
    rw [g1] at e2
    have : is = is' :=
      List.map_injective_iff.mpr (fun a b h => by exact_mod_cast h) (Except.ok.inj e2)
    subst this
    rw [Nat.zero_add] at g2 g3
    refine ⟨is, sel, _, e1, g2, ⟨_, addReduce_isSum ?_, rfl⟩, g3⟩
    intro r hr
    exact hf.raw_cols r (forall₂_get_mem g2 r hr)
  refine ⟨out, h1, h2, fun j hj => h3 j (Or.inr (by rw [hwl]; omega)), ?_, h5⟩
  intro r hr
  obtain ⟨j, hj, rfl⟩ := List.getElem_of_mem hr
  have hg := List.getElem?_eq_getElem hj
  by_cases hlt : j < f.words.length
  · obtain ⟨_, sel, mean, _, _, ⟨s, hs, hm⟩, h6⟩ := h5 j _ (List.getElem?_eq_getElem (by simpa using hlt))
    rw [hg] at h6
    rw [Option.some.inj h6, hm, List.length_map]
    exact hs.1
  · rw [h3 j (Or.inr (by rw [hwl]; omega))] at hg
    exact hf.raw_cols _ (List.mem_of_getElem? hg)

theorem int64_nat {n : Nat} (h : n < 2 ^ 63) : signedOk 8 (n : Int) = true :=
  signedOk_iff.mpr ⟨by omega, by omega⟩

theorem readFtStorage_parses {f : FtFile} (hf : f.OK) {out : List (List K)}
    (ho : precomputeWords f.vocab (.ft f.ix) f.cols 0 f.vocab.words (f.raw : List (List K)) = .ok out)
    (pre : Bytes) :
    Parses (readFtStorage f.vocab f.ix) pre f.matrixBytes (⟨f.cols, out⟩ : Mat K) := by
  have s1 := hf.size.rows
  have s2 := hf.size.cols
  have s3 := hf.size.size
  unfold maxSize at s1 s2 s3
  have hp0 := readOne_parses 1 0 pre (by decide) (by decide) (by decide)
  have hp := fun pre => readSigned_parses [8, 8] [(8, (f.rows.length : Int)), (8, (f.cols : Int))] pre rfl
    (by decide) (by decide) (by simp)
    (by
      intro x hx
      simp only [List.mem_cons, List.not_mem_nil, or_false] at hx
      rcases hx with rfl | rfl
      · exact int64_nat (by omega)
      · exact int64_nat (by omega))
  have hlen : f.rows.flatten.length = f.rows.length * f.cols := flatten_length_of hf.cols
  have hff : ∀ pre, Parses (fromFileInt ((f.rows.length : Int) * (f.cols : Int))) pre
      (f32sLE f.rows.flatten) f.rows.flatten := by
    intro pre post
    unfold fromFileInt
    have e : (f.rows.length : Int) * (f.cols : Int) = ((f.rows.length * f.cols : Nat) : Int) := by
      push_cast; rfl
    rw [e, if_pos (by omega), Int.toNat_natCast]
    exact fromFileF32_parses _ pre _ hlen (by unfold maxSize; omega) post
  have hre : reshapeInt (f.rows.length : Int) (f.cols : Int)
      (f.rows.flatten.map (Codec.ofBits : F32 → K)) = .ok ⟨f.cols, f.raw⟩ := by
    unfold reshapeInt
    rw [if_neg (by omega), if_neg (by omega)]
    unfold reshape2
    simp only [Int.toNat_natCast]
    rw [if_pos ⟨by rw [List.length_map, hlen], arrayFits_mat hf.size⟩]
    congr 2
    have := splitRows_flatten f.cols (f.raw : List (List K)) hf.raw_cols
    unfold FtFile.raw at this ⊢
    rw [List.length_map, ← List.map_flatten] at this
    exact this
  unfold readFtStorage
  refine (Parses.bind hp0 (e2 := ([(8, (f.rows.length : Int)), (8, (f.cols : Int))] : List (Nat × Int)).flatMap
    (fun f => sle f.1 f.2) ++ f32sLE f.rows.flatten) ?_).congr ?_
  · show Parses (readSigned [8, 8] >>= _) _ _ _
    refine Parses.bind (hp _) ?_
    simp only [List.map_cons, List.map_nil]
    refine Parses.bind_last (hff _) (Parses.bind_nil (Parses.lift _ hre)
      (Parses.bind_nil (Parses.lift _ ho) (Parses.pure _ _)))
  · unfold FtFile.matrixBytes
    have : le 1 0 = [0] := rfl
    rw [this]
    simp only [List.flatMap_cons, List.flatMap_nil, List.append_nil, List.append_assoc]

/-- What follows the reading: the words' rows are averaged and normalised. -/
theorem FtFile.OK.finish {f : FtFile} (hf : f.OK) :
    ∃ (out : List (List K)) (e : Embeddings K),
      precomputeWords f.vocab (.ft f.ix) f.cols 0 f.vocab.words (f.raw : List (List K)) = .ok out ∧
      Embeddings.new (.nd ⟨f.cols, (normalizeMatrix (out.take f.vocab.len)).1 ++ out.drop f.vocab.len⟩) f.vocab
        (some (normalizeMatrix (out.take f.vocab.len)).2) (some f.cfg.toMeta) = .ok e ∧
      FtLoaded f f.raw e := by
  obtain ⟨out, h1, h2, h3, h4, h5⟩ := hf.precompute (K := K)
  have hwl : f.vocab.words.length = f.words.length := by unfold FtFile.vocab; simp
  have hvl : f.vocab.len = f.words.length := by rw [hf.built.len, hwl]
  have hrl : (f.raw : List (List K)).length = f.words.length + f.buckets := by
    unfold FtFile.raw; rw [List.length_map]; exact hf.shape
  have hub : f.vocab.upperBound = ((f.words.length + f.buckets : Nat) : Int) := by
    unfold Vocab.upperBound
    show ((f.vocab.len : Int) + _) = _
    rw [hvl]
    unfold Indexer.upperBound FtIndexer.upperBound
    push_cast
    rfl
  obtain ⟨rows, hrows⟩ : ∃ rows, rows = (out.take f.words.length).map
    (fun r => vdiv r (NumOps.normAxis r)) ++ out.drop f.words.length := ⟨_, rfl⟩
  obtain ⟨norms, hnorms⟩ : ∃ norms : List K, norms = (out.take f.words.length).map NumOps.normAxis :=
    ⟨_, rfl⟩
  have hnl : norms.length = f.words.length := by
    rw [hnorms, List.length_map, List.length_take, h2, hrl]; omega
  have hrowl : rows.length = (f.raw : List (List K)).length := by
    rw [hrows, List.length_append, List.length_map, List.length_take, List.length_drop, h2, hrl]
    omega
  have hlow : ∀ i, i < f.words.length → ∀ r, out[i]? = some r →
      rows[i]? = some (vdiv r (NumOps.normAxis r)) ∧ norms[i]? = some (NumOps.normAxis r) := by
    intro i hi r hr
    have ht : (out.take f.words.length)[i]? = some r := by rw [List.getElem?_take, if_pos hi, hr]
    rw [hrows, hnorms]
    refine ⟨?_, by rw [List.getElem?_map, ht]; rfl⟩
    rw [List.getElem?_append_left (by rw [List.length_map, List.length_take, h2, hrl]; omega),
      List.getElem?_map, ht]; rfl
  have hhigh : ∀ j, f.words.length ≤ j → rows[j]? = (f.raw : List (List K))[j]? := by
    intro j hj
    have hl : ((out.take f.words.length).map fun r => vdiv r (NumOps.normAxis r)).length =
        f.words.length := by rw [List.length_map, List.length_take, h2, hrl]; omega
    rw [hrows, List.getElem?_append_right (by omega), List.getElem?_drop, hl, ← h3 j hj]
    congr 1
    omega
  have hnew : Embeddings.new (.nd ⟨f.cols, rows⟩) f.vocab (some norms) (some f.meta) =
      .ok (⟨.nd ⟨f.cols, rows⟩, f.vocab, some norms, some f.meta⟩ : Embeddings K) := by
    refine embNew_iff.mpr ⟨rfl, ?_, ?_⟩
    · show ((rows.length : Nat) : Int) = _
      rw [hub, hrowl, hrl]
    · intro n hn
      cases hn
      refine ⟨?_, by rw [hvl, hnl]⟩
      show norms.length ≤ rows.length
      rw [hnl, hrowl, hrl]
      omega
  refine ⟨out, ⟨.nd ⟨f.cols, rows⟩, f.vocab, some norms, some f.meta⟩, h1, ?_, rfl, rfl,
    ⟨hf.built, ?_, hnew⟩, rfl, rows, norms, rfl, rfl, hrowl, hnl, hhigh, ?_⟩
  · rw [hvl, cfg_meta]
    unfold normalizeMatrix
    simp only
    rw [← hnorms, ← hrows]
    exact hnew
  · refine ⟨?_, by rw [hrowl, hrl, ← hf.shape]; exact hf.size⟩
    intro r hr
    obtain ⟨j, hj, rfl⟩ := List.getElem_of_mem hr
    have hg := List.getElem?_eq_getElem hj
    by_cases hlt : j < f.words.length
    · have hout := List.getElem?_eq_getElem (l := out) (i := j) (by rw [h2, hrl]; omega)
      have h6 := (hlow j hlt _ hout).1
      have h7 : rows[j]? = some (rows[j]'hj) := hg
      rw [h6] at h7
      show (rows[j]'hj).length = f.cols
      rw [← Option.some.inj h7]
      unfold vdiv
      rw [List.length_map]
      exact h4 _ (List.mem_of_getElem? hout)
    · have h7 : rows[j]? = some (rows[j]'hj) := hg
      rw [hhigh j (by omega)] at h7
      exact hf.raw_cols _ (List.mem_of_getElem? h7)
  · intro i w hw
    obtain ⟨is, sel, mean, g1, g2, g3, g4⟩ := h5 i w hw
    have hi : i < f.words.length := by simpa using (List.getElem?_eq_some_iff.mp hw).1
    obtain ⟨g5, g6⟩ := hlow i hi mean g4
    exact ⟨is, sel, mean, g1, g2, g3, g6, g5⟩

theorem loadFasttext_ok {f : FtFile} (hf : f.OK) (lossy : Bool) :
    ∃ e : Embeddings K, Rd.run (loadFasttext lossy) f.bytes = .ok e ∧ FtLoaded f f.raw e := by
  obtain ⟨out, e, h1, h2, h3⟩ := hf.finish (K := K)
  refine ⟨e, ?_, h3⟩
  have hp : Parses (loadFasttext lossy : Rd (Embeddings K)) [] (FtFile.headerBytes ++
      (f.cfgBytes ++ (f.dictBytes ++ f.matrixBytes))) e := by
    unfold loadFasttext
    refine Parses.bind (readFtHeader_parses _) (Parses.bind (readFtCfg_parses hf _)
      (Parses.bind (readFtVocab_parses lossy hf _) (Parses.bind_last (readFtStorage_parses hf h1 _) ?_)))
    exact Parses.lift _ h2
  have := hp.run f.output
  unfold FtFile.bytes
  simp only [List.append_assoc] at this ⊢
  exact this

end

end FF
