import Verif.Props.C42
import Verif.Props.C40
/-! C43: loaders return unit rows and the original norms. -/

namespace FF

/-- Not the zero vector. -/
def NonZero (v : List ℝ) : Prop := ∃ x ∈ v, x ≠ 0

/-- Row `i` has length one, norm `i` is the length of `v`, and their product is `v`, which is what
the exporters use. -/
def Restores (e : Embeddings ℝ) (i : Nat) (v : List ℝ) : Prop :=
  ∃ row n ns, StoredRow e.storage i row ∧ e.norms = some ns ∧ ns[i]? = some n ∧ 0 < n ∧
    n ^ 2 = ∑ t ∈ Finset.range v.length, v.getD t 0 ^ 2 ∧ row.length = v.length ∧
    ∑ t ∈ Finset.range row.length, row.getD t 0 ^ 2 = 1 ∧ (∀ t, n * row.getD t 0 = v.getD t 0) ∧
    Exported e i v

theorem sumSq_pos {v : List ℝ} (h : NonZero v) : 0 < ∑ t ∈ Finset.range v.length, v.getD t 0 ^ 2 := by
  obtain ⟨x, hx, h0⟩ := h
  obtain ⟨t, ht, rfl⟩ := List.getElem_of_mem hx
  refine Finset.sum_pos' (fun t _ => sq_nonneg _) ⟨t, Finset.mem_range.mpr ht, ?_⟩
  rw [List.getD_eq_getElem _ _ ht]
  positivity

theorem normAxis_real (v : List ℝ) :
    NumOps.normAxis v = Real.sqrt (∑ t ∈ Finset.range v.length, v.getD t 0 ^ 2) := by
  show Real.sqrt (sumProd v v) = _
  rw [sumProd_self]

/-- Dividing by a non-zero norm gives a vector of length one. -/
theorem unit_of_norm {v : List ℝ} (h : NumOps.normAxis v ≠ 0) :
    ∑ t ∈ Finset.range (vdiv v (NumOps.normAxis v)).length,
      (vdiv v (NumOps.normAxis v)).getD t 0 ^ 2 = 1 := by
  have hl : (vdiv v (NumOps.normAxis v)).length = v.length := by simp [vdiv]
  have h0 : 0 ≤ ∑ t ∈ Finset.range v.length, v.getD t 0 ^ 2 := Finset.sum_nonneg fun t _ => sq_nonneg _
  rw [hl, Finset.sum_congr rfl fun t _ => by rw [vdiv_getD, div_pow], ← Finset.sum_div]
  have hs : (NumOps.normAxis v) ^ 2 = ∑ t ∈ Finset.range v.length, v.getD t 0 ^ 2 := by
    rw [normAxis_real, Real.sq_sqrt h0]
  rw [hs]
  exact div_self (by rw [← hs]; exact pow_ne_zero 2 h)

theorem restores_core {e : Embeddings ℝ} {i : Nat} {v ns : List ℝ} {c : Nat} {rows : List (List ℝ)}
    (hst : e.storage = .nd ⟨c, rows⟩)
    (hrow : rows[i]? = some (v.map fun x => NumOps.div x (NumOps.normAxis v)))
    (hns : e.norms = some ns) (hn : ns[i]? = some (NumOps.normAxis v)) (hv : NonZero v) :
    Restores e i v := by
  have hp := sumSq_pos hv
  have hpos : 0 < NumOps.normAxis v := by rw [normAxis_real]; exact Real.sqrt_pos.mpr hp
  refine ⟨_, _, ns, by rw [hst]; exact hrow, hns, hn, hpos, ?_, List.length_map _,
    unit_of_norm hpos.ne', ?_, ?_⟩
  · rw [normAxis_real, Real.sq_sqrt hp.le]
  · intro t
    show NumOps.normAxis v * (vdiv v (NumOps.normAxis v)).getD t 0 = _
    rw [vdiv_getD]
    field_simp
  · refine ⟨_, by rw [hst]; exact hrow, ?_⟩
    rw [hns]
    refine ⟨_, hn, by simp, ?_⟩
    intro t x hx
    rw [List.getElem?_map] at hx
    cases hvt : v[t]? with
    | none => rw [hvt] at hx; cases hx
    | some y =>
      rw [hvt] at hx
      cases hx
      congr 1
      show y = y / NumOps.normAxis v * NumOps.normAxis v
      field_simp

theorem normalized_restores {cols : Nat} {words : List PyStr} {vs : List (List ℝ)} {e : Embeddings ℝ}
    (h : Normalized cols words vs e) {i : Nat} {v : List ℝ} (hv : vs[i]? = some v) (h0 : NonZero v) :
    Restores e i v := by
  obtain ⟨_, _, _, _, h5, rows, h6, _, h7⟩ := h
  exact restores_core h6 (h7 i v hv) h5 (by rw [List.getElem?_map, hv]; rfl) h0

section
variable [Codec ℝ]

/-- word2vec files. -/
theorem C43_word2vec (lossy : Bool) (cols : Nat) (rows : List (PyStr × List F32))
    (hw : ∀ p ∈ rows, W2vWord p.1) (hl : ∀ p ∈ rows, p.2.length = cols)
    (hn : (rows.map Prod.fst).Nodup) (hs : ShapeOk rows.length cols) :
    ∃ e : Embeddings ℝ, Rd.run (loadWord2vec lossy) (w2vFile cols rows) = .ok e ∧
      ∀ (i : Nat) w r, rows[i]? = some (w, r) → NonZero (r.map Codec.ofBits) →
        e.vocab.words[i]? = some w ∧ Restores e i (r.map Codec.ofBits) := by
  obtain ⟨e, h1, h2⟩ := C38_load (K := ℝ) lossy cols rows hw hl hn hs
  refine ⟨e, h1, fun i w r hr h0 => ⟨?_, normalized_restores h2 ?_ h0⟩⟩
  · rw [h2.1, List.getElem?_map, hr]; rfl
  · rw [List.getElem?_map, hr]; rfl

/-- Loading and writing a word2vec file without zero vectors gives the same file, if the scalars
are exact. -/
theorem C43_word2vec_rewrite (lossy : Bool) (cols : Nat) (rows : List (PyStr × List F32))
    (hw : ∀ p ∈ rows, W2vWord p.1) (hl : ∀ p ∈ rows, p.2.length = cols)
    (hn : (rows.map Prod.fst).Nodup) (hs : ShapeOk rows.length cols)
    (h0 : ∀ p ∈ rows, NonZero (p.2.map Codec.ofBits))
    (hex : ∀ p ∈ rows, ∀ b ∈ p.2, Codec.bits (Codec.ofBits b : ℝ) = b)
    (hsz : (w2vFile cols rows).length < 2 ^ 63) :
    ∃ e : Embeddings ℝ, Rd.run (loadWord2vec lossy) (w2vFile cols rows) = .ok e ∧
      (writeWord2vec e).file = (.ok (), w2vFile cols rows) := by
  have h1 := loadWord2vec_ok (K := ℝ) lossy rows hw hl hn hs
  generalize hrows : rows.map (fun p => (p.1, p.2.map (Codec.ofBits : F32 → ℝ))) = rs at h1
  have hfst : rs.map Prod.fst = rows.map Prod.fst := by rw [← hrows, List.map_map]; rfl
  have hsnd : rs.map Prod.snd = rows.map fun p => p.2.map Codec.ofBits := by
    rw [← hrows, List.map_map]; rfl
  have hn' : (rs.map Prod.fst).Nodup := by rw [hfst]; exact hn
  have h2 := w2vResult_normalized (cols := cols) hn'
  have hlen : rs.length = rows.length := by rw [← hrows, List.length_map]
  have he : BuiltEmb (w2vResult cols rs) := by
    refine ⟨h2.2.2.1, ⟨?_, ?_⟩, embNew_iff.mpr ⟨rfl, ?_, ?_⟩⟩
    swap
    · show ShapeOk (List.length (List.map _ _)) cols
      rw [List.length_map, List.length_map, hlen]; exact hs
    · intro r hr
      obtain ⟨r', hr', rfl⟩ := List.mem_map.mp hr
      rw [hsnd] at hr'
      obtain ⟨p, hp, rfl⟩ := List.mem_map.mp hr'
      show (vdiv _ _).length = cols
      rw [vdiv, List.length_map, List.length_map]
      exact hl p hp
    · show ((((rs.map Prod.snd).map fun r => vdiv r (NumOps.normAxis r)).length : Nat) : Int) =
        (((enumItems (rs.map Prod.fst)).length : Nat) : Int)
      simp [enumItems]
    · intro n hn
      cases hn
      show ((rs.map Prod.snd).map NumOps.normAxis).length ≤
          ((rs.map Prod.snd).map fun r => vdiv r (NumOps.normAxis r)).length ∧
        (enumItems (rs.map Prod.fst)).length = ((rs.map Prod.snd).map NumOps.normAxis).length
      simp [enumItems]
  have hex' : ExportedAll (w2vResult cols rs) (rs.map Prod.snd) := by
    refine ⟨by rw [h2.1]; simp, fun i v hv => ?_⟩
    have h0' : NonZero v := by
      have := List.mem_of_getElem? hv
      rw [hsnd] at this
      obtain ⟨p, hp, rfl⟩ := List.mem_map.mp this
      exact h0 p hp
    obtain ⟨_, _, _, _, _, _, _, _, _, _, _, h⟩ := normalized_restores h2 hv h0'
    exact h
  have hfile : fileRows (w2vResult cols rs).vocab.words (rs.map Prod.snd) = rows := by
    rw [h2.1, hfst, hsnd, fileRows, List.map_map]
    have : (rows.map ((fun v => v.map (Codec.bits : ℝ → F32)) ∘ fun p => p.2.map (Codec.ofBits : F32 → ℝ))) =
        rows.map Prod.snd := by
      apply List.map_congr_left
      intro p hp
      simp only [Function.comp, List.map_map]
      conv => rhs; rw [← List.map_id p.2]
      exact List.map_congr_left fun b hb => hex p hp b hb
    rw [this]
    clear * -
    induction rows with
    | nil => rfl
    | cons p rows ih => rw [List.map_cons, List.map_cons, List.zip_cons_cons, ih]
  refine ⟨_, h1, ?_⟩
  have hw' := writeWord2vec_ok he hex' (by
    intro w hw'
    rw [h2.1, hfst] at hw'
    obtain ⟨p, hp, rfl⟩ := List.mem_map.mp hw'
    exact any_surrogate.mpr (hw p hp).2.2.2) (by rw [hfile]; exact hsz)
  rw [hfile] at hw'
  exact hw'

/-- fastText files: the vector of a word is the mean of its row and the rows of its n-grams. -/
theorem C43_fasttext (f : FtFile) (hf : f.OK) (lossy : Bool) :
    ∃ e : Embeddings ℝ, Rd.run (loadFasttext lossy) f.bytes = .ok e ∧
      ∀ (i : Nat) p, f.words[i]? = some p → e.vocab.words[i]? = some p.1 ∧
        ∃ is sel mean, FtSubwords ⟨f.buckets, f.minN, f.maxN⟩ f.words.length p.1 is ∧
          List.Forall₂ (fun j r => (f.rows.map fun r => r.map Codec.ofBits)[j]? = some r) (i :: is) sel ∧
          IsMean f.cols sel mean ∧ (NonZero mean → Restores e i mean) := by
  obtain ⟨e, h1, h2, _, _, _, rows, norms, h3, h4, _, _, _, h5⟩ := C42_load (K := ℝ) f hf lossy
  refine ⟨e, h1, fun i p hp => ?_⟩
  have hw : (f.words.map Prod.fst)[i]? = some p.1 := by rw [List.getElem?_map, hp]; rfl
  obtain ⟨is, sel, mean, g1, g2, g3, g4, g5⟩ := h5 i _ hw
  exact ⟨by rw [h2]; exact hw, is, sel, mean, g1, g2, g3, fun h0 => restores_core h3 g5 h4 g4 h0⟩

end

section
variable [NumText ℝ]

/-- Text files with dimensions. -/
theorem C43_text_dims [TextIO] (lossy : Bool) (sep : PyStr) (hs : TextSep sep) (cols : Nat)
    (rows : List (PyStr × List ℝ)) (h : TextRows cols rows) :
    ∃ e : Embeddings ℝ, loadTextDims lossy (utf8 (textFile true sep cols (strRows rows))) = .ok e ∧
      ∀ (i : Nat) w v, rows[i]? = some (w, v) → NonZero v →
        e.vocab.words[i]? = some w ∧ Restores e i v := by
  obtain ⟨e, h1, h2⟩ := C40_load_dims lossy sep hs cols rows h
  refine ⟨e, h1, fun i w v hr h0 => ⟨?_, normalized_restores h2 ?_ h0⟩⟩
  · rw [h2.1, List.getElem?_map, hr]; rfl
  · rw [List.getElem?_map, hr]; rfl

/-- Text files without dimensions. -/
theorem C43_text [TextIO] (lossy : Bool) (sep : PyStr) (hs : TextSep sep) (cols : Nat)
    (rows : List (PyStr × List ℝ)) (h : TextRows cols rows) (hne : rows ≠ []) :
    ∃ e : Embeddings ℝ, loadText lossy (utf8 (textFile false sep cols (strRows rows))) = .ok e ∧
      ∀ (i : Nat) w v, rows[i]? = some (w, v) → NonZero v →
        e.vocab.words[i]? = some w ∧ Restores e i v := by
  obtain ⟨e, h1, h2⟩ := C40_load lossy sep hs cols rows h hne
  refine ⟨e, h1, fun i w v hr h0 => ⟨?_, normalized_restores h2 ?_ h0⟩⟩
  · rw [h2.1, List.getElem?_map, hr]; rfl
  · rw [List.getElem?_map, hr]; rfl

end

/-! ### Any input -/

/-- The rows of words with a norm other than zero have length one. -/
def UnitRows (e : Embeddings ℝ) : Prop :=
  ∃ m ns, e.storage = .nd m ∧ e.norms = some ns ∧ ns.length = e.vocab.words.length ∧
    ∀ (i : Nat) row n, m.rows[i]? = some row → ns[i]? = some n →
      0 ≤ n ∧ (n ≠ 0 → ∑ t ∈ Finset.range row.length, row.getD t 0 ^ 2 = 1)

theorem new_unitRows {raw rest : List (List ℝ)} {c : Nat} {words : List PyStr} {sub : Option Indexer}
    {v : Vocab} {md : Option Meta} {e : Embeddings ℝ} (hv : Vocab.new words sub = .ok v)
    (h : Embeddings.new (.nd ⟨c, (normalizeMatrix raw).1 ++ rest⟩) v (some (normalizeMatrix raw).2) md = .ok e) :
    UnitRows e := by
  obtain ⟨rfl, h1, h2⟩ := embNew_iff.mp h
  have hl := (h2 _ rfl).2
  have hvl : v.len = v.words.length := by
    obtain ⟨_, rfl⟩ := Vocab.new_ok.mp hv
    simp [Vocab.len, enumItems]
  rw [hvl] at hl
  refine ⟨_, _, rfl, rfl, hl.symm, ?_⟩
  intro i row n hr hn
  have hn : (raw.map NumOps.normAxis)[i]? = some n := hn
  have hr : (raw.map (fun r => vdiv r (NumOps.normAxis r)) ++ rest)[i]? = some row := hr
  have hi : i < raw.length := by
    have := (List.getElem?_eq_some_iff.mp hn).1
    simpa using this
  rw [List.getElem?_append_left (by simpa using hi)] at hr
  rw [List.getElem?_map, List.getElem?_eq_getElem hi] at hr hn
  cases hr
  cases hn
  refine ⟨?_, fun h => unit_of_norm h⟩
  rw [normAxis_real]
  exact Real.sqrt_nonneg _

theorem vocab_new_unit {raw : List (List ℝ)} {c : Nat} {words : List PyStr} {md : Option Meta}
    {e : Embeddings ℝ} (h : (Vocab.new words none >>= fun v =>
      Embeddings.new (.nd ⟨c, (normalizeMatrix raw).1⟩) v (some (normalizeMatrix raw).2) md) = .ok e) :
    UnitRows e := by
  obtain ⟨v, h1, h2⟩ := res_bind_inv h
  rw [← List.append_nil (normalizeMatrix raw).1] at h2
  exact new_unitRows h1 h2

theorem loadTextLines_unit [NumText ℝ] {file : Lines} {r c : Int} {e : Embeddings ℝ}
    (h : loadTextLines file r c = .ok e) : UnitRows e := by
  unfold loadTextLines at h
  obtain ⟨_, _, h⟩ := res_bind_inv h
  obtain ⟨_, _, h⟩ := res_bind_inv h
  exact vocab_new_unit h

/-- Whatever bytes the loaders accept: rows have length one unless the norm is zero. -/
theorem C43_any [TextIO] [Codec ℝ] [NumText ℝ] (lossy : Bool) (bs : Bytes) (e : Embeddings ℝ)
    (h : Rd.run (loadWord2vec lossy) bs = .ok e ∨ Rd.run (loadFasttext lossy) bs = .ok e ∨
      loadText lossy bs = .ok e ∨ loadTextDims lossy bs = .ok e) : UnitRows e := by
  have run : ∀ {m : Rd (Embeddings ℝ)}, Rd.run m bs = .ok e → ∃ s, m ⟨bs, 0⟩ = .ok (e, s) := by
    intro m h
    unfold Rd.run at h
    cases hm : m ⟨bs, 0⟩ with
    | error x => rw [hm] at h; cases h
    | ok p => rw [hm] at h; cases h; exact ⟨p.2, rfl⟩
  rcases h with h | h | h | h
  · obtain ⟨s, h⟩ := run h
    unfold loadWord2vec at h
    obtain ⟨_, _, _, h⟩ := rd_bind_inv h
    obtain ⟨_, _, _, h⟩ := rd_bind_inv h
    obtain ⟨_, _, _, h⟩ := rd_bind_inv h
    obtain ⟨_, _, _, h⟩ := rd_bind_inv h
    obtain ⟨_, _, _, h⟩ := rd_bind_inv h
    obtain ⟨v, _, h1, h⟩ := rd_bind_inv h
    have h1 := (rd_lift_inv h1).1
    have h2 := (rd_lift_inv h).1
    rw [← List.append_nil (List.map (fun r : List ℝ => vdiv r (NumOps.normAxis r)) _)] at h2
    exact new_unitRows h1 h2
  · obtain ⟨s, h⟩ := run h
    unfold loadFasttext at h
    obtain ⟨_, _, _, h⟩ := rd_bind_inv h
    obtain ⟨_, _, _, h⟩ := rd_bind_inv h
    obtain ⟨p, _, h1, h⟩ := rd_bind_inv h
    obtain ⟨_, _, _, h⟩ := rd_bind_inv h
    have h2 := (rd_lift_inv h).1
    have hv : ∃ words sub, Vocab.new words sub = .ok p.1 := by
      unfold readFtVocab at h1
      obtain ⟨vs, _, _, h1⟩ := rd_bind_inv h1
      split at h1
      · rename_i n _ l _
        dsimp only at h1
        by_cases hl : l ≠ 0
        · rw [if_pos hl] at h1
          obtain ⟨_, _, h1, _⟩ := rd_bind_inv h1
          cases h1
        rw [if_neg hl] at h1
        obtain ⟨_, _, _, h1⟩ := rd_bind_inv h1
        obtain ⟨q, _, _, h1⟩ := rd_bind_inv h1
        by_cases hq : toSigned 8 q ≥ 0
        · rw [if_pos hq] at h1
          obtain ⟨_, _, h1, _⟩ := rd_bind_inv h1
          cases h1
        rw [if_neg hq] at h1
        obtain ⟨_, _, _, h1⟩ := rd_bind_inv h1
        obtain ⟨_, _, _, h1⟩ := rd_bind_inv h1
        obtain ⟨v, _, h2, h1⟩ := rd_bind_inv h1
        cases h1
        exact ⟨_, _, (rd_lift_inv h2).1⟩
      · cases h1
    obtain ⟨words, sub, hv⟩ := hv
    exact new_unitRows hv h2
  · unfold loadText at h
    obtain ⟨ls, _, h⟩ := res_bind_inv h
    cases ls with
    | none => cases h
    | some q =>
      obtain ⟨_, _, h⟩ := res_bind_inv h
      exact loadTextLines_unit h
  · unfold loadTextDims at h
    obtain ⟨ls, _, h⟩ := res_bind_inv h
    cases ls with
    | none => cases h
    | some q =>
      obtain ⟨_, _, h⟩ := res_bind_inv h
      exact loadTextLines_unit h

/-! ### Cases -/

namespace Sample

theorem nonZero34 : NonZero [3, 4] := ⟨3, by simp, by norm_num⟩

theorem nat34 : ([3, 4] : List F32).map (natCodec.ofBits) = [3, 4] := by
  show [((3 : Nat) : ℝ), ((4 : Nat) : ℝ)] = _
  norm_num

/-- The vector (3, 4): norm 5. -/
example : ∃ e : Embeddings ℝ, Rd.run (@loadWord2vec ℝ _ natCodec false) (w2vFile 2 [([97], [3, 4])]) = .ok e ∧
    Restores e 0 [3, 4] ∧ (@writeWord2vec ℝ _ natCodec e).file = (.ok (), w2vFile 2 [([97], [3, 4])]) := by
  have hw : ∀ p ∈ ([([97], [3, 4])] : List (PyStr × List F32)), W2vWord p.1 := by
    intro p hp
    rw [List.mem_singleton] at hp
    subst hp
    exact w2vWords [97] (by decide)
  have hs : ShapeOk 1 2 := by unfold ShapeOk; decide
  obtain ⟨e, h1, h2⟩ := @C43_word2vec natCodec false 2 [([97], [3, 4])] hw (by decide) (by decide) hs
  obtain ⟨e', h1', h3⟩ := @C43_word2vec_rewrite natCodec false 2 [([97], [3, 4])] hw (by decide) (by decide) hs
    (by
      intro p hp
      rw [List.mem_singleton] at hp
      subst hp
      exact nat34 ▸ nonZero34) (by
      intro p hp b _
      show UInt32.ofNat ⌊((b.toNat : Nat) : ℝ)⌋₊ = b
      rw [Nat.floor_natCast]
      simp) (by decide +kernel)
  rw [h1] at h1'
  cases h1'
  exact ⟨e, h1, nat34 ▸ (h2 0 [97] [3, 4] rfl (nat34 ▸ nonZero34)).2, h3⟩

/-- One word with one trigram: the mean of (1, 2) and (5, 6) is (3, 4). -/
def ftFile1 : FtFile := { ftFile2 with
  buckets := 1, minN := 3, maxN := 3, words := [([97], 7)], rows := [[1, 2], [5, 6]] }

theorem ftFile1_ok : ftFile1.OK where
  ints := by
    unfold Int32Ok Int64Ok
    refine ⟨by decide, by decide, by decide, by decide, by decide, by decide, by decide, by decide,
      by decide, by decide, by decide⟩
  buckets := by decide
  range := by decide
  prune := by decide
  count := by decide
  nul := by
    have h : ∀ p ∈ ftFile1.words, p.1.all (fun c => c.val != 0) = true := by decide
    intro p hp c hc
    simpa using List.all_eq_true.mp (h p hp) c hc
  text := by
    have h : ∀ p ∈ ftFile1.words, p.1.any isSurrogate = false := by decide
    exact fun p hp => any_surrogate.mp (h p hp)
  nodup := by decide
  shape := by decide
  cols := by decide
  size := by unfold ShapeOk; decide

example : ∃ e : Embeddings ℝ, Rd.run (@loadFasttext ℝ _ natCodec false) ftFile1.bytes = .ok e ∧
    Restores e 0 [3, 4] := by
  obtain ⟨e, h1, h2⟩ := @C43_fasttext natCodec ftFile1 ftFile1_ok false
  obtain ⟨_, is, sel, mean, g1, g2, g3, g4⟩ := h2 0 ([97], 7) rfl
  have := ftSubwords_unique g1 ftSub1
  subst this
  have hsel : sel = [[1, 2], [5, 6]] := by
    have hs : List.Forall₂ (fun j r => (ftFile1.rows.map fun r => r.map natCodec.ofBits)[j]? = some r)
        [0, 1] [[1, 2], [5, 6]] := by
      refine .cons ?_ (.cons ?_ .nil)
      · show some [((1 : Nat) : ℝ), ((2 : Nat) : ℝ)] = _
        norm_num
      · show some [((5 : Nat) : ℝ), ((6 : Nat) : ℝ)] = _
        norm_num
    exact forall₂_get_unique g2 hs
  subst hsel
  have hmean : mean = [3, 4] := by
    obtain ⟨s, b1, rfl⟩ := g3
    have : s = [6, 8] := by
      refine isSum_unique b1 ⟨rfl, ?_⟩
      intro t ht
      have : t = 0 ∨ t = 1 := by have : t < 2 := ht; omega
      rcases this with rfl | rfl
      · refine ⟨[1, 5], rfl, ?_⟩
        rw [numSum_real]; norm_num
      · refine ⟨[2, 6], rfl, ?_⟩
        rw [numSum_real]; norm_num
    subst this
    show [(6 : ℝ) / ((2 : Nat) : ℝ), (8 : ℝ) / ((2 : Nat) : ℝ)] = _
    norm_num
  subst hmean
  exact ⟨e, h1, g4 nonZero34⟩

/-- Numbers as decimals of their integer part. -/
noncomputable abbrev realText : NumText ℝ :=
  ⟨fun x => decimal ⌊x⌋₊, fun s => (pyInt s).bind fun n => .ok (n : ℝ)⟩

theorem realText_printable (n : Nat) : @Printable ℝ realText n := by
  refine ⟨⟨decimal_ne_nil _, fun c hc => ?_⟩, ?_⟩
  · have := decimal_digits _ c hc
    omega
  · show (pyInt (decimal ⌊(n : ℝ)⌋₊)).bind _ = _
    rw [Nat.floor_natCast, pyInt_decimal]
    show Except.ok _ = Except.ok _
    simp

theorem textRows34 : @TextRows ℝ realText 2 [([97], [3, 4])] := by
  refine @TextRows.mk ℝ realText 2 [([97], [3, 4])] ?_ (by decide) ?_ ?_ (by simp) (by unfold ShapeOk; decide)
  · intro p hp
    rw [List.mem_singleton] at hp
    subst hp
    exact textWords [97] (by decide)
  · intro p hp x hx
    rw [List.mem_singleton] at hp
    subst hp
    simp only [List.mem_cons, List.not_mem_nil, or_false] at hx
    rcases hx with rfl | rfl
    · exact_mod_cast realText_printable 3
    · exact_mod_cast realText_printable 4
  · intro p hp
    rw [List.mem_singleton] at hp
    subst hp
    rfl

example : ∃ e : Embeddings ℝ, @loadText ℝ _ realText Sample.textIO false
    (utf8 (textFile false [32] 2 (@strRows ℝ realText [([97], [3, 4])]))) = .ok e ∧ Restores e 0 [3, 4] := by
  obtain ⟨e, h1, h2⟩ := @C43_text realText Sample.textIO false [32] ⟨by decide, by
    intro c hc; rw [List.mem_singleton] at hc; subst hc; decide⟩ 2 _ textRows34 (by simp)
  exact ⟨e, h1, (h2 0 [97] [3, 4] rfl nonZero34).2⟩

end Sample

end FF
