import Verif.Lemmas.Drift
import Verif.Lemmas.StrLength
import Verif.Lemmas.Word2VecCut
import Verif.Props.C64
import Verif.Spec.Chain
import Verif.Props.C52
import Verif.Props.C66
/-! Chains of conversions. -/

namespace FF

open F32

/-! ### Text files of any numbers -/

section
variable {K : Type} [NumText K]

/-- The texts of the numbers in a file, and what they are read as. -/
structure TextReads (cols : Nat) (texts : List (PyStr × List PyStr)) (rows : List (PyStr × List K)) : Prop where
  words : ∀ p ∈ texts, TextWord p.1
  zero : cols = 0 → ∀ p ∈ texts, ∀ c, p.1.getLast? = some c → isSpace c = false
  nums : ∀ p ∈ texts, ∀ s ∈ p.2, NumberText s
  len : ∀ p ∈ texts, p.2.length = cols
  reads : List.Forall₂ (fun p r => p.1 = r.1 ∧ List.Forall₂ (fun s (x : K) => NumText.parse s = .ok x) p.2 r.2) texts rows
  nodup : (rows.map Prod.fst).Nodup
  shape : ShapeOk rows.length cols

theorem mapRes_reads {ss : List PyStr} {xs : List K} (h : List.Forall₂ (fun s (x : K) => NumText.parse s = .ok x) ss xs) :
    mapRes NumText.parse ss = .ok xs := by
  induction h with
  | nil => rfl
  | cons h1 _ ih => rw [mapRes, h1, res_bind_ok, ih]; rfl

theorem TextReads.fields {cols : Nat} {texts : List (PyStr × List PyStr)} {rows : List (PyStr × List K)}
    (h : TextReads cols texts rows) {sep : PyStr} (hs : TextSep sep) {p : PyStr × List PyStr} (hp : p ∈ texts) :
    HasFields (rowText sep p ++ [10]) p.1 p.2 := by
  refine hasFields_line (h.words p hp).1 hs (h.nums p hp) ?_
  intro he
  refine h.zero ?_ p hp
  rw [← h.len p hp, he]; rfl

theorem TextReads.row {cols : Nat} {texts : List (PyStr × List PyStr)} {rows : List (PyStr × List K)}
    (h : TextReads cols texts rows) {sep : PyStr} (hs : TextSep sep) (i : Nat) (hi : i < rows.length)
    (hi' : i < texts.length) : textRow cols (rowText sep texts[i] ++ [10]) = .ok rows[i] := by
  have hp : texts[i] ∈ texts := List.getElem_mem _
  obtain ⟨h1, h2⟩ := (List.forall₂_iff_get.mp h.reads).2 i hi' hi
  simp only [List.get_eq_getElem] at h1 h2
  unfold textRow
  rw [reSplit_fields (h.fields hs hp)]
  simp only
  rw [mapRes_reads h2, res_bind_ok, assignRow_ok (h2.length_eq.symm.trans (h.len _ hp)), h1]
  rfl

theorem TextReads.rows {cols : Nat} {texts : List (PyStr × List PyStr)} {rows : List (PyStr × List K)}
    (h : TextReads cols texts rows) {sep : PyStr} (hs : TextSep sep) :
    textRows cols none rows.length ((texts.map (rowText sep)).map fun l => l ++ [10]) = .ok rows := by
  have hl := h.reads.length_eq
  have hz : (texts.zip rows).length = rows.length := by rw [List.length_zip]; omega
  have := textRows_ok (K := K) (cols := cols) (xs := texts.zip rows)
    (f := fun q => rowText sep q.1 ++ [10]) (g := Prod.snd) none (by
      intro q hq
      obtain ⟨i, hi, rfl⟩ := List.mem_iff_getElem.mp hq
      rw [List.getElem_zip]
      exact h.row hs i (by omega) (by omega))
  rw [hz, List.map_snd_zip (by omega)] at this
  rw [← this, List.map_map]
  congr 1
  conv_lhs => rw [← List.map_fst_zip (l₁ := texts) (l₂ := rows) (by omega)]
  rw [List.map_map]
  rfl

theorem TextReads.clean {cols : Nat} {texts : List (PyStr × List PyStr)} {rows : List (PyStr × List K)}
    (h : TextReads cols texts rows) {sep : PyStr} (hs : TextSep sep) :
    ∀ l ∈ texts.map (rowText sep), ∀ c ∈ l, Clean c := by
  intro l hl
  obtain ⟨p, hp, rfl⟩ := List.mem_map.mp hl
  exact rowText_clean hs (h.words p hp) (h.nums p hp)

variable [NumOps K]

theorem loadTextDims_reads [TextIO] (lossy : Bool) {cols : Nat} {texts : List (PyStr × List PyStr)}
    {rows : List (PyStr × List K)} (h : TextReads cols texts rows) {sep : PyStr} (hs : TextSep sep) :
    loadTextDims lossy (utf8 (textFile true sep cols texts)) = .ok (w2vResult cols rows) := by
  unfold loadTextDims
  have hlen : texts.length = rows.length := h.reads.length_eq
  rw [textFile_eq, textLines_ok]
  · simp only [if_true, List.singleton_append, List.map_cons, Lines.next, res_bind_ok]
    have := twoInts_dims rows.length cols
    unfold dimsLine at this
    rw [hlen, this, res_bind_ok]
    exact loadTextLines_ok h.shape (h.rows hs) h.nodup
  · intro l hl
    rw [if_pos rfl, List.singleton_append] at hl
    rcases List.mem_cons.mp hl with rfl | hl
    · intro c hc
      simp only [List.mem_append, List.mem_singleton] at hc
      rcases hc with (hc | rfl) | hc
      · exact decimal_clean _ c hc
      · exact ⟨by decide, by decide, by decide⟩
      · exact decimal_clean _ c hc
    · exact h.clean hs l hl

theorem loadText_reads [TextIO] (lossy : Bool) {cols : Nat} {texts : List (PyStr × List PyStr)}
    {rows : List (PyStr × List K)} (h : TextReads cols texts rows) (hne : texts ≠ []) {sep : PyStr}
    (hs : TextSep sep) : loadText lossy (utf8 (textFile false sep cols texts)) = .ok (w2vResult cols rows) := by
  have hlen : texts.length = rows.length := h.reads.length_eq
  unfold loadText
  rw [textFile_eq, textLines_ok]
  · simp only [if_neg (Bool.false_ne_true), List.nil_append]
    have hr := h.rows hs
    have hl := loadTextLines_ok (file := ⟨_, none⟩) h.shape hr h.nodup
    cases texts with
    | nil => exact absurd rfl hne
    | cons p ps =>
      have hf := reSplit_fields (h.fields hs (p := p) (by simp))
      simp only [List.map_cons, Lines.next, Lines.all, res_bind_ok] at hl ⊢
      rw [hf]
      have hc : (p.1 :: p.2).length - 1 = cols := by
        have := h.len p (by simp)
        simpa using this
      rw [hc]
      have hn : ((ps.map (rowText sep)).map (fun l => l ++ [10])).length + 1 = rows.length := by
        rw [← hlen]; simp
      rw [← hn] at hl
      exact hl
  · intro l hl
    simp only [if_neg (Bool.false_ne_true), List.nil_append] at hl
    exact h.clean hs l hl

end

/-! ### One conversion -/

/-- Componentwise closeness by index. -/
theorem moved_of {a b : ℝ} {v w : List F32} (hl : w.length = v.length)
    (h : ∀ (t : Nat) x y, v[t]? = some x → w[t]? = some y → |val y - val x| ≤ a * |val x| + b) : Moved a b v w := by
  refine List.forall₂_iff_get.mpr ⟨hl.symm, fun t h1 h2 => ?_⟩
  exact h t _ _ (List.getElem?_eq_getElem h1) (List.getElem?_eq_getElem h2)

theorem Moved.at {a b : ℝ} {v w : List F32} (h : Moved a b v w) {t : Nat} {x y : F32} (hx : v[t]? = some x)
    (hy : w[t]? = some y) : |val y - val x| ≤ a * |val x| + b := by
  obtain ⟨h1, rfl⟩ := List.getElem?_eq_some_iff.mp hx
  obtain ⟨h2, rfl⟩ := List.getElem?_eq_some_iff.mp hy
  exact (List.forall₂_iff_get.mp h).2 t h1 h2

variable [NumOps F32]

theorem faithful_moved {e : Embeddings F32} {i : Nat} {v : List F32} (h : Faithful e i v) (hm : Moderate v) :
    ∃ w, Exported e i w ∧ (∀ x ∈ w, F32.Finite x) ∧ Moved (3 * 2⁻¹ ^ 24) (2⁻¹ ^ 89 * exactLen (v.map val)) v w := by
  obtain ⟨row, n, ns, w, -, -, -, hn, -, hlen, -, -, -, -, hw, hl, hf, hd⟩ := h
  refine ⟨w, hw, hf, moved_of hl fun t x y hx hy => ?_⟩
  refine (hd t x y hx hy).trans ?_
  have hlow := hm.low
  have hL : (v.length : ℝ) ≤ 2 ^ 20 := by exact_mod_cast hm.length
  have h1 := (abs_le.mp hlen).2
  generalize exactLen (v.map val) = L at *
  have hL0 : 0 ≤ L := le_trans (by positivity) hlow
  have h2 : ((v.length : ℝ) + 8) * 2⁻¹ ^ 24 * L ≤ 1 * L := by
    refine mul_le_mul_of_nonneg_right ?_ hL0
    have : (v.length : ℝ) + 8 ≤ 2 ^ 21 := by linarith
    calc ((v.length : ℝ) + 8) * 2⁻¹ ^ 24 ≤ 2 ^ 21 * 2⁻¹ ^ 24 := mul_le_mul_of_nonneg_right this (by positivity)
      _ ≤ 1 := by norm_num
  have h3 : (2 : ℝ)⁻¹ ^ 149 * (1 + val n) ≤ 2⁻¹ ^ 89 * L := by
    have h4 : (1 : ℝ) ≤ 2 ^ 59 * L := by
      calc (1 : ℝ) = 2 ^ 59 * 2⁻¹ ^ 59 := by norm_num
        _ ≤ 2 ^ 59 * L := mul_le_mul_of_nonneg_left hlow (by positivity)
    have h5 : 1 + val n ≤ 2 ^ 60 * L := by linarith
    calc (2 : ℝ)⁻¹ ^ 149 * (1 + val n) ≤ 2⁻¹ ^ 149 * (2 ^ 60 * L) := mul_le_mul_of_nonneg_left h5 (pow_nonneg (by norm_num) _)
      _ = 2⁻¹ ^ 89 * L := by
        have h6 : (2 : ℝ)⁻¹ ^ 149 * 2 ^ 60 = 2⁻¹ ^ 89 := by norm_num
        rw [← mul_assoc, h6]
  linarith

/-- Loading normalises, and exporting undoes that up to rounding. -/
theorem normalized_moved (hB : Binary32) {cols : Nat} {words : List PyStr} {zs : List (List F32)} {e : Embeddings F32}
    (he : BuiltEmb e) (h : Normalized cols words zs e) (hl : zs.length = words.length) (hm : ∀ z ∈ zs, Moderate z) :
    ∃ ys, ExportedAll e ys ∧ List.Forall₂ (fun z y => (∀ x ∈ y, F32.Finite x) ∧
      Moved (3 * 2⁻¹ ^ 24) (2⁻¹ ^ 89 * exactLen (z.map val)) z y) zs ys := by
  obtain ⟨ys, hy⟩ := exportedAll_total he (by
    obtain ⟨_, _, _, _, _, rows, h6, _⟩ := h
    rw [h6]
    trivial)
  have hlen : zs.length = ys.length := by rw [hy.1, h.1, hl]
  refine ⟨ys, hy, List.forall₂_iff_get.mpr ⟨hlen, fun i h1 h2 => ?_⟩⟩
  have hz := hm _ (List.getElem_mem h1)
  have hf := C66_normalized_partial hB cols words zs e h i zs[i] (List.getElem?_eq_getElem h1) ((C66_range hB _).1 hz).1
  obtain ⟨w, g1, g2, g3⟩ := faithful_moved hf hz
  have := exported_unique he g1 (hy.2 i _ (List.getElem?_eq_getElem h2))
  simp only [List.get_eq_getElem]
  rw [← this]
  exact ⟨g2, g3⟩

attribute [local instance] b32Text

/-- What one conversion does to a vector. -/
def StepVec (x y : List F32) : Prop :=
  (∀ t ∈ y, F32.Finite t) ∧ Moved (6 * 2⁻¹ ^ 24) (2⁻¹ ^ 88 * exactLen (x.map val)) x y

omit [NumOps F32] in
theorem step_of {x z y : List F32} (hn : x.length ≤ 2 ^ 20) (h1 : Moved (2⁻¹ ^ 23) 0 x z) (hf : ∀ t ∈ y, F32.Finite t)
    (h2 : Moved (3 * 2⁻¹ ^ 24) (2⁻¹ ^ 89 * exactLen (z.map val)) z y) : StepVec x y := by
  refine ⟨hf, (h1.trans (by positivity) h2).mono ?_ ?_⟩
  · norm_num
  · have h0 : 0 ≤ exactLen (x.map val) := Real.sqrt_nonneg _
    have := (h1.len hn (by norm_num) (by positivity)).2
    rw [mul_zero, zero_add, add_zero]
    calc (2 : ℝ)⁻¹ ^ 89 * exactLen (z.map val) ≤ 2⁻¹ ^ 89 * (2 * exactLen (x.map val)) :=
          mul_le_mul_of_nonneg_left this (by positivity)
      _ = 2⁻¹ ^ 88 * exactLen (x.map val) := by
        have h6 : (2 : ℝ)⁻¹ ^ 89 * 2 = 2⁻¹ ^ 88 := by norm_num
        rw [← mul_assoc, h6]

/-- Vectors that stay moderate if they are written as text. -/
def Steady (x : List F32) : Prop :=
  (∀ t ∈ x, F32.Finite t) ∧ x.length ≤ 2 ^ 20 ∧ ∀ z, (∀ t ∈ z, F32.Finite t) → Moved (2⁻¹ ^ 23) 0 x z → Moderate z

/-- `e'` is what a conversion makes of `e`. -/
def StepEmb (e e' : Embeddings F32) (xs : List (List F32)) : Prop :=
  e'.vocab.words = e.vocab.words ∧ e'.storage.nCols = e.storage.nCols ∧
  (e'.metadata = e.metadata ∨ e'.metadata = none) ∧ (Plain e → Plain e') ∧
  ∃ ys, ExportedAll e' ys ∧ List.Forall₂ StepVec xs ys

omit [NumOps F32] in
theorem map_fst_zip' {α β : Type} {xs : List α} {ys : List β} (h : ys.length = xs.length) :
    (xs.zip ys).map Prod.fst = xs := List.map_fst_zip (by omega)

omit [NumOps F32] in
theorem map_snd_zip' {α β : Type} {xs : List α} {ys : List β} (h : ys.length = xs.length) :
    (xs.zip ys).map Prod.snd = ys := List.map_snd_zip (by omega)

theorem step_result (hB : Binary32) {e : Embeddings F32} (he : BuiltEmb e) {xs zs : List (List F32)}
    (hx : ExportedAll e xs) (hs : ∀ x ∈ xs, Steady x)
    (hz : List.Forall₂ (fun x z => Moved (2⁻¹ ^ 23) 0 x z ∧ ∀ t ∈ z, F32.Finite t) xs zs)
    (hb : BuiltEmb (w2vResult e.storage.nCols (e.vocab.words.zip zs))) :
    StepEmb e (w2vResult e.storage.nCols (e.vocab.words.zip zs)) xs := by
  have hl : zs.length = e.vocab.words.length := by rw [← hz.length_eq, hx.1]
  have hN := w2vResult_normalized (K := F32) (cols := e.storage.nCols) (rows := e.vocab.words.zip zs)
    (by rw [map_fst_zip' hl]; exact he.vocab.nodup)
  rw [map_fst_zip' hl, map_snd_zip' hl] at hN
  have hm : ∀ z ∈ zs, Moderate z := by
    intro z hz'
    obtain ⟨i, hi, rfl⟩ := List.mem_iff_getElem.mp hz'
    obtain ⟨h1, h2⟩ := (List.forall₂_iff_get.mp hz)
    have h3 := h2 i (by omega) hi
    exact (hs _ (List.getElem_mem _)).2.2 _ h3.2 h3.1
  obtain ⟨ys, hy, hd⟩ := normalized_moved hB hb hN hl hm
  refine ⟨hN.1, ?_, .inr hN.2.2.2.1, fun _ => ⟨hN.2.1, hN.2.2.2.1, ?_⟩, ys, hy, ?_⟩
  · obtain ⟨_, _, _, _, _, rows, h6, _⟩ := hN
    rw [h6]; rfl
  · obtain ⟨_, _, _, _, _, rows, h6, _⟩ := hN
    exact ⟨_, h6⟩
  · refine List.forall₂_iff_get.mpr ⟨hz.length_eq.trans hd.length_eq, fun i h1 h2 => ?_⟩
    have g1 := (List.forall₂_iff_get.mp hz).2 i h1 (by rw [hd.length_eq]; exact h2)
    have g2 := (List.forall₂_iff_get.mp hd).2 i (by rw [hd.length_eq]; exact h2) h2
    exact step_of (hs _ (List.getElem_mem _)).2.1 g1.1 g2.1 g2.2

/-- One conversion to any format but fastText, and loading its result. -/
theorem step_format [TextIO] (hB : Binary32) {T : Toml} {e : Embeddings F32} (hp : Portable T e) {xs : List (List F32)}
    (hx : ExportedAll e xs) (hs : ∀ x ∈ xs, Steady x) (h0 : e.storage.nonempty) {f : Format} (hf : f ≠ .fasttext)
    {bs : Bytes} (hw : (f.writer T e).file = (.ok (), bs)) (lossy mmap : Bool) :
    ∃ e', f.load T lossy mmap bs = .ok e' ∧ StepEmb e e' xs := by
  have hb := hp.built
  have hsep : TextSep [32] := ⟨by simp, by simp⟩
  have htext : ∀ dims, (writeText dims e [32]).file = (.ok (), bs) →
      ∃ e', (if dims then loadTextDims lossy else loadText lossy) bs = .ok e' ∧ StepEmb e e' xs := by
    intro dims hw
    obtain ⟨vs, h1, -, rfl⟩ := writeText_inv hb hw
    cases exportedAll_unique hb hx h1
    choose g hg using fun x : {x // x ∈ xs} => text_vector (hs x.1 x.2).1
    have hz : List.Forall₂ (fun x z => Moved (2⁻¹ ^ 23) 0 x z ∧ ∀ t ∈ z, F32.Finite t) xs (xs.attach.map g) := by
      refine List.forall₂_iff_get.mpr ⟨by simp, fun i h1 h2 => ?_⟩
      simp only [List.get_eq_getElem, List.getElem_map, List.getElem_attach]
      exact ⟨(hg ⟨xs[i], List.getElem_mem _⟩).1, (hg ⟨xs[i], List.getElem_mem _⟩).2.1⟩
    have hl : (xs.attach.map g).length = e.vocab.words.length := by rw [← hz.length_eq, hx.1]
    have hR : TextReads e.storage.nCols (strRows (e.vocab.words.zip xs)) (e.vocab.words.zip (xs.attach.map g)) := by
      have hmem : ∀ p ∈ strRows (e.vocab.words.zip xs), p.1 ∈ e.vocab.words ∧ ∃ x ∈ xs, p.2 = x.map b32Text.str := by
        intro p hp'
        obtain ⟨q, hq, rfl⟩ := List.mem_map.mp hp'
        exact ⟨(List.of_mem_zip hq).1, q.2, (List.of_mem_zip hq).2, rfl⟩
      refine ⟨fun p h => (hp.words _ (hmem p h).1).2, fun _ p h => (hp.words _ (hmem p h).1).1.2.2.1, ?_, ?_, ?_, ?_, ?_⟩
      · intro p h s hs'
        obtain ⟨-, x, -, h2⟩ := hmem p h
        rw [h2] at hs'
        obtain ⟨t, -, rfl⟩ := List.mem_map.mp hs'
        exact B32.str_chars t
      · intro p h
        obtain ⟨-, x, h1', h2⟩ := hmem p h
        obtain ⟨i, hi, rfl⟩ := List.mem_iff_getElem.mp h1'
        rw [h2, List.length_map]
        exact exported_length hb (hx.2 i _ (List.getElem?_eq_getElem hi))
      · refine List.forall₂_iff_get.mpr ⟨by simp [strRows], fun i h1 h2 => ?_⟩
        simp only [strRows, List.get_eq_getElem, List.getElem_map, List.getElem_zip, List.getElem_attach]
        exact ⟨trivial, (hg ⟨xs[i]'(by simp [strRows] at h1; omega), List.getElem_mem _⟩).2.2⟩
      · rw [map_fst_zip' hl]; exact hb.vocab.nodup
      · rw [List.length_zip, hl, Nat.min_self]; exact hp.shape
    have hne : strRows (e.vocab.words.zip xs) ≠ [] := by
      intro h
      have := congrArg List.length h
      rw [strRows, List.length_map, List.length_zip, hx.1, Nat.min_self] at this
      exact hp.some (List.length_eq_zero_iff.mp this)
    refine ⟨w2vResult e.storage.nCols (e.vocab.words.zip (xs.attach.map g)), ?_, ?_⟩
    · cases dims with
      | true => exact loadTextDims_reads lossy hR hsep
      | false => exact loadText_reads lossy hR hne hsep
    · refine step_result hB hb hx hs hz ?_
      cases dims with
      | true => exact (loadTextDims_built (loadTextDims_reads lossy hR hsep)).1
      | false => exact (loadText_built (loadText_reads lossy hR hne hsep)).1
  cases f with
  | fasttext => exact absurd rfl hf
  | text => exact htext false hw
  | textdims => exact htext true hw
  | word2vec =>
    obtain ⟨vs, h1, -, rfl⟩ := writeWord2vec_inv hb (show (writeWord2vec e).file = (.ok (), bs) from hw)
    cases exportedAll_unique hb hx h1
    have hid : fileRows e.vocab.words xs = e.vocab.words.zip xs := by
      unfold fileRows
      rw [show (xs.map fun v => v.map (Codec.bits : F32 → F32)) = xs from by
        rw [show (fun v : List F32 => v.map (Codec.bits : F32 → F32)) = id from by
          funext v; exact List.map_id v]
        exact List.map_id xs]
    have hid' : (e.vocab.words.zip xs).map (fun p => (p.1, p.2.map (Codec.ofBits : F32 → F32))) =
        e.vocab.words.zip xs := by
      rw [show (fun p : PyStr × List F32 => (p.1, p.2.map (Codec.ofBits : F32 → F32))) = id from by
        funext p; exact Prod.ext rfl (List.map_id p.2)]
      exact List.map_id _
    have hload := loadWord2vec_ok (K := F32) lossy (cols := e.storage.nCols) (e.vocab.words.zip xs)
      (fun p h => (hp.words _ (List.of_mem_zip h).1).1)
      (fun p h => by
        obtain ⟨i, hi, h2⟩ := List.mem_iff_getElem.mp (List.of_mem_zip h).2
        rw [← h2]
        exact exported_length hb (hx.2 i _ (List.getElem?_eq_getElem hi)))
      (by rw [map_fst_zip' hx.1]; exact hb.vocab.nodup)
      (by rw [List.length_zip, hx.1, Nat.min_self]; exact hp.shape)
    rw [hid'] at hload
    refine ⟨_, by rw [hid]; exact hload, step_result hB hb hx hs ?_ (loadWord2vec_built hload).1⟩
    exact List.forall₂_same.mpr fun x hx' => ⟨Moved.refl (by positivity) le_rfl x, (hs x hx').1⟩
  | finalfusion =>
    obtain ⟨e', h1, h2⟩ := C01_roundtrip T e bs hb hp.ngrams hp.toml hw
    have hst : StepEmb e e' xs := by
      refine ⟨h2.vocab.1.symm, by rw [h2.storage], .inl h2.metadata.symm, fun hpl => ⟨?_, h2.metadata ▸ hpl.2.1,
        h2.storage ▸ hpl.2.2⟩, xs, ⟨by rw [← h2.vocab.1]; exact hx.1, ?_⟩, ?_⟩
      · have h3 := h2.vocab.2.2
        rw [hpl.1] at h3
        cases h4 : e'.vocab.sub with
        | none => rfl
        | some ix => rw [h4] at h3; exact absurd h3 id
      · intro i v hv
        have := hx.2 i v hv
        unfold Exported at this ⊢
        rw [← h2.storage, ← h2.norms]
        exact this
      · exact List.forall₂_same.mpr fun x hx' => ⟨(hs x hx').1, Moved.refl (by positivity)
          (mul_nonneg (by positivity) (Real.sqrt_nonneg _)) x⟩
    cases mmap with
    | false => exact ⟨e', h1, hst⟩
    | true =>
      obtain ⟨e'', h3, -⟩ := C12_roundtrip_mmap T e bs hb hp.ngrams hp.toml h0 hw
      have := C12_mmap_agrees T bs e'' h3
      rw [h1] at this
      cases this
      exact ⟨e', h3, hst⟩

/-! ### Many conversions -/

/-- What became of a vector after `k` conversions -/
def Worn (k : Nat) (v w : List F32) : Prop :=
  (∀ y ∈ w, F32.Finite y) ∧ Moved (k * (8 * 2⁻¹ ^ 24)) (k * (2⁻¹ ^ 84 * exactLen (v.map val))) v w

omit [NumOps F32] in
theorem worn_steady {k : Nat} {v w : List F32} (hv : Comfortable v) (hk : k ≤ 2 ^ 16) (h : Worn k v w) : Steady w := by
  have hk' : (k : ℝ) ≤ 2 ^ 16 := by exact_mod_cast hk
  have hk0 : (0 : ℝ) ≤ k := Nat.cast_nonneg k
  have hL : 0 ≤ exactLen (v.map val) := Real.sqrt_nonneg _
  refine ⟨h.1, by rw [← h.2.length]; exact hv.length, fun z hz hm => ?_⟩
  have hc := (h.2.trans (by positivity) hm).len hv.length (by
    have : (k : ℝ) * (8 * 2⁻¹ ^ 24) ≤ 2 ^ 16 * (8 * 2⁻¹ ^ 24) := mul_le_mul_of_nonneg_right hk' (by positivity)
    have h2 : (2 : ℝ)⁻¹ ^ 23 * (k * (8 * 2⁻¹ ^ 24)) ≤ 2⁻¹ ^ 23 * (2 ^ 16 * (8 * 2⁻¹ ^ 24)) :=
      mul_le_mul_of_nonneg_left this (by positivity)
    have h3 : (2 : ℝ) ^ 16 * (8 * 2⁻¹ ^ 24) + 2⁻¹ ^ 23 + 2⁻¹ ^ 23 * (2 ^ 16 * (8 * 2⁻¹ ^ 24)) ≤ 1 / 16 := by norm_num
    linarith) (by
    have : (k : ℝ) * (2⁻¹ ^ 84 * exactLen (v.map val)) ≤ 2 ^ 16 * (2⁻¹ ^ 84 * exactLen (v.map val)) :=
      mul_le_mul_of_nonneg_right hk' (by positivity)
    have h2 : (2 : ℝ)⁻¹ ^ 23 * (k * (2⁻¹ ^ 84 * exactLen (v.map val))) ≤
        2⁻¹ ^ 23 * (2 ^ 16 * (2⁻¹ ^ 84 * exactLen (v.map val))) := mul_le_mul_of_nonneg_left this (by positivity)
    have h3 : ((2 : ℝ) ^ 16 * 2⁻¹ ^ 84 + 2⁻¹ ^ 23 * (2 ^ 16 * 2⁻¹ ^ 84)) * exactLen (v.map val) ≤
        2⁻¹ ^ 60 * exactLen (v.map val) := mul_le_mul_of_nonneg_right (by norm_num) hL
    linarith)
  refine ⟨hz, ?_, ?_, by rw [← hm.length, ← h.2.length]; exact hv.length⟩
  · have := hv.low
    have h2 : (2 : ℝ)⁻¹ ^ 58 = 2 * 2⁻¹ ^ 59 := by norm_num
    linarith [hc.1]
  · have := hv.high
    have h2 : (2 : ℝ) ^ 62 = 2 * 2 ^ 61 := by norm_num
    linarith [hc.2]

omit [NumOps F32] in
theorem worn_step {k : Nat} {v w y : List F32} (hv : Comfortable v) (hk : k ≤ 2 ^ 16) (h : Worn k v w)
    (hs : StepVec w y) : Worn (k + 1) v y := by
  have hk' : (k : ℝ) ≤ 2 ^ 16 := by exact_mod_cast hk
  have hL : 0 ≤ exactLen (v.map val) := Real.sqrt_nonneg _
  have hlen : exactLen (w.map val) ≤ 2 * exactLen (v.map val) := by
    refine (h.2.len hv.length ?_ ?_).2
    · have : (k : ℝ) * (8 * 2⁻¹ ^ 24) ≤ 2 ^ 16 * (8 * 2⁻¹ ^ 24) := mul_le_mul_of_nonneg_right hk' (by positivity)
      have h3 : (2 : ℝ) ^ 16 * (8 * 2⁻¹ ^ 24) ≤ 1 / 16 := by norm_num
      linarith
    · have : (k : ℝ) * (2⁻¹ ^ 84 * exactLen (v.map val)) ≤ 2 ^ 16 * (2⁻¹ ^ 84 * exactLen (v.map val)) :=
        mul_le_mul_of_nonneg_right hk' (by positivity)
      have h3 : (2 : ℝ) ^ 16 * 2⁻¹ ^ 84 * exactLen (v.map val) ≤ 2⁻¹ ^ 60 * exactLen (v.map val) :=
        mul_le_mul_of_nonneg_right (by norm_num) hL
      linarith
  refine ⟨hs.1, (h.2.trans (by positivity) hs.2).mono ?_ ?_⟩
  · have h1 : (6 : ℝ) * 2⁻¹ ^ 24 * (k * (8 * 2⁻¹ ^ 24)) ≤ 6 * 2⁻¹ ^ 24 * (2 ^ 16 * (8 * 2⁻¹ ^ 24)) :=
      mul_le_mul_of_nonneg_left (mul_le_mul_of_nonneg_right hk' (by positivity)) (by positivity)
    have h2 : (6 : ℝ) * 2⁻¹ ^ 24 * (2 ^ 16 * (8 * 2⁻¹ ^ 24)) ≤ 2 * 2⁻¹ ^ 24 := by norm_num
    push_cast
    linarith
  · generalize exactLen (w.map val) = M at *
    generalize exactLen (v.map val) = L at *
    have h1 : (6 : ℝ) * 2⁻¹ ^ 24 * (k * (2⁻¹ ^ 84 * L)) ≤ 6 * 2⁻¹ ^ 24 * (2 ^ 16 * (2⁻¹ ^ 84 * L)) :=
      mul_le_mul_of_nonneg_left (mul_le_mul_of_nonneg_right hk' (by positivity)) (by positivity)
    have h2 : ((6 : ℝ) * 2⁻¹ ^ 24 * (2 ^ 16 * 2⁻¹ ^ 84) + 2⁻¹ ^ 88 * 2) * L ≤ 2⁻¹ ^ 84 * L :=
      mul_le_mul_of_nonneg_right (by norm_num) hL
    have h3 : (2 : ℝ)⁻¹ ^ 88 * M ≤ 2⁻¹ ^ 88 * (2 * L) := mul_le_mul_of_nonneg_left hlen (by positivity)
    push_cast
    linarith

/-- Embeddings that are `k` conversions away from `e`, with vectors `vs` -/
def WornEmb (k : Nat) (e e' : Embeddings F32) (vs : List (List F32)) : Prop :=
  e'.vocab.words = e.vocab.words ∧ e'.storage.nCols = e.storage.nCols ∧
  (e'.metadata = e.metadata ∨ e'.metadata = none) ∧ (Plain e → Plain e') ∧
  ∃ ws, ExportedAll e' ws ∧ List.Forall₂ (Worn k) vs ws

theorem nonempty_of {e : Embeddings F32} (he : BuiltEmb e) (hw : e.vocab.words ≠ []) (hc : 0 < e.storage.nCols) :
    e.storage.nonempty := by
  have h1 := he.words_le
  have h2 : 0 < e.vocab.words.length := List.length_pos_iff.mpr hw
  cases hs : e.storage with
  | nd m =>
    rw [hs] at hc h1
    have h3 : 0 < m.rows.length := lt_of_lt_of_le h2 h1
    exact (Nat.mul_pos h3 hc).ne'
  | quant q =>
    rw [hs] at h1
    have h3 : 0 < q.codes.length := lt_of_lt_of_le h2 h1
    exact h3.ne'

theorem cols_pos {e : Embeddings F32} (he : BuiltEmb e) (hw : e.vocab.words ≠ []) {vs : List (List F32)}
    (hv : ExportedAll e vs) (hm : ∀ v ∈ vs, Comfortable v) : 0 < e.storage.nCols := by
  have h2 : 0 < vs.length := by rw [hv.1]; exact List.length_pos_iff.mpr hw
  have h3 := exported_length he (hv.2 0 _ (List.getElem?_eq_getElem h2))
  rw [← h3]
  refine List.length_pos_iff.mpr fun h0 => ?_
  have := (hm _ (List.getElem_mem h2)).low
  rw [h0, List.map_nil] at this
  have h4 : exactLen [] = 0 := by unfold exactLen exactDot; exact Real.sqrt_zero
  rw [h4] at this
  exact absurd this (not_le.mpr (by positivity))

theorem worn_zero {e : Embeddings F32} {vs : List (List F32)} (hv : ExportedAll e vs) (hm : ∀ v ∈ vs, Comfortable v) :
    WornEmb 0 e e vs :=
  ⟨rfl, rfl, .inl rfl, id, vs, hv, List.forall₂_same.mpr fun v h => ⟨(hm v h).fin, Moved.refl (by simp) (by simp) v⟩⟩

theorem worn_portable {T : Toml} {k : Nat} {e e' : Embeddings F32} {vs : List (List F32)} (hp : Portable T e)
    (h : WornEmb k e e' vs) (hb : BuiltEmb e') (hn : HasNgrams e'.vocab) : Portable T e' := by
  obtain ⟨h1, h2, h3, _⟩ := h
  refine ⟨hb, hn, ?_, by rw [h1]; exact hp.some, by rw [h1]; exact hp.words, by rw [h1, h2]; exact hp.shape⟩
  rcases h3 with h3 | h3
  · rw [h3]; exact hp.toml
  · intro m s hm; rw [h3] at hm; cases hm

theorem worn_format [TextIO] (hB : Binary32) {T : Toml} {k : Nat} {e e' : Embeddings F32} {vs : List (List F32)}
    (hp : Portable T e) (hv : ExportedAll e vs) (hm : ∀ v ∈ vs, Comfortable v) (hk : k ≤ 2 ^ 16)
    (h : WornEmb k e e' vs) (hb : BuiltEmb e') (hn : HasNgrams e'.vocab) {f : Format} (hf : f ≠ .fasttext)
    {bs : Bytes} (hw : (f.writer T e').file = (.ok (), bs)) (lossy mmap : Bool) :
    ∃ e'', f.load T lossy mmap bs = .ok e'' ∧ WornEmb (k + 1) e e'' vs := by
  have hp' := worn_portable hp h hb hn
  obtain ⟨h1, h2, h3, hpl, ws, h4, h5⟩ := h
  have hc : 0 < e'.storage.nCols := by rw [h2]; exact cols_pos hp.built hp.some hv hm
  have hst : ∀ w ∈ ws, Steady w := by
    intro w hw'
    obtain ⟨i, hi, rfl⟩ := List.mem_iff_getElem.mp hw'
    have hi' : i < vs.length := by rw [h5.length_eq]; exact hi
    exact worn_steady (hm _ (List.getElem_mem hi')) hk ((List.forall₂_iff_get.mp h5).2 i hi' hi)
  obtain ⟨e'', g1, g2, g3, g4, gpl, ys, g5, g6⟩ := step_format hB hp' h4 hst (nonempty_of hb hp'.some hc) hf hw lossy mmap
  refine ⟨e'', g1, g2.trans h1, g3.trans h2, ?_, fun h => gpl (hpl h), ys, g5, ?_⟩
  · rcases g4 with g4 | g4
    · rw [g4]; exact h3
    · exact .inr g4
  · refine List.forall₂_iff_get.mpr ⟨h5.length_eq.trans g6.length_eq, fun i j1 j2 => ?_⟩
    have j3 : i < ws.length := by rw [g6.length_eq]; exact j2
    exact worn_step (hm _ (List.getElem_mem j1)) hk ((List.forall₂_iff_get.mp h5).2 i j1 j3)
      ((List.forall₂_iff_get.mp g6).2 i j3 j2)

theorem saved_worn [TextIO] [Remap] (hB : Binary32) {T : Toml} {k : Nat} {e : Embeddings F32} {vs : List (List F32)}
    (hp : Portable T e) (hv : ExportedAll e vs) (hm : ∀ v ∈ vs, Comfortable v) {f : Format} {p : PyStr} {fs : FS}
    (h : Saved T e k f p fs) (hk : k ≤ 2 ^ 16) :
    ∃ bs, fs p = some bs ∧ ∀ lossy mmap, ∃ e', f.load T lossy mmap bs = .ok e' ∧ WornEmb k e e' vs := by
  induction h with
  | @save f p fs fs' hf hw =>
    obtain ⟨out, h1, rfl⟩ := writeFile_ok hw
    exact ⟨out, if_pos rfl, worn_format hB hp hv hm (Nat.zero_le _) (worn_zero hv hm) hp.built hp.ngrams hf h1⟩
  | @convert k f g p q lossy mmap fs fs' _ hg ha hw ih =>
    obtain ⟨bs, h1, h2⟩ := ih (by omega)
    obtain ⟨bs', e', out, h3, h4, h5, rfl⟩ := convertMain_ok ha hw
    rw [h1] at h3
    cases h3
    obtain ⟨e'', g1, g2⟩ := h2 lossy mmap
    rw [h4] at g1
    cases g1
    exact ⟨out, if_pos rfl, worn_format hB hp hv hm (by omega) g2 (formatLoad_built h4) (formatLoad_ngrams h4) hg h5⟩
  | other _ he ih =>
    obtain ⟨bs, h1, h2⟩ := ih hk
    exact ⟨bs, he.trans h1, h2⟩

/-! ### Conversions succeed -/

omit [NumOps F32] in
theorem utf8_flatMap {α : Type} (f : α → PyStr) (xs : List α) : utf8 (xs.flatMap f) = xs.flatMap fun x => utf8 (f x) := by
  induction xs with
  | nil => rfl
  | cons x xs ih => rw [List.flatMap_cons, utf8_append, ih, List.flatMap_cons]

omit [NumOps F32] in
theorem intercalate_le {n : Nat} (ss : List PyStr) (h : ∀ s ∈ ss, s.length ≤ n) :
    (List.intercalate [32] ss).length ≤ (n + 1) * ss.length := by
  induction ss with
  | nil => simp
  | cons s ss ih =>
    have h1 := h s List.mem_cons_self
    have h2 := ih fun t ht => h t (List.mem_cons_of_mem _ ht)
    cases ss with
    | nil => simp only [List.intercalate_singleton, List.length_cons, List.length_nil]; omega
    | cons t ts =>
      rw [List.intercalate_cons_cons, List.length_append, List.length_append, List.length_cons (as := t :: ts), Nat.mul_succ]
      simp only [List.length_cons, List.length_nil] at *
      omega

omit [NumOps F32] in
theorem ascii_length {s : PyStr} (h : ∀ c ∈ s, c.val < 128) : (utf8 s).length = s.length := by
  rw [utf8_ascii h, List.length_map]

omit [NumOps F32] in
theorem sum_le_sum' {α : Type} {f g : α → Nat} {xs : List α} (h : ∀ x ∈ xs, f x ≤ g x) :
    (xs.map f).sum ≤ (xs.map g).sum := by
  induction xs with
  | nil => simp
  | cons x xs ih =>
    rw [List.map_cons, List.map_cons, List.sum_cons, List.sum_cons]
    exact Nat.add_le_add (h x List.mem_cons_self) (ih fun y hy => h y (List.mem_cons_of_mem _ hy))

omit [NumOps F32] in
theorem dims_length {r c : Nat} (hr : r < 10 ^ 20) (hc : c < 10 ^ 20) :
    (utf8 (decimal r ++ [32] ++ decimal c ++ [10])).length ≤ 42 := by
  have h1 : ∀ n, ∀ x ∈ decimal n, x.val < 128 := fun n x hx => by
    have := decimal_digits n x hx
    omega
  rw [ascii_length]
  · have := B32.decimal_length_le hr (by decide)
    have := B32.decimal_length_le hc (by decide)
    simp only [List.length_append, List.length_cons, List.length_nil]
    omega
  · intro x hx
    simp only [List.mem_append, List.mem_singleton] at hx
    rcases hx with ((hx | rfl) | hx) | rfl
    · exact h1 _ x hx
    · decide
    · exact h1 _ x hx
    · decide

omit [NumOps F32] in
theorem zip_sum {words : List PyStr} {β : Type} {ys : List β} (h : ys.length = words.length) (f : PyStr → Nat) :
    ((words.zip ys).map fun p => f p.1).sum = (words.map f).sum := by
  rw [show (fun p : PyStr × β => f p.1) = f ∘ Prod.fst from rfl, ← List.map_map, map_fst_zip' h]

theorem plain_writes {T : Toml} {e : Embeddings F32} (hp : Portable T e) (hpl : Plain e)
    (hfit : Fits e.vocab.words e.storage.nCols) {xs : List (List F32)} (hx : ExportedAll e xs) {f : Format}
    (hf : f ≠ .fasttext) : ∃ bs, (f.writer T e).file = (.ok (), bs) := by
  have hb := hp.built
  obtain ⟨hsub, hmeta, m, hst⟩ := hpl
  obtain ⟨hword, hc, hsum⟩ := hfit
  have hsur : ∀ w ∈ e.vocab.words, w.any isSurrogate = false :=
    fun w hw => any_surrogate.mpr (hp.words w hw).1.2.2.2
  have hlen : ∀ x ∈ xs, x.length = e.storage.nCols := by
    intro x hx'
    obtain ⟨i, hi, rfl⟩ := List.mem_iff_getElem.mp hx'
    exact exported_length hb (hx.2 i _ (List.getElem?_eq_getElem hi))
  have hn : e.vocab.words.length < 10 ^ 20 := by have := hp.shape.rows; unfold maxSize at this; omega
  have hd := dims_length hn (show e.storage.nCols < 10 ^ 20 by omega)
  have hrow : e.storage.nRows = e.vocab.words.length := by
    have h1 := (embNew_iff.mp hb.new).2.1
    have h2 : e.vocab.upperBound = e.vocab.words.length := by
      unfold Vocab.upperBound
      rw [hsub, hb.vocab.len]
    omega
  have hx1 := hx.1
  generalize hN : e.vocab.words.length = N at *
  rw [← hN] at hx1
  have hconst : ∀ a, (e.vocab.words.map fun w => (utf8 w).length + a).sum =
      (e.vocab.words.map fun w => (utf8 w).length).sum + N * a := by
    intro a
    rw [List.sum_map_add, List.map_const', List.sum_replicate, hN, smul_eq_mul]
  rw [hconst] at hsum
  have htext : ∀ dims, ∃ bs, (writeText dims e [32]).file = (.ok (), bs) := by
    intro dims
    refine ⟨_, writeText_ok hb hx hsur (by decide) (fun v _ => numbers_plain (fun x => B32.str_chars x) v) ?_⟩
    show _ < 2 ^ 63
    unfold textFile
    rw [utf8_append, List.length_append, utf8_flatMap, List.length_flatMap]
    have h1 : (utf8 (if dims then decimal (strRows (e.vocab.words.zip xs)).length ++ [32] ++ decimal e.storage.nCols ++ [10]
        else [])).length ≤ 42 := by
      cases dims with
      | false => simp [utf8]
      | true =>
        rw [if_pos rfl, strRows, List.length_map, List.length_zip, hx.1, hN, Nat.min_self]
        exact hd
    have h2 : ((strRows (e.vocab.words.zip xs)).map fun p =>
        (utf8 (p.1 ++ [32] ++ List.intercalate [32] p.2 ++ [10])).length).sum ≤
        ((strRows (e.vocab.words.zip xs)).map fun p => (utf8 p.1).length + (257 * e.storage.nCols + 2)).sum := by
      refine sum_le_sum' fun p hp' => ?_
      obtain ⟨q, hq, rfl⟩ := List.mem_map.mp hp'
      have h3 : (utf8 (List.intercalate [32] (q.2.map (NumText.str : F32 → PyStr)))).length ≤ 257 * e.storage.nCols := by
        rw [ascii_length]
        · have := intercalate_le (n := 256) (q.2.map (NumText.str : F32 → PyStr)) (by
            intro s hs
            obtain ⟨x, -, rfl⟩ := List.mem_map.mp hs
            exact B32.str_length x)
          rw [List.length_map, hlen _ (List.of_mem_zip hq).2] at this
          exact this
        · intro c hc
          rcases mem_intercalate hc with rfl | ⟨s, hs, hc⟩
          · decide
          · obtain ⟨x, _, rfl⟩ := List.mem_map.mp hs
            have := (B32.str_chars x).2 c hc
            omega
      rw [utf8_append, utf8_append, utf8_append]
      simp only [List.length_append]
      have e1 : (utf8 [32]).length = 1 := rfl
      have e2 : (utf8 [10]).length = 1 := rfl
      omega
    have h4 : ((strRows (e.vocab.words.zip xs)).map fun p => (utf8 p.1).length + (257 * e.storage.nCols + 2)).sum =
        (e.vocab.words.map fun w => (utf8 w).length).sum + N * (257 * e.storage.nCols + 2) := by
      rw [← hconst, strRows, List.map_map]
      exact zip_sum hx1 (fun w => (utf8 w).length + (257 * e.storage.nCols + 2))
    have h5 : N * (257 * e.storage.nCols + 2) = 257 * (N * e.storage.nCols) + 2 * N := by ring
    omega
  cases f with
  | fasttext => exact absurd rfl hf
  | text => exact htext false
  | textdims => exact htext true
  | word2vec =>
    refine ⟨_, writeWord2vec_ok hb hx hsur ?_⟩
    show _ < 2 ^ 63
    unfold w2vFile
    rw [List.length_append, fileRows_length hx1, hN, List.length_flatMap]
    have h2 : ((fileRows e.vocab.words xs).map fun p => (utf8 p.1 ++ [32] ++ f32sLE p.2 ++ [10]).length).sum ≤
        ((fileRows e.vocab.words xs).map fun p => (utf8 p.1).length + (4 * e.storage.nCols + 2)).sum := by
      refine sum_le_sum' fun p hp' => ?_
      obtain ⟨v, hv, h3⟩ := List.mem_map.mp (List.of_mem_zip hp').2
      have h4 : p.2.length = e.storage.nCols := by rw [← h3, List.length_map, hlen v hv]
      simp only [List.length_append, length_f32sLE, h4, List.length_cons, List.length_nil]
      omega
    have h4 : ((fileRows e.vocab.words xs).map fun p => (utf8 p.1).length + (4 * e.storage.nCols + 2)).sum =
        (e.vocab.words.map fun w => (utf8 w).length).sum + N * (4 * e.storage.nCols + 2) := by
      rw [← hconst]
      exact zip_sum (by rw [List.length_map]; exact hx1) (fun w => (utf8 w).length + (4 * e.storage.nCols + 2))
    have h5 : N * (4 * e.storage.nCols + 2) = 4 * (N * e.storage.nCols) + 2 * N := by ring
    omega
  | finalfusion =>
    have hw : Writable T e [] := by
      refine ⟨fun w hw => ⟨(hp.words w hw).1.2.2.2, hword w hw⟩, ?_, ?_, ?_, ?_⟩
      · intro ix h; rw [hsub] at h; cases h
      · intro m h; rw [hmeta] at h; cases h
      · rw [hst] at hc ⊢; exact hc
      · have h1 : vocabBytes e.vocab = (e.vocab.words.map fun w => (utf8 w).length).sum + N * 4 := by
          unfold vocabBytes
          rw [hsub, ← hconst]
          simp only [Nat.add_comm 4]
          rfl
        have h2 : storageBytes e.storage = 4 * (N * e.storage.nCols) := by
          rw [hst] at hrow ⊢
          show 4 * (m.rows.length * m.cols) = 4 * (N * m.cols)
          rw [show m.rows.length = N from hrow]
        have h3 : (e.norms.map List.length).getD 0 ≤ N := by
          cases hns : e.norms with
          | none => simp
          | some ns =>
            have := (embNew_iff.mp hb.new).2.2 ns hns
            simp only [Option.map_some, Option.getD_some]
            omega
        have h0 : (utf8 []).length = 0 := rfl
        rw [h1, h2, h0]
        omega
    obtain ⟨bs, _, h, _⟩ := C01_write_succeeds T e [] hb hp.ngrams hp.toml hw
    exact ⟨bs, h⟩

end FF
