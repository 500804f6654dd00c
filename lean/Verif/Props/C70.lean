import Verif.Lemmas.Float32FastText
import Verif.Props.C66
/-!
# C70: fastText in float32 arithmetic

Loading a fastText file replaces the row of a word by the mean of its row and the rows of its n-grams; writing one
undoes that.  With the operations of IEEE 754 binary32: means are right up to rounding; a vector that is written and
loaded again differs from the old one by a multiple of `2⁻²⁴`, relative to the old one and to the rows of the
n-grams.  It is not right relative to the old one alone: if the rows of the n-grams are large, nothing is left of it.
-/

namespace FF

open F32

section
variable [NumOps F32]

/-- Norm `i` as a number, one if there are no norms -/
def Scale (e : Embeddings F32) (i : Nat) (c : ℝ) : Prop :=
  match e.norms with
  | none => c = 1
  | some ns => ∃ n, ns[i]? = some n ∧ Finite n ∧ c = val n

/-- Finite numbers of at most `B` -/
def Below (B : ℝ) (rows : List (List F32)) : Prop := ∀ r ∈ rows, ∀ x ∈ r, Finite x ∧ |val x| ≤ B

omit [NumOps F32] in
theorem column {sel : List (List F32)} {cols : Nat} (h : ∀ r ∈ sel, r.length = cols) {t : Nat} (ht : t < cols) :
    ∃ ys : List F32, sel.map (fun r => r[t]?) = ys.map some := by
  induction sel with
  | nil => exact ⟨[], rfl⟩
  | cons r sel ih =>
    obtain ⟨ys, hy⟩ := ih fun r hr => h r (List.mem_cons_of_mem _ hr)
    have hr := h r List.mem_cons_self
    exact ⟨r[t] :: ys, by rw [List.map_cons, List.map_cons, hy, List.getElem?_eq_getElem]⟩

omit [NumOps F32] in
theorem column_below {B : ℝ} {sel : List (List F32)} (h : Below B sel) {t : Nat} {ys : List F32}
    (hy : sel.map (fun r => r[t]?) = ys.map some) : ∀ y ∈ ys, Finite y ∧ |val y| ≤ B := by
  intro y hm
  have : some y ∈ sel.map (fun r => r[t]?) := by rw [hy]; exact List.mem_map_of_mem hm
  obtain ⟨r, hr, hrt⟩ := List.mem_map.mp this
  exact h r hr y (List.mem_of_getElem? hrt)

omit [NumOps F32] in
theorem column_length {sel : List (List F32)} {t : Nat} {ys : List F32}
    (hy : sel.map (fun r => r[t]?) = ys.map some) : ys.length = sel.length := by
  have := congrArg List.length hy
  simpa using this.symm

omit [NumOps F32] in
theorem column_unique {sel : List (List F32)} {t : Nat} {ys zs : List F32}
    (hy : sel.map (fun r => r[t]?) = ys.map some) (hz : sel.map (fun r => r[t]?) = zs.map some) : ys = zs :=
  List.map_injective_iff.mpr (Option.some_injective _) (hy.symm.trans hz)

/-- fastText files: the vector of a word is the mean of its row and the rows of its n-grams up to rounding; if its
norm is in range, so are row and norm of the word. -/
theorem C70_load (hB : Binary32) (f : FtFile) (hf : f.OK) (lossy : Bool) :
    ∃ e : Embeddings F32, Rd.run (loadFasttext lossy) f.bytes = .ok e ∧
      ∀ (i : Nat) p is sel, f.words[i]? = some p →
        FtSubwords ⟨f.buckets, f.minN, f.maxN⟩ f.words.length p.1 is →
        List.Forall₂ (fun j r => f.rows[j]? = some r) (i :: is) sel → is.length < 2 ^ 20 → Below (2 ^ 100) sel →
        e.vocab.words[i]? = some p.1 ∧ ∃ mean : List F32, mean.length = f.cols ∧ (∀ x ∈ mean, Finite x) ∧
          (∀ (t : Nat) (y : F32) (ys : List F32), mean[t]? = some y → sel.map (fun r => r[t]?) = ys.map some →
            |val y - (ys.map val).sum / ys.length| ≤
              ((1 + 2⁻¹ ^ 24) ^ ys.length - 1) * ((ys.map fun x => |val x|).sum / ys.length) + 2⁻¹ ^ 150) ∧
          (NormInRange mean (NumOps.normAxis mean) → Faithful e i mean) := by
  obtain ⟨e, h1, h3⟩ := C66_fasttext_partial hB f hf lossy
  refine ⟨e, h1, fun i p is sel hp hsub hsel hlen hbel => ?_⟩
  obtain ⟨hw, is', sel', mean, g1, g2, g3, g4⟩ := h3 i p hp
  obtain rfl := ftSubwords_unique hsub g1
  obtain rfl := forall₂_get_unique hsel g2
  have hl : sel.length = is.length + 1 := hsel.length_eq.symm
  obtain ⟨s, hs, rfl⟩ := g3
  have key : ∀ (t : Nat) y, (s.map fun x => NumOps.div x (NumOps.ofNat sel.length))[t]? = some y → ∃ ys : List F32,
      sel.map (fun r => r[t]?) = ys.map some ∧ Finite y ∧ |val y - (ys.map val).sum / ys.length| ≤
        ((1 + 2⁻¹ ^ 24) ^ ys.length - 1) * ((ys.map fun x => |val x|).sum / ys.length) + 2⁻¹ ^ 150 := by
    intro t y hy
    obtain ⟨ht, _⟩ := List.getElem?_eq_some_iff.mp hy
    rw [List.length_map, hs.1] at ht
    obtain ⟨ys, k1, k2⟩ := hs.2 t ht
    rw [List.getElem?_map, k2] at hy
    cases hy
    have kb := column_below hbel k1
    have kl := column_length k1
    have := mean_b32 hB ys (by rw [← List.length_pos_iff]; omega) (fun y hy => (kb y hy).1) (by omega)
      (fun y hy => (kb y hy).2)
    rw [← kl]
    exact ⟨ys, k1, this.1, this.2⟩
  refine ⟨hw, _, by rw [List.length_map]; exact hs.1, ?_, ?_, g4⟩
  · intro x hx
    obtain ⟨t, ht⟩ := List.getElem?_of_mem hx
    obtain ⟨_, _, h, _⟩ := key t x ht
    exact h
  · intro t y ys hy hys
    obtain ⟨ys', k1, _, k2⟩ := key t y hy
    rw [column_unique hys k1]
    exact k2

omit [NumOps F32] in
theorem sixteen_eta : 16 * eta = (2 : ℝ)⁻¹ ^ 146 := by
  unfold eta
  rw [show (150 : Nat) = 146 + 4 by rfl, pow_add]
  norm_num

/-- One component of a vector that is written and loaded again -/
theorem undone_entry (hB : Binary32) {x y a : F32} {c : ℝ} {ys : List F32} (fx : Finite x) (bx : |val x| ≤ 2 ^ 40)
    (hcb : |c| ≤ 2 ^ 40) (cb : ∀ y ∈ ys, Finite y ∧ |val y| ≤ 2 ^ 40) (hl : ys.length < 2 ^ 19)
    (ha : (c = 1 ∧ a = NumOps.mul x (NumOps.ofNat (ys.length + 1))) ∨
      ∃ n : F32, F32.Finite n ∧ c = val n ∧ a = NumOps.mul (NumOps.mul x (NumOps.ofNat (ys.length + 1))) n)
    (hy : y = NumOps.div (numSum (NumOps.sub a (numSum ys) :: ys)) (NumOps.ofNat (ys.length + 1))) :
    Finite y ∧ |val y - val x * c| ≤ 4 * (ys.length + 3) * 2⁻¹ ^ 24 *
      (|val x * c| + (ys.map fun y => |val y|).sum / (ys.length + 1)) + 2⁻¹ ^ 146 * (1 + |c|) := by
  obtain ⟨_, f1, f2⟩ := undone_b32 hB ys fx bx hcb (fun y hy => (cb y hy).1) hl (fun y hy => (cb y hy).2) ha
  rw [← hy] at f1 f2
  refine ⟨f1, f2.trans (le_of_eq ?_)⟩
  rw [sixteen_eta, show 4 * ((ys.length + 3) * uu) = 4 * ((ys.length : ℝ) + 3) * 2⁻¹ ^ 24 by unfold uu; ring]

theorem undone_row (hB : Binary32) {e : Embeddings F32} {cols i : Nat} {is : List Nat} {sel : List (List F32)}
    {row v s s' mean : List F32} {c : ℝ} (hrl : row.length = cols) (hsl : sel.length = is.length)
    (b1 : IsSum cols (v :: sel) s')
    (b2 : mean = s'.map fun x => NumOps.div x (NumOps.ofNat (v :: sel).length)) (a4 : IsSum cols sel s)
    (a6 : ∀ (t : Nat) x y, row[t]? = some x → s[t]? = some y →
      match e.norms with
      | none => v[t]? = some (NumOps.sub (NumOps.mul x (NumOps.ofNat (is.length + 1))) y)
      | some ns => ∃ c, ns[i]? = some c ∧
          v[t]? = some (NumOps.sub (NumOps.mul (NumOps.mul x (NumOps.ofNat (is.length + 1))) c) y))
    (hsc : Scale e i c) (hcb : |c| ≤ 2 ^ 40) (hbel : Below (2 ^ 40) (row :: sel)) (hlen : is.length < 2 ^ 19)
    (t : Nat) (y : F32) (hy : mean[t]? = some y) :
    ∃ (x : F32) (ys : List F32), row[t]? = some x ∧ sel.map (fun r => r[t]?) = ys.map some ∧ Finite y ∧
      |val y - val x * c| ≤ 4 * (is.length + 3) * 2⁻¹ ^ 24 *
        (|val x * c| + (ys.map fun y => |val y|).sum / (is.length + 1)) + 2⁻¹ ^ 146 * (1 + |c|) := by
  have hml : mean.length = cols := by rw [b2, List.length_map]; exact b1.1
  have ht : t < cols := by rw [← hml]; exact (List.getElem?_eq_some_iff.mp hy).1
  obtain ⟨ys, c1, c2⟩ := a4.2 t ht
  obtain ⟨ys', d1, d2⟩ := b1.2 t ht
  have hx := List.getElem?_eq_getElem (l := row) (i := t) (by omega)
  generalize row[t]'(by omega) = x at hx
  have hvt := a6 t x _ hx c2
  rw [List.map_cons, c1] at d1
  have hys' : ∀ z, v[t]? = some z → ys' = z :: ys := by
    intro z hz
    rw [hz, ← List.map_cons] at d1
    exact (List.map_injective_iff.mpr (Option.some_injective _) d1).symm
  have hb : Below (2 ^ 40) sel := fun r hr => hbel r (List.mem_cons_of_mem _ hr)
  have cb := column_below hb c1
  have cl : ys.length = is.length := (column_length c1).trans hsl
  obtain ⟨fx, bx⟩ := hbel row List.mem_cons_self x (List.mem_of_getElem? hx)
  have fin : ∀ a, v[t]? = some (NumOps.sub a (numSum ys)) →
      y = NumOps.div (numSum (NumOps.sub a (numSum ys) :: ys)) (NumOps.ofNat (ys.length + 1)) := by
    intro a hv
    rw [b2, List.getElem?_map, d2, hys' _ hv, List.length_cons, hsl, ← cl] at hy
    exact (Option.some.inj hy).symm
  rw [← cl] at hvt ⊢
  rw [← cl] at hlen
  refine ⟨x, ys, hx, c1, ?_⟩
  unfold Scale at hsc
  cases hno : e.norms with
  | none =>
    rw [hno] at hvt hsc
    exact undone_entry hB fx bx hcb cb hlen (Or.inl ⟨hsc, rfl⟩) (fin _ hvt)
  | some ns =>
    rw [hno] at hvt hsc
    obtain ⟨n, hn1, hvt⟩ := hvt
    obtain ⟨n', hn2, hfn, hcn⟩ := hsc
    rw [hn1] at hn2
    cases hn2
    exact undone_entry hB fx bx hcb cb hlen (Or.inr ⟨n, hfn, hcn, rfl⟩) (fin _ hvt)

/-- Embeddings that are written as a fastText file and loaded again: same words, same rows for the n-grams; the
vector of a word is the old one up to rounding, relative to the old one and to the rows of its n-grams. -/
theorem C70_round_trip_partial (hB : Binary32) (e : Embeddings F32) (he : BuiltEmb e) (ix : FtIndexer) (m : Mat F32)
    (hsub : e.vocab.sub = some (.ft ix)) (hst : e.storage = .nd m)
    (hn : e.vocab.words.length < 2 ^ 63) (hnul : ∀ w ∈ e.vocab.words, ∀ c ∈ w, c.val ≠ 0)
    (bs : Bytes) (hw : (writeFasttext e).file = (.ok (), bs)) (lossy : Bool) :
    ∃ (e' : Embeddings F32) (rows : List (List F32)), Rd.run (loadFasttext lossy) bs = .ok e' ∧ BuiltEmb e' ∧
      e'.vocab = e.vocab ∧ e'.storage = .nd ⟨m.cols, rows⟩ ∧
      (∀ j : Nat, e.vocab.words.length ≤ j → rows[j]? = m.rows[j]?) ∧
      ∀ (i : Nat) w row c is sel, e.vocab.words[i]? = some w → m.rows[i]? = some row → Scale e i c →
        FtSubwords ix e.vocab.words.length w is → List.Forall₂ (fun j r => m.rows[j]? = some r) is sel →
        |c| ≤ 2 ^ 40 → Below (2 ^ 40) (row :: sel) → is.length < 2 ^ 19 →
        ∃ mean : List F32, mean.length = m.cols ∧ (∀ x ∈ mean, Finite x) ∧
          (∀ (t : Nat) (x y : F32) (ys : List F32), row[t]? = some x → mean[t]? = some y →
            sel.map (fun r => r[t]?) = ys.map some →
            |val y - val x * c| ≤ 4 * (is.length + 3) * 2⁻¹ ^ 24 *
              (|val x * c| + (ys.map fun y => |val y|).sum / (is.length + 1)) + 2⁻¹ ^ 146 * (1 + |c|)) ∧
          (NormInRange mean (NumOps.normAxis mean) → Faithful e' i mean) := by
  have hf : FtEmb e ix m := ⟨he, hsub, hst, hn⟩
  obtain ⟨vs, h1, h2, h3, h4, h5⟩ := writeFasttext_inv hf hw
  have hc : ∀ v ∈ vs, v.length = m.cols := by
    intro v hv
    obtain ⟨i, hi, rfl⟩ := List.getElem_of_mem hv
    obtain ⟨_, _, _, _, _, _, _, _, h, _⟩ := h3 i _ _
      (List.getElem?_eq_getElem (by omega)) (List.getElem?_eq_getElem hi)
    exact h
  rw [h4] at h5
  have hok := ftExportOf_ok hf h2 hnul h1 hc h5
  obtain ⟨e', g1, g2, g3, g4, g5, rows, norms, g6, g7, g8, g9, g10, g11⟩ :=
    loadFasttext_ok (K := F32) hok lossy
  have hid : ∀ rs : List (List F32), (bitRows rs).map (fun r => r.map (Codec.ofBits : F32 → F32)) = rs := by
    intro rs
    unfold bitRows
    rw [List.map_map]
    conv => rhs; rw [← List.map_id rs]
    apply List.map_congr_left
    intro r _
    show (r.map (fun x => x)).map (fun x => x) = r
    rw [List.map_id', List.map_id']
  have hraw : ((ftExportOf ix e m vs).raw : List (List F32)) = vs ++ m.rows.drop e.vocab.words.length := by
    unfold FtFile.raw
    show (bitRows vs ++ bitRows (m.rows.drop e.vocab.words.length)).map _ = _
    rw [List.map_append, hid, hid]
  have hfw : (ftExportOf ix e m vs).words.map Prod.fst = e.vocab.words := by
    show (e.vocab.words.map fun w => (w, (0 : Int))).map Prod.fst = _
    rw [List.map_map]
    exact List.map_id _
  have hfl : (ftExportOf ix e m vs).words.length = e.vocab.words.length := by
    rw [← hfw, List.length_map]
  rw [hraw, hfl] at g10
  rw [hraw, hfl, hfw] at g11
  obtain ⟨e'', k1, _, k2, _⟩ := C42_vocab e he ix m hsub hst hn hnul bs hw lossy
  rw [h4, g1] at k1
  have k1 := Except.ok.inj k1
  subst k1
  refine ⟨e', rows, by rw [h4]; exact g1, g4, k2, g6, ?_, ?_⟩
  · intro j hj
    have hv' : vs.length ≤ j := h1.trans_le hj
    rw [g10 j hj, List.getElem?_append_right hv', List.getElem?_drop, h1, Nat.add_sub_cancel' hj]
  intro i w row c is sel hwi hrow hsc hsubw hsel hcb hbel hlen
  have hi := (List.getElem?_eq_some_iff.mp hwi).1
  obtain ⟨is', sel', mean, l1, l2, l3, l4, l5⟩ := g11 i w hwi
  obtain rfl := ftSubwords_unique hsubw l1
  obtain ⟨v, hvi⟩ : ∃ v, vs[i]? = some v := ⟨_, List.getElem?_eq_getElem (h1.symm ▸ hi)⟩
  obtain ⟨is', row', sw, s, a1, a2, a3, a4, a5, a6⟩ := h3 i w v hwi hvi
  obtain rfl := ftSubwords_unique hsubw a1
  rw [hrow] at a2
  cases a2
  obtain rfl := forall₂_get_unique hsel a3
  have hrl : row.length = m.cols := hf.wf _ (List.mem_of_getElem? hrow)
  cases l2 with
  | cons hd tl =>
    rename_i v' sw'
    rw [List.getElem?_append_left (h1.symm ▸ hi), hvi] at hd
    cases hd
    have hbound : ∀ j ∈ is, e.vocab.words.length ≤ j := by
      obtain ⟨gs, _, hg⟩ := hsubw
      intro j hj
      obtain ⟨k, hk, rfl⟩ := List.getElem_of_mem hj
      obtain ⟨c, _, hc⟩ := (List.forall₂_iff_get.mp hg).2 k (by rw [hg.length_eq]; exact hk) hk
      have : is[k] = e.vocab.words.length + c := hc
      rw [this]
      exact Nat.le_add_right _ _
    have htl : List.Forall₂ (fun j r => m.rows[j]? = some r) is sw' := by
      refine forall₂_imp_mem tl ?_
      intro j r hj hr
      have := hbound j hj
      rwa [List.getElem?_append_right (h1.trans_le this), List.getElem?_drop, h1, Nat.add_sub_cancel' this] at hr
    obtain rfl := forall₂_get_unique hsel htl
    have hsl : sel.length = is.length := hsel.length_eq.symm
    obtain ⟨s', b1, b2⟩ := l3
    have hml : mean.length = m.cols := by rw [b2, List.length_map]; exact b1.1
    have key := undone_row hB hrl hsl b1 b2 a4 (fun t x y hx hy => by
      have := a6 t x y hx hy
      revert this
      cases e.norms <;> exact id) hsc hcb hbel hlen
    refine ⟨mean, hml, ?_, ?_, fun hm => faithful_core hB g6 l5 g7 l4 hm⟩
    · intro x hx
      obtain ⟨t, ht⟩ := List.getElem?_of_mem hx
      obtain ⟨_, _, _, _, h, _⟩ := key t x ht
      exact h
    · intro t x y ys hx hy hys
      obtain ⟨x', ys', k1, k2, _, k3⟩ := key t y hy
      rw [hx] at k1
      cases k1
      rw [column_unique hys k2]
      exact k3

omit [NumOps F32] in
/-- The component that dominates keeps the norm away from zero. -/
theorem dominant {y x a ε τ : ℝ} (h : |y - x| ≤ ε * (|x| + a) + τ) (hε : ε ≤ 1 / 3) (ha : 2 * (ε * a) ≤ |x|)
    (hτ : τ ≤ |x| / 100) : |x| / 8 ≤ |y| := by
  have h1 := abs_sub_abs_le_abs_sub x y
  rw [abs_sub_comm] at h1
  have h2 : ε * |x| ≤ 1 / 3 * |x| := mul_le_mul_of_nonneg_right hε (abs_nonneg x)
  have h3 : ε * (|x| + a) = ε * |x| + ε * a := by ring
  have := abs_nonneg x
  linarith

omit [NumOps F32] in
theorem bounded {y x a ε τ : ℝ} (h : |y - x| ≤ ε * (|x| + a) + τ) (hε0 : 0 ≤ ε) (hε : ε ≤ 1 / 3) (ha : a ≤ 2 ^ 50)
    (hx : |x| ≤ 2 ^ 50) (hτ : τ ≤ 1) : |y| ≤ 2 ^ 52 := by
  have h1 := abs_sub_abs_le_abs_sub y x
  have h2 : ε * (|x| + a) ≤ 1 / 3 * (2 ^ 50 + 2 ^ 50) := by
    calc ε * (|x| + a) ≤ ε * (2 ^ 50 + 2 ^ 50) := mul_le_mul_of_nonneg_left (by linarith) hε0
      _ ≤ _ := mul_le_mul_of_nonneg_right hε (by positivity)
  have : (2 : ℝ) ^ 52 = 4 * 2 ^ 50 := by norm_num
  have : (1 : ℝ) ≤ 1 / 100 * 2 ^ 50 := by norm_num
  linarith

omit [NumOps F32] in
theorem restored_error {u z y x a k c n : ℝ} (hu : 0 < u) (hu8 : u ≤ 1 / 1000) (ha : 0 ≤ a)
    (hε : 4 * (k + 3) * u ≤ 1 / 3) (hc : |c| ≤ 2 ^ 40) (hn : n ≤ 2 ^ 65)
    (h1 : |y - x| ≤ 4 * (k + 3) * u * (|x| + a) + 2⁻¹ ^ 146 * (1 + |c|))
    (h2 : |z - y| ≤ 3 * u * |y| + 2⁻¹ ^ 149 * (1 + n)) :
    |z - x| ≤ 4 * (k + 4) * u * (|x| + a) + 2⁻¹ ^ 82 := by
  have hx := abs_nonneg x
  have h3 := abs_sub_abs_le_abs_sub y x
  have h4 : 4 * (k + 3) * u * (|x| + a) ≤ 1 / 3 * (|x| + a) := mul_le_mul_of_nonneg_right hε (by linarith)
  have t1 : (2 : ℝ)⁻¹ ^ 146 * (1 + |c|) ≤ 2⁻¹ ^ 105 := by
    calc (2 : ℝ)⁻¹ ^ 146 * (1 + |c|) ≤ 2⁻¹ ^ 146 * (1 + 2 ^ 40) := mul_le_mul_of_nonneg_left (by linarith) (by positivity)
      _ ≤ 2⁻¹ ^ 105 := by norm_num
  have t2 : (2 : ℝ)⁻¹ ^ 149 * (1 + n) ≤ 2⁻¹ ^ 83 := by
    calc (2 : ℝ)⁻¹ ^ 149 * (1 + n) ≤ 2⁻¹ ^ 149 * (1 + 2 ^ 65) := mul_le_mul_of_nonneg_left (by linarith) (by positivity)
      _ ≤ 2⁻¹ ^ 83 := by norm_num
  have h5 : 3 * u * |y| ≤ 3 * u * (4 / 3 * (|x| + a) + 2⁻¹ ^ 105) := mul_le_mul_of_nonneg_left (by linarith) (by positivity)
  have h6 : 3 * u * (2 : ℝ)⁻¹ ^ 105 ≤ 2⁻¹ ^ 105 := by
    have : (0 : ℝ) < 2⁻¹ ^ 105 := by positivity
    calc 3 * u * (2 : ℝ)⁻¹ ^ 105 ≤ 1 * (2 : ℝ)⁻¹ ^ 105 := mul_le_mul_of_nonneg_right (by linarith) this.le
      _ = _ := one_mul _
  have h7 : (2 : ℝ)⁻¹ ^ 82 = 2 * 2⁻¹ ^ 83 := by norm_num
  have h8 : 2 * (2 : ℝ)⁻¹ ^ 105 ≤ 2⁻¹ ^ 83 := by norm_num
  have h9 := abs_add_le (z - y) (y - x)
  rw [sub_add_sub_cancel] at h9
  have h10 : 3 * u * (4 / 3 * (|x| + a) + 2⁻¹ ^ 105) = 4 * u * (|x| + a) + 3 * u * 2⁻¹ ^ 105 := by ring
  have h11 : 4 * (k + 4) * u * (|x| + a) = 4 * (k + 3) * u * (|x| + a) + 4 * u * (|x| + a) := by ring
  rw [h11, h7]
  rw [h10] at h5
  linarith

/-- If in some component the rows of the n-grams are not too large, in terms of the embeddings that are written:
norm and row of the word are right, and its vector is the old one. -/
theorem C70_words_partial (hB : Binary32) (e : Embeddings F32) (he : BuiltEmb e) (ix : FtIndexer) (m : Mat F32)
    (hsub : e.vocab.sub = some (.ft ix)) (hst : e.storage = .nd m)
    (hn : e.vocab.words.length < 2 ^ 63) (hnul : ∀ w ∈ e.vocab.words, ∀ c ∈ w, c.val ≠ 0) (hcols : m.cols ≤ 2 ^ 20)
    (bs : Bytes) (hw : (writeFasttext e).file = (.ok (), bs)) (lossy : Bool) :
    ∃ e' : Embeddings F32, Rd.run (loadFasttext lossy) bs = .ok e' ∧ e'.vocab = e.vocab ∧
      ∀ (i : Nat) w row c is sel, e.vocab.words[i]? = some w → m.rows[i]? = some row → Scale e i c →
        FtSubwords ix e.vocab.words.length w is → List.Forall₂ (fun j r => m.rows[j]? = some r) is sel →
        |c| ≤ 2 ^ 40 → Below (2 ^ 40) (row :: sel) → is.length < 2 ^ 19 → (∀ x ∈ row, |val x * c| ≤ 2 ^ 50) →
        (∃ (t : Nat) (x : F32) (ys : List F32), row[t]? = some x ∧ sel.map (fun r => r[t]?) = ys.map some ∧
          2⁻¹ ^ 50 ≤ |val x * c| ∧
          8 * (is.length + 3) * 2⁻¹ ^ 24 * ((ys.map fun y => |val y|).sum / (is.length + 1)) ≤ |val x * c|) →
        ∃ mean v : List F32, Faithful e' i mean ∧ Exported e' i v ∧ v.length = m.cols ∧ (∀ x ∈ v, Finite x) ∧
          ∀ (t : Nat) (x y : F32) (ys : List F32), row[t]? = some x → v[t]? = some y →
            sel.map (fun r => r[t]?) = ys.map some →
            |val y - val x * c| ≤ 4 * (is.length + 4) * 2⁻¹ ^ 24 *
              (|val x * c| + (ys.map fun y => |val y|).sum / (is.length + 1)) + 2⁻¹ ^ 82 := by
  obtain ⟨e', rows, h1, h2, h3, h4, h5, h6⟩ := C70_round_trip_partial hB e he ix m hsub hst hn hnul bs hw lossy
  refine ⟨e', h1, h3, fun i w row c is sel hwi hrow hsc hsubw hsel hcb hbel hlen hbig hdom => ?_⟩
  obtain ⟨mean, m1, m2, m3, m4⟩ := h6 i w row c is sel hwi hrow hsc hsubw hsel hcb hbel hlen
  have hwf : m.WF := (⟨he, hsub, hst, hn⟩ : FtEmb e ix m).wf
  have hrl : row.length = m.cols := hwf _ (List.mem_of_getElem? hrow)
  have hsl : ∀ r ∈ sel, r.length = m.cols := by
    intro r hr
    obtain ⟨k, hk, rfl⟩ := List.getElem_of_mem hr
    have := (List.forall₂_iff_get.mp hsel).2 k (by rw [hsel.length_eq]; exact hk) hk
    exact hwf _ (List.mem_of_getElem? this)
  have hk : ((is.length : Nat) : ℝ) ≤ 2 ^ 19 := by exact_mod_cast hlen.le
  have hk0 : (0 : ℝ) ≤ is.length := Nat.cast_nonneg _
  have hε : 4 * ((is.length : ℝ) + 3) * 2⁻¹ ^ 24 ≤ 1 / 3 := by
    calc 4 * ((is.length : ℝ) + 3) * 2⁻¹ ^ 24 ≤ 4 * (2 ^ 19 + 3) * 2⁻¹ ^ 24 :=
          mul_le_mul_of_nonneg_right (by linarith) (by positivity)
      _ ≤ _ := by norm_num
  have hε0 : 0 ≤ 4 * ((is.length : ℝ) + 3) * 2⁻¹ ^ 24 := by positivity
  have hτ : (2 : ℝ)⁻¹ ^ 146 * (1 + |c|) ≤ 2⁻¹ ^ 105 := by
    calc (2 : ℝ)⁻¹ ^ 146 * (1 + |c|) ≤ 2⁻¹ ^ 146 * (1 + 2 ^ 40) := mul_le_mul_of_nonneg_left (by linarith) (by positivity)
      _ ≤ 2⁻¹ ^ 105 := by norm_num
  have hbs : Below (2 ^ 40) sel := fun r hr => hbel r (List.mem_cons_of_mem _ hr)
  have havg : ∀ (t : Nat) (ys : List F32), sel.map (fun r => r[t]?) = ys.map some →
      0 ≤ (ys.map fun y => |val y|).sum / (is.length + 1 : ℝ) ∧
      (ys.map fun y => |val y|).sum / (is.length + 1 : ℝ) ≤ 2 ^ 50 := by
    intro t ys hy
    have hl : ys.length = is.length := (column_length hy).trans hsel.length_eq.symm
    have hab : absSum (ys.map val) = (ys.map fun y => |val y|).sum := by simp [absSum, Function.comp_def]
    have hA : absSum (ys.map val) ≤ ys.length * 2 ^ 40 := by
      have := absSum_le_mul (xs := ys.map val) (B := 2 ^ 40) (by
        intro y hy'
        obtain ⟨z, hz, rfl⟩ := List.mem_map.mp hy'
        exact (column_below hbs hy z hz).2)
      rwa [List.length_map] at this
    have hA0 := absSum_nonneg (ys.map val)
    rw [← hab]
    rw [hl] at hA
    refine ⟨by positivity, ?_⟩
    rw [div_le_iff₀ (by positivity)]
    calc absSum (ys.map val) ≤ is.length * 2 ^ 40 := hA
      _ ≤ 2 ^ 50 * is.length := by
        rw [mul_comm]
        exact mul_le_mul_of_nonneg_right (by norm_num) hk0
      _ ≤ 2 ^ 50 * (is.length + 1) := mul_le_mul_of_nonneg_left (by linarith) (by positivity)
  have hmod : Moderate mean := by
    refine (C66_range hB mean).2 ?_ ?_ (by rw [m1]; exact hcols)
    · intro y hy
      refine ⟨m2 y hy, ?_⟩
      obtain ⟨t, ht⟩ := List.getElem?_of_mem hy
      have htc : t < m.cols := by rw [← m1]; exact (List.getElem?_eq_some_iff.mp ht).1
      obtain ⟨ys, hys⟩ := column hsl htc
      have hx := List.getElem?_eq_getElem (l := row) (i := t) (by rw [hrl]; exact htc)
      exact bounded (m3 t _ y ys hx ht hys) hε0 hε (havg t ys hys).2 (hbig _ (List.mem_of_getElem? hx))
        (hτ.trans (pow_le_one₀ (by norm_num) (by norm_num)))
    · obtain ⟨t, x, ys, hx, hys, hlo, hdo⟩ := hdom
      have htc : t < m.cols := by rw [← hrl]; exact (List.getElem?_eq_some_iff.mp hx).1
      have ht := List.getElem?_eq_getElem (l := mean) (i := t) (by rw [m1]; exact htc)
      refine ⟨_, List.mem_of_getElem? ht, ?_⟩
      have := dominant (m3 t x _ ys hx ht hys) hε (le_of_eq_of_le (by ring) hdo) (hτ.trans (by
        calc (2 : ℝ)⁻¹ ^ 105 ≤ 2⁻¹ ^ 50 / 100 := by norm_num
          _ ≤ _ := div_le_div_of_nonneg_right hlo (by norm_num)))
      refine le_trans ?_ this
      calc (2 : ℝ)⁻¹ ^ 59 ≤ 2⁻¹ ^ 50 / 8 := by norm_num
        _ ≤ _ := div_le_div_of_nonneg_right hlo (by norm_num)
  have hin := ((C66_range hB mean).1 hmod).1
  have hF := m4 hin
  obtain ⟨d, hd, hnd⟩ := normAxis_b32 hB hin
  have hF' := hF
  obtain ⟨row', n, ns, v, f1, f2, f3, f4, f5, f6, f7, f8, f9, f10, f11, f12, f13, f14⟩ := hF'
  refine ⟨mean, v, hF, f11, by rw [f12, m1], f13, fun t x y ys hx hy hys => ?_⟩
  have htc : t < m.cols := by rw [← hrl]; exact (List.getElem?_eq_some_iff.mp hx).1
  have ht := List.getElem?_eq_getElem (l := mean) (i := t) (by rw [m1]; exact htc)
  have hn65 : val n ≤ 2 ^ 65 := by
    have hL : exactLen (mean.map val) ≤ 2 ^ 62 := hmod.high
    have hc1 : ((mean.length : ℝ) + 8) * 2⁻¹ ^ 24 ≤ 1 := by
      have : (mean.length : ℝ) ≤ 2 ^ 20 := by rw [m1]; exact_mod_cast hcols
      calc ((mean.length : ℝ) + 8) * 2⁻¹ ^ 24 ≤ (2 ^ 20 + 8) * 2⁻¹ ^ 24 :=
            mul_le_mul_of_nonneg_right (by linarith) (by positivity)
        _ ≤ 1 := by norm_num
    have hL0 : 0 ≤ exactLen (mean.map val) := Real.sqrt_nonneg _
    have h7 := (abs_le.mp f6).2
    have h8 : ((mean.length : ℝ) + 8) * 2⁻¹ ^ 24 * exactLen (mean.map val) ≤ 1 * exactLen (mean.map val) :=
      mul_le_mul_of_nonneg_right hc1 hL0
    have : (2 : ℝ) ^ 65 = 8 * 2 ^ 62 := by norm_num
    have : (0 : ℝ) < 2 ^ 62 := by positivity
    linarith
  exact restored_error (by positivity) (by norm_num) (havg t ys hys).1 hε hcb hn65 (m3 t x _ ys hx ht hys)
    (f14 t _ y ht hy)

end

/-! ### Large n-grams -/

theorem val_huge : F32.Finite 0x4E800000 ∧ val 0x4E800000 = 2 ^ 30 := by
  have h1 : ex 0x4E800000 = 157 := by decide
  have h2 : fr 0x4E800000 = 0 := by decide
  have h3 : sgn 0x4E800000 = 0 := by decide
  refine ⟨by unfold F32.Finite; rw [h1]; decide, ?_⟩
  unfold val
  rw [h1, h2, h3]
  norm_num

namespace Sample

/-- One word with vector 3 · 4 and one n-gram with vector 2³⁰ -/
def cancelMat : Mat F32 := ⟨1, [[0x40400000], [0x4E800000]]⟩
def cancelEmb : Embeddings F32 := ⟨.nd cancelMat, ftVocab1, some [0x40800000], none⟩

theorem builtCancel : BuiltEmb cancelEmb :=
  ⟨⟨by intro ix h; cases h; exact .ft (b := 1) (mn := 3) (mx := 3) (by decide), by decide⟩,
    by unfold cancelEmb cancelMat StorageWF Mat.WF ShapeOk; decide, rfl⟩

theorem cancelBelow : Below (2 ^ 40) cancelMat.rows := by
  intro r hr x hx
  simp only [cancelMat, List.mem_cons, List.not_mem_nil, or_false] at hr
  rcases hr with rfl | rfl
  · rw [List.mem_singleton] at hx
    subst hx
    refine ⟨val_three.1, ?_⟩
    rw [val_three.2]
    norm_num
  · rw [List.mem_singleton] at hx
    subst hx
    refine ⟨val_huge.1, ?_⟩
    rw [val_huge.2, abs_of_pos (by positivity)]
    norm_num

theorem lit_eq {a b : F32} (c : F32) (h : Same a b) (hb : b = c) (hc : B32.isNaN c = false) : a = c := by
  subst hb
  exact h.eq fun hn => by rw [isNaN_iff.mpr hn] at hc; cases hc

/-- 3 · 2 · 4 - 2³⁰ is computed as -2³⁰. -/
theorem cancelRaw [NumOps F32] (hB : Binary32) :
    FtRaw ⟨1, 3, 3⟩ 1 cancelMat (some [0x40800000]) 0 [97] [0xCE800000] := by
  refine ⟨[1], [0x40400000], [[0x4E800000]], [0x4E800000], ftSub1, rfl, .cons rfl .nil, ⟨rfl, ?_⟩, rfl, ?_⟩
  · intro t ht
    have : t = 0 := by have : t < 1 := ht; omega
    subst this
    exact ⟨[0x4E800000], rfl, rfl⟩
  · intro t x y hx hy
    have ht : t = 0 := by
      have := (List.getElem?_eq_some_iff.mp hx).1
      have : t < 1 := this
      omega
    subst ht
    cases hx
    cases hy
    refine ⟨0x40800000, rfl, ?_⟩
    show some _ = some _
    congr 1
    have e1 : (NumOps.ofNat 2 : F32) = 0x40000000 := by rw [hB.ofNat]; decide +kernel
    show 0xCE800000 = NumOps.sub (NumOps.mul (NumOps.mul 0x40400000 (NumOps.ofNat 2)) 0x40800000) 0x4E800000
    rw [e1, lit_eq 0x40C00000 (hB.mul 0x40400000 0x40000000) (by decide +kernel) (by decide),
      lit_eq 0x41C00000 (hB.mul 0x40C00000 0x40800000) (by decide +kernel) (by decide),
      lit_eq 0xCE800000 (hB.sub _ _) (by decide +kernel) (by decide)]

end Sample

open Sample in
/-- The error is not small relative to the vector alone, not even finite: the vector 3 · 4 of a word whose n-gram has
the vector 2³⁰ is loaded as NaN. -/
theorem C70_cancel_refuted [NumOps F32] (hB : Binary32) :
    ∃ (e : Embeddings F32) (ix : FtIndexer) (m : Mat F32) (bs : Bytes), BuiltEmb e ∧ e.vocab.sub = some (.ft ix) ∧
      e.storage = .nd m ∧ Below (2 ^ 40) m.rows ∧ Scale e 0 4 ∧
      (∃ row, m.rows[0]? = some row ∧ row.map val = [3]) ∧ (writeFasttext e).file = (.ok (), bs) ∧
      ∀ lossy, ∃ (e' : Embeddings F32) (row : List F32), Rd.run (loadFasttext lossy) bs = .ok e' ∧
        StoredRow e'.storage 0 row ∧ row.length = 1 ∧ ∀ x ∈ row, NaN x := by
  have hnul : ∀ w ∈ cancelEmb.vocab.words, ∀ c ∈ w, c.val ≠ 0 := by
    intro w hw c hc
    simp only [cancelEmb, ftVocab1, List.mem_singleton] at hw
    subst hw
    rw [List.mem_singleton] at hc
    subst hc
    decide
  have hf : FtEmb cancelEmb ⟨1, 3, 3⟩ cancelMat := ⟨builtCancel, rfl, rfl, by decide⟩
  obtain ⟨vs, h1, h2, h3⟩ := C42_write_succeeds cancelEmb builtCancel ⟨1, 3, 3⟩ cancelMat rfl rfl (by decide)
    (by decide) (by decide) (by decide) (by
      intro w hw c hc
      simp only [cancelEmb, ftVocab1, List.mem_singleton] at hw
      subst hw
      rw [List.mem_singleton] at hc
      subst hc
      decide)
  have hvs : vs = [[0xCE800000]] := by
    obtain ⟨v, rfl⟩ := List.length_eq_one_iff.mp h1
    rw [ftRaw_unique hf.wf (h2 0 [97] v rfl rfl) (cancelRaw hB)]
  subst hvs
  have h3 := h3 (by
    rw [ftBytes_length]
    decide)
  refine ⟨cancelEmb, _, cancelMat, _, builtCancel, rfl, rfl, cancelBelow, ⟨_, rfl, val_four.1, val_four.2.symm⟩,
    ⟨_, rfl, by rw [List.map_singleton, val_three.2]⟩, h3, fun lossy => ?_⟩
  obtain ⟨_, _, hz, _, _, hlt⟩ := writeFasttext_inv hf h3
  obtain ⟨e', g1, g2, g3, g4, g5, rows, norms, g6, g7, g8, g9, g10, g11⟩ :=
    loadFasttext_ok (K := F32) (ftExportOf_ok hf hz hnul (vs := [[0xCE800000]]) rfl (by decide) hlt) lossy
  obtain ⟨is, sel, mean, l1, l2, l3, l4, l5⟩ := g11 0 [97] rfl
  obtain rfl := ftSubwords_unique ftSub1 l1
  have hsel : sel = [[0xCE800000], [0x4E800000]] :=
    forall₂_get_unique l2 (.cons rfl (.cons rfl .nil))
  subst hsel
  have hmean : mean = [0] := by
    obtain ⟨s, hs, rfl⟩ := l3
    have hl : s.length = 1 := hs.1
    obtain ⟨x, rfl⟩ := List.length_eq_one_iff.mp hl
    obtain ⟨ys, k1, k2⟩ := hs.2 0 (by decide)
    have hys : ys = [0xCE800000, 0x4E800000] :=
      (List.map_injective_iff.mpr (Option.some_injective _) k1).symm
    subst hys
    have hx : x = NumOps.add 0xCE800000 0x4E800000 := Option.some.inj k2
    have e1 : (NumOps.ofNat 2 : F32) = 0x40000000 := by rw [hB.ofNat]; decide +kernel
    show [NumOps.div x (NumOps.ofNat 2)] = [0]
    rw [hx, e1, lit_eq 0 (hB.add _ _) (by decide +kernel) (by decide),
      lit_eq 0 (hB.div _ _) (by decide +kernel) (by decide)]
  subst hmean
  obtain ⟨d, hd, hs⟩ := hB.normAxis [0]
  obtain ⟨hdf, hd0⟩ := hd.underflow (fun p hp => by
    have : p = (0, 0) := by simpa using hp
    subst this
    exact ⟨finite_zero, rfl, by rw [val_zero, abs_zero]; positivity⟩)
  rw [sqrt_zero_b32 hdf hd0] at hs
  have hn := hs.eq hdf.not_nan
  refine ⟨e', _, g1, by rw [g6]; exact l5, rfl, fun x hx => ?_⟩
  have : x = NumOps.div 0 (NumOps.normAxis [0]) := by simpa using hx
  rw [this, hn]
  exact (hB.div 0 d).nan ((div_zero_b32 finite_zero hdf hd0).2 val_zero)

/-! ### Concrete cases -/

namespace Sample

theorem below34 {rs : List (List F32)} (h : ∀ r ∈ rs, ∀ x ∈ r, x = 0x40400000 ∨ x = 0x40800000) {B : ℝ}
    (hB : 4 ≤ B) : Below B rs := by
  intro r hr x hx
  rcases h r hr x hx with rfl | rfl
  · refine ⟨val_three.1, ?_⟩
    rw [val_three.2, abs_of_pos (by norm_num)]
    linarith
  · refine ⟨val_four.1, ?_⟩
    rw [val_four.2, abs_of_pos (by norm_num)]
    linarith

/-- `C70_load`: the mean of the two equal rows (3, 4) -/
example : ∃ (e : Embeddings F32) (mean : List F32), Rd.run (@loadFasttext F32 b32Ops _ false) ftFile34.bytes = .ok e ∧
    e.vocab.words[0]? = some [97] ∧ ∀ y, mean[0]? = some y → |val y - 3| ≤ 2⁻¹ ^ 20 := by
  obtain ⟨e, h1, h2⟩ := @C70_load b32Ops binary32_b32 ftFile34 ftFile34_ok false
  obtain ⟨h3, mean, h4, h5, h6, h7⟩ := h2 0 ([97], 7) [1] [[0x40400000, 0x40800000], [0x40400000, 0x40800000]] rfl
    ftSub1 (.cons rfl (.cons rfl .nil)) (by decide) (below34 (by decide) (by norm_num))
  refine ⟨e, mean, h1, h3, fun y hy => (h6 0 y [0x40400000, 0x40400000] hy rfl |> fun h => ?_)⟩
  simp only [List.map_cons, List.map_nil, List.sum_cons, List.sum_nil, val_three.2, List.length_cons,
    List.length_nil] at h
  norm_num at h ⊢
  linarith

/-- A word with the vector (3, 4) · 3 and one n-gram with the vector (4, 3) -/
def fortyMat : Mat F32 := ⟨2, [[0x40400000, 0x40800000], [0x40800000, 0x40400000]]⟩
def fortyEmb : Embeddings F32 := ⟨.nd fortyMat, ftVocab1, some [0x40400000], none⟩

theorem builtForty : BuiltEmb fortyEmb :=
  ⟨⟨by intro ix h; cases h; exact .ft (b := 1) (mn := 3) (mx := 3) (by decide), by decide⟩,
    by unfold fortyEmb fortyMat StorageWF Mat.WF ShapeOk; decide, rfl⟩

theorem fortyWritten : ((@writeFasttext F32 b32Ops _ fortyEmb).file).1 = .ok () := by
  decide +kernel

/-- `C70_words_partial` and, through it, `C70_round_trip_partial`: (9, 12) comes back. -/
example : ∃ (bs : Bytes) (e' : Embeddings F32) (v : List F32), (@writeFasttext F32 b32Ops _ fortyEmb).file = (.ok (), bs) ∧
    Rd.run (@loadFasttext F32 b32Ops _ false) bs = .ok e' ∧ @Exported F32 b32Ops e' 0 v ∧ v.length = 2 ∧
    ∀ y, v[0]? = some y → |val y - 9| ≤ 2⁻¹ ^ 15 := by
  obtain ⟨r, hr⟩ : ∃ r, (@writeFasttext F32 b32Ops _ fortyEmb).file = r := ⟨_, rfl⟩
  have hw : (@writeFasttext F32 b32Ops _ fortyEmb).file = (.ok (), r.2) := by
    have := fortyWritten
    rw [hr] at this ⊢
    exact Prod.ext this rfl
  obtain ⟨e', h1, h2, h3⟩ := @C70_words_partial b32Ops binary32_b32 fortyEmb builtForty ⟨1, 3, 3⟩ fortyMat rfl rfl (by decide)
    (by
      intro w hw c hc
      simp only [fortyEmb, ftVocab1, List.mem_singleton] at hw
      subst hw
      rw [List.mem_singleton] at hc
      subst hc
      decide) (by decide) r.2 hw false
  obtain ⟨mean, v, g1, g2, g3, g4, g5⟩ := h3 0 [97] [0x40400000, 0x40800000] 3 [1] [[0x40800000, 0x40400000]] rfl rfl
    ⟨_, rfl, val_three.1, val_three.2.symm⟩ ftSub1 (.cons rfl .nil) (by norm_num) (below34 (by decide) (by norm_num))
    (by decide) (by
      intro x hx
      have : x = 0x40400000 ∨ x = 0x40800000 := by simpa using hx
      rcases this with rfl | rfl
      · rw [val_three.2]; norm_num
      · rw [val_four.2]; norm_num)
    ⟨0, _, [0x40800000], rfl, rfl, by rw [val_three.2]; norm_num, by
      simp only [List.map_cons, List.map_nil, List.sum_cons, List.sum_nil, val_three.2, val_four.2, List.length_cons,
        List.length_nil]
      norm_num⟩
  refine ⟨r.2, e', v, hw, h1, g2, g3, fun y hy => ?_⟩
  have h := g5 0 0x40400000 y [0x40800000] rfl hy rfl
  simp only [List.map_cons, List.map_nil, List.sum_cons, List.sum_nil, val_three.2, val_four.2, List.length_cons,
    List.length_nil] at h
  norm_num at h ⊢
  linarith

end Sample

end FF
