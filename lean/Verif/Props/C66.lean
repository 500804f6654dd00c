import Verif.Lemmas.Float32Sum
import Verif.Lemmas.FloatUnique
import Verif.Props.C58
/-!
# C66: loaded embeddings in float32 arithmetic

With the operations of IEEE 754 binary32 on bit patterns (`Binary32`), sums in any order, with and without
fused operations: the operations are correctly rounded; if the computed norm of a finite vector is finite and at
least `2⁻⁶⁰`, its row has length one, its norm is right and the exporters restore it, up to explicit errors, and
nothing is infinite or NaN.  Lengths between `2⁻⁵⁹` and `2⁶²` are enough for that.  Outside of such a range this
fails: if the norm is infinite, the row is zero, if it is zero, the row is infinite, and the exporters write NaN;
the former always happens to vectors with a component of `2⁶⁴` and to vectors of length `2⁶⁵`, the latter to
vectors with components of at most `2⁻⁷⁵`.
-/

namespace FF

open F32

section
variable [NumOps F32]

/-- Row `i` is finite and has length one, norm `i` is finite and the length of `v`, and the exporters restore
`v`, all up to rounding. -/
def Faithful (e : Embeddings F32) (i : Nat) (v : List F32) : Prop :=
  ∃ row n ns v', StoredRow e.storage i row ∧ e.norms = some ns ∧ ns[i]? = some n ∧
    Finite n ∧ 0 < val n ∧
    |val n - exactLen (v.map val)| ≤ (v.length + 8) * 2⁻¹ ^ 24 * exactLen (v.map val) ∧
    row.length = v.length ∧ (∀ x ∈ row, Finite x) ∧
    |exactLen (row.map val) - 1| ≤ (v.length + 8) * 2⁻¹ ^ 24 ∧
    (∀ (t : Nat) x y, v[t]? = some x → row[t]? = some y → RoundsTo (val x / val n) y) ∧
    Exported e i v' ∧ v'.length = v.length ∧ (∀ x ∈ v', Finite x) ∧
    ∀ (t : Nat) x y, v[t]? = some x → v'[t]? = some y →
      |val y - val x| ≤ 3 * 2⁻¹ ^ 24 * |val x| + 2⁻¹ ^ 149 * (1 + val n)

/-- Row and exported vector are of no use: norm `i` is infinite and row `i` zero, or norm `i` zero and row
`i` infinite or NaN; exported components are NaN. -/
def Lost (e : Embeddings F32) (i : Nat) (v : List F32) : Prop :=
  ∃ row n ns v', StoredRow e.storage i row ∧ e.norms = some ns ∧ ns[i]? = some n ∧ row.length = v.length ∧
    ((n = posInf ∧ ∀ x ∈ row, Finite x ∧ val x = 0) ∨
      (Finite n ∧ val n = 0 ∧ ∀ x ∈ row, x = posInf ∨ x = negInf ∨ NaN x)) ∧
    Exported e i v' ∧ v'.length = v.length ∧ ∀ x ∈ v', NaN x

/-- The operations are correctly rounded, the conversion of integers and the square root in norms too. -/
theorem C66_arith (hB : Binary32) (a b : F32) (ha : Finite a) (hb : Finite b) :
    RoundsTo (val a + val b) (NumOps.add a b) ∧ RoundsTo (val a - val b) (NumOps.sub a b) ∧
    RoundsTo (val a * val b) (NumOps.mul a b) ∧
    (val b ≠ 0 → RoundsTo (val a / val b) (NumOps.div a b)) ∧
    (val b = 0 → val a = 0 → NaN (NumOps.div a b)) ∧
    (val b = 0 → val a ≠ 0 → NumOps.div a b = posInf ∨ NumOps.div a b = negInf) ∧
    (∀ n : Nat, RoundsTo n (NumOps.ofNat n)) ∧ val (NumOps.zero : F32) = 0 ∧
    (0 ≤ val a → RoundsTo (Real.sqrt (val a)) (B32.sqrt a)) := by
  have key : ∀ {x y : F32} {r : ℝ}, Same x y → RoundsTo r y → RoundsTo r x := by
    intro x y r h h1
    rw [h.eq ?_]
    · exact h1
    · rcases h1 with ⟨_, h2, _⟩ | ⟨_, rfl⟩ | ⟨_, rfl⟩
      · exact h2.not_nan
      · exact posInf_not_nan
      · exact negInf_not_nan
  refine ⟨key (hB.add a b) (add_result ha hb).1.rounds, key (hB.sub a b) (sub_result ha hb).1.rounds,
    key (hB.mul a b) (mul_result ha hb).rounds, fun h => key (hB.div a b) (div_result ha hb h).rounds,
    fun h h0 => (hB.div a b).nan ((div_zero_b32 ha hb h).2 h0), fun h h0 => ?_, fun n => ?_, ?_,
    fun h => (sqrt_result ha h).rounds⟩
  · have := (div_zero_b32 ha hb h).1 h0
    rw [(hB.div a b).eq (by rcases this with h | h <;> rw [h]; exacts [posInf_not_nan, negInf_not_nan])]
    exact this
  · rw [hB.ofNat]
    exact (ofNat_result n).rounds
  · rw [hB.zero]
    exact val_zero

omit [NumOps F32] in
/-- Correct rounding leaves no choice but the sign of zero. -/
theorem C66_determined (x : ℝ) (a b : F32) (ha : RoundsTo x a) (hb : RoundsTo x b) :
    a = b ∨ (Finite a ∧ Finite b ∧ val a = 0 ∧ val b = 0) := B32.rounds_unique_zero ha hb

/-- Quotients of a vector by its norm are those of `B32`. -/
theorem div_forall₂ (hB : Binary32) {v : List F32} {n : F32}
    (hf : ∀ x ∈ v, ¬ NaN (B32.div x n)) :
    List.Forall₂ (fun x y => y = B32.div x n) v (v.map fun x => NumOps.div x n) := by
  rw [List.forall₂_map_right_iff, List.forall₂_same]
  exact fun x hx => (hB.div x n).eq (hf x hx)

theorem div_ranged (hB : Binary32) {v : List F32} {d : F32} (hv : Ranged v d) :
    List.Forall₂ (fun x y => y = B32.div x (B32.sqrt d)) v (v.map fun x => NumOps.div x (B32.sqrt d)) := by
  have hf := (unit_ranged hv (w := v.map fun x => B32.div x (B32.sqrt d)) (by
    rw [List.forall₂_map_right_iff, List.forall₂_same]
    exact fun x _ => rfl)).1
  exact div_forall₂ hB fun x hx => (hf _ (List.mem_map_of_mem hx)).not_nan

theorem faithful_core (hB : Binary32) {e : Embeddings F32} {i : Nat} {v ns : List F32} {c : Nat}
    {rows : List (List F32)} (hst : e.storage = .nd ⟨c, rows⟩)
    (hrow : rows[i]? = some (v.map fun x => NumOps.div x (NumOps.normAxis v)))
    (hns : e.norms = some ns) (hn : ns[i]? = some (NumOps.normAxis v))
    (hv : NormInRange v (NumOps.normAxis v)) : Faithful e i v := by
  obtain ⟨d, hv, hnd⟩ := normAxis_b32 hB hv
  rw [hnd] at hrow hn
  obtain ⟨h1, h2, h3, h4, h5⟩ := norm_ranged hv
  have hdm := div_ranged hB hv
  obtain ⟨g1, g2, g3⟩ := unit_ranged hv hdm
  have hpos : 0 < val (B32.sqrt d) := lt_of_lt_of_le (by positivity) h3
  have hs : StoredRow e.storage i (v.map fun x => NumOps.div x (B32.sqrt d)) := by
    rw [hst]; exact hrow
  have hdiv : ∀ x ∈ v, NumOps.div x (B32.sqrt d) = B32.div x (B32.sqrt d) := by
    intro x hx
    have hf := g1 _ (List.mem_map_of_mem (f := fun x => NumOps.div x (B32.sqrt d)) hx)
    rcases hB.div x (B32.sqrt d) with h | ⟨h, _⟩
    · exact h
    · exact absurd h hf.not_nan
  have hmul : ∀ x ∈ v, Finite (NumOps.mul (NumOps.div x (B32.sqrt d)) (B32.sqrt d)) ∧
      |val (NumOps.mul (NumOps.div x (B32.sqrt d)) (B32.sqrt d)) - val x| ≤
        3 * uu * |val x| + 2 * eta * (1 + val (B32.sqrt d)) := by
    intro x hx
    obtain ⟨k1, k2⟩ := restore_b32 (hv.fin x hx) h1 hpos h4 (abs_ratio_ranged hv hx)
    rw [hdiv x hx, (hB.mul (B32.div x (B32.sqrt d)) (B32.sqrt d)).eq k1.not_nan]
    exact ⟨k1, k2⟩
  refine ⟨_, _, ns, (v.map fun x => NumOps.div x (B32.sqrt d)).map fun x => NumOps.mul x (B32.sqrt d),
    hs, hns, hn, h1, hpos, ?_, by simp, g1, g3, ?_, ?_, by simp, ?_, ?_⟩
  · refine h5.trans (mul_le_mul_of_nonneg_right ?_ h2.le)
    have hu := uu_pos
    have : 0 ≤ (v.length : ℝ) * uu := by positivity
    change _ ≤ (v.length + 8) * uu
    linarith
  · intro t x y hx hy
    rw [List.getElem?_map, hx] at hy
    cases hy
    show RoundsTo _ (NumOps.div x (B32.sqrt d))
    rw [hdiv x (List.mem_of_getElem? hx)]
    exact (div_result (hv.fin x (List.mem_of_getElem? hx)) h1 hpos.ne').rounds
  · refine ⟨_, hs, ?_⟩
    rw [hns]
    refine ⟨_, hn, by simp, fun t x hx => ?_⟩
    rw [List.getElem?_map, hx]; rfl
  · intro y hy
    rw [List.map_map] at hy
    obtain ⟨x, hx, rfl⟩ := List.mem_map.mp hy
    exact (hmul x hx).1
  · intro t x y hx hy
    rw [List.getElem?_map, List.getElem?_map, hx] at hy
    cases hy
    refine (hmul x (List.mem_of_getElem? hx)).2.trans (le_of_eq ?_)
    unfold uu eta
    rw [pow_succ _ 149]
    ring

/-- What the loaders of unnormalised formats return is right up to rounding. -/
theorem C66_normalized_partial (hB : Binary32) (cols : Nat) (words : List PyStr) (vs : List (List F32))
    (e : Embeddings F32) (h : Normalized cols words vs e) (i : Nat) (v : List F32)
    (hv : vs[i]? = some v) (hm : NormInRange v (NumOps.normAxis v)) : Faithful e i v := by
  obtain ⟨_, _, _, _, h5, rows, h6, _, h7⟩ := h
  exact faithful_core hB h6 (h7 i v hv) h5 (by rw [List.getElem?_map, hv]; rfl) hm

/-- word2vec files. -/
theorem C66_word2vec_partial (hB : Binary32) (lossy : Bool) (cols : Nat)
    (rows : List (PyStr × List F32)) (hw : ∀ p ∈ rows, W2vWord p.1) (hl : ∀ p ∈ rows, p.2.length = cols)
    (hn : (rows.map Prod.fst).Nodup) (hs : ShapeOk rows.length cols) :
    ∃ e : Embeddings F32, Rd.run (loadWord2vec lossy) (w2vFile cols rows) = .ok e ∧
      ∀ (i : Nat) w r, rows[i]? = some (w, r) → NormInRange r (NumOps.normAxis r) →
        e.vocab.words[i]? = some w ∧ Faithful e i r := by
  obtain ⟨e, h1, hN⟩ := C38_load (K := F32) lossy cols rows hw hl hn hs
  refine ⟨e, h1, fun i w r hr hm => ⟨?_, C66_normalized_partial hB _ _ _ e hN i r ?_ hm⟩⟩
  · rw [hN.1, List.getElem?_map, hr]; rfl
  · rw [List.getElem?_map, hr]
    show some (r.map id) = some r
    rw [List.map_id]

/-- Text files, with and without dimensions. -/
theorem C66_text_partial [TextIO] [NumText F32] (hB : Binary32) (dims lossy : Bool) (sep : PyStr) (hs : TextSep sep)
    (cols : Nat) (rows : List (PyStr × List F32)) (h : TextRows cols rows) (hne : dims = false → rows ≠ []) :
    ∃ e : Embeddings F32, (if dims then loadTextDims lossy else loadText lossy)
        (utf8 (textFile dims sep cols (strRows rows))) = .ok e ∧
      ∀ (i : Nat) w v, rows[i]? = some (w, v) → NormInRange v (NumOps.normAxis v) →
        e.vocab.words[i]? = some w ∧ Faithful e i v := by
  have key : ∀ e, Normalized cols (rows.map Prod.fst) (rows.map Prod.snd) e →
      ∀ (i : Nat) w v, rows[i]? = some (w, v) → NormInRange v (NumOps.normAxis v) →
        e.vocab.words[i]? = some w ∧ Faithful e i v := by
    intro e hN i w v hr h0
    refine ⟨?_, C66_normalized_partial hB _ _ _ e hN i v ?_ h0⟩
    · rw [hN.1, List.getElem?_map, hr]; rfl
    · rw [List.getElem?_map, hr]; rfl
  cases dims with
  | true =>
    obtain ⟨e, h1, hN⟩ := C40_load_dims lossy sep hs cols rows h
    exact ⟨e, h1, key e hN⟩
  | false =>
    obtain ⟨e, h1, hN⟩ := C40_load lossy sep hs cols rows h (hne rfl)
    exact ⟨e, h1, key e hN⟩

/-- fastText files: the vector of a word is the computed mean of its row and the rows of its n-grams. -/
theorem C66_fasttext_partial (hB : Binary32) (f : FtFile) (hf : f.OK) (lossy : Bool) :
    ∃ e : Embeddings F32, Rd.run (loadFasttext lossy) f.bytes = .ok e ∧
      ∀ (i : Nat) p, f.words[i]? = some p → e.vocab.words[i]? = some p.1 ∧
        ∃ is sel mean, FtSubwords ⟨f.buckets, f.minN, f.maxN⟩ f.words.length p.1 is ∧
          List.Forall₂ (fun j r => f.rows[j]? = some r) (i :: is) sel ∧
          IsMean f.cols sel mean ∧ (NormInRange mean (NumOps.normAxis mean) → Faithful e i mean) := by
  obtain ⟨e, h1, h3, _, _, _, rows, norms, h4, h5, _, _, _, h6⟩ := C42_load (K := F32) f hf lossy
  refine ⟨e, h1, fun i p hp => ?_⟩
  have hw : (f.words.map Prod.fst)[i]? = some p.1 := by rw [List.getElem?_map, hp]; rfl
  obtain ⟨is, sel, mean, g1, g2, g3, g4, g5⟩ := h6 i _ hw
  have hid : (f.rows.map fun r => r.map (Codec.ofBits : F32 → F32)) = f.rows := by
    have : (fun r : List F32 => r.map (Codec.ofBits : F32 → F32)) = id := by
      funext r
      exact List.map_id r
    rw [this, List.map_id]
  rw [hid] at g2
  exact ⟨by rw [h3]; exact hw, is, sel, mean, g1, g2, g3, fun hm => faithful_core hB h4 g5 h5 g4 hm⟩

/-! ### Similarities -/

/-- The score of the rows of two vectors with norms in range is their cosine up to rounding. -/
theorem C66_score_partial (hB : Binary32) (v w : List F32) (hlen : w.length = v.length)
    (hv : NormInRange v (NumOps.normAxis v)) (hw : NormInRange w (NumOps.normAxis w)) :
    Finite (NumOps.dot (v.map fun x => NumOps.div x (NumOps.normAxis v))
        (w.map fun x => NumOps.div x (NumOps.normAxis w))) ∧
      |val (NumOps.dot (v.map fun x => NumOps.div x (NumOps.normAxis v))
        (w.map fun x => NumOps.div x (NumOps.normAxis w))) - exactCos (v.map val) (w.map val)| ≤
        (3 * v.length + 16) * 2⁻¹ ^ 24 := by
  obtain ⟨d1, hv, e1⟩ := normAxis_b32 hB hv
  obtain ⟨d2, hw, e2⟩ := normAxis_b32 hB hw
  rw [e1, e2]
  obtain ⟨s, hs, he⟩ := hB.dot (v.map fun x => NumOps.div x (B32.sqrt d1))
    (w.map fun x => NumOps.div x (B32.sqrt d2))
  obtain ⟨h1, h2⟩ := score_ranged hlen hv hw (div_ranged hB hv) (div_ranged hB hw) hs
  rw [he.eq h1.not_nan]
  exact ⟨h1, h2⟩

/-- `word_similarity`: if all norms are in range, scores are cosine similarities up to `(3 n + 16) 2⁻²⁴`,
and no word that is left out is more similar than an answer by more than twice that. -/
theorem C66_word_similarity_partial (hB : Binary32) (S : Sel F32) (hS : S.Admissible)
    (e : Embeddings F32) (he : BuiltEmb e) (cols : Nat) (words : List PyStr) (vs : List (List F32))
    (hN : Normalized cols words vs e) (hm : ∀ v ∈ vs, NormInRange v (NumOps.normAxis v)) (j : Nat) (w : PyStr) (v : List F32)
    (hw : words[j]? = some w) (hv : vs[j]? = some v) (k : Nat)
    (hk : k + knownSkips words [w] ≤ words.length) :
    ∃ res, e.wordSimilarity S w k = .ok (some res) ∧ res.length = k ∧
      (res.map Prod.fst).Nodup ∧
      (∀ w' x, (w', x) ∈ res → w' ≠ w ∧ Finite x ∧ ∃ (i : Nat) (v' : List F32), words[i]? = some w' ∧
        vs[i]? = some v' ∧ |val x - exactCos (v'.map val) (v.map val)| ≤ (3 * cols + 16) * 2⁻¹ ^ 24) ∧
      ∀ (i i' : Nat) w' w'' v' v'', words[i]? = some w' → vs[i]? = some v' →
        words[i']? = some w'' → vs[i']? = some v'' → w'' ≠ w →
        w' ∈ res.map Prod.fst → w'' ∉ res.map Prod.fst →
        exactCos (v''.map val) (v.map val) ≤
          exactCos (v'.map val) (v.map val) + 2 * ((3 * cols + 16) * 2⁻¹ ^ 24) := by
  obtain ⟨n1, _, n3, _, _, rows, n6, n7, n8⟩ := hN
  subst n1
  have hwf : ∀ r ∈ rows, r.length = cols := by
    have := he.storage
    rw [n6] at this
    exact this.1
  have hlen : ∀ (i : Nat) v, vs[i]? = some v → v.length = cols := by
    intro i v hv
    have := hwf _ (List.mem_of_getElem? (n8 i v hv))
    simpa using this
  have hget : ∀ (i : Nat) v, vs[i]? = some v →
      e.storage.getOne i = .ok (v.map fun x => NumOps.div x (NumOps.normAxis v)) := by
    intro i v hv
    rw [n6]
    exact npGet_nat.mpr (n8 i v hv)
  have hinj : ∀ {i i' : Nat} {w : PyStr}, e.vocab.words[i]? = some w → e.vocab.words[i']? = some w → i = i' := by
    intro i i' w h h'
    have a := he.vocab.get.mpr h
    have b := he.vocab.get.mpr h'
    rw [a] at b
    exact_mod_cast Option.some.inj b
  have hvl := hlen j v hv
  obtain ⟨_, hemb, _⟩ := C28_known e he j w _ hw (hget j v hv)
  have hvs : ∀ {i : Nat} {w}, e.vocab.words[i]? = some w → ∃ v, vs[i]? = some v := by
    intro i w h
    have hi := (List.getElem?_eq_some_iff.mp h).1
    have hle : e.vocab.words.length ≤ vs.length := by
      have := he.words_le
      rw [n6] at this
      rw [← n7]
      exact this
    exact ⟨_, List.getElem?_eq_getElem (by omega)⟩
  have score : ∀ (i : Nat) v', vs[i]? = some v' →
      Finite (NumOps.dot (v'.map fun x => NumOps.div x (NumOps.normAxis v'))
        (v.map fun x => NumOps.div x (NumOps.normAxis v))) ∧
      |val (NumOps.dot (v'.map fun x => NumOps.div x (NumOps.normAxis v'))
        (v.map fun x => NumOps.div x (NumOps.normAxis v))) -
        exactCos (v'.map val) (v.map val)| ≤ (3 * cols + 16) * 2⁻¹ ^ 24 := by
    intro i v' hv'
    have hl' := hlen i v' hv'
    have := C66_score_partial hB v' v (by omega) (hm _ (List.mem_of_getElem? hv')) (hm _ (List.mem_of_getElem? hv))
    rwa [hl'] at this
  obtain ⟨res, h1, hT⟩ := C31_word_similarity S hS e he _ n6 w _ hemb k
    (by rintro h; rw [h] at hw; simp at hw) hk (by
      intro i w' row hi hrow _
      obtain ⟨v', hv'⟩ := hvs hi
      rw [hget i v' hv'] at hrow
      cases hrow
      exact (not_nan_inf (score i v' hv').1).1)
  refine ⟨res, h1, hT.length, hT.nodup, ?_, ?_⟩
  · intro w' x hx
    obtain ⟨hne, i, row, hi, hrow, rfl⟩ := hT.scores w' x hx
    obtain ⟨v', hv'⟩ := hvs hi
    rw [hget i v' hv'] at hrow
    cases hrow
    exact ⟨by simpa using hne, (score i v' hv').1, i, v', hi, hv', (score i v' hv').2⟩
  · intro i i' w' w'' v' v'' hi hv' hi' hv'' hne hin hout
    obtain ⟨⟨w1, x⟩, hx, rfl⟩ := List.mem_map.mp hin
    obtain ⟨_, i1, row, hi1, hrow, hxe⟩ := hT.scores w1 x hx
    have := hinj hi hi1
    subst this
    rw [hget i v' hv'] at hrow
    cases hrow
    have hb := hT.best i' w'' _ hi' (hget i' v'' hv'') (by simpa using hne) hout _ hx
    simp only at hb
    rw [hxe] at hb
    have hb : val _ ≤ val _ := le_of_not_gt fun h => by
      have := (lt_iff (not_nan_inf (score i v' hv').1).1 (not_nan_inf (score i' v'' hv'').1).1).mpr h
      exact Bool.noConfusion (this.symm.trans hb)
    have s1 := abs_le.mp (score i v' hv').2
    have s2 := abs_le.mp (score i' v'' hv'').2
    linarith [s1.1, s1.2, s2.1, s2.2]

/-! ### Overflow and underflow -/

theorem lost_core {cols : Nat} {words : List PyStr} {vs : List (List F32)} {e : Embeddings F32}
    (h : Normalized cols words vs e) {i : Nat} {v : List F32} (hv : vs[i]? = some v)
    (h1 : ((NumOps.normAxis v : F32) = posInf ∧
        ∀ x ∈ v, Finite (NumOps.div x (NumOps.normAxis v)) ∧ val (NumOps.div x (NumOps.normAxis v)) = 0) ∨
      (Finite (NumOps.normAxis v) ∧ val (NumOps.normAxis v) = 0 ∧
        ∀ x ∈ v, NumOps.div x (NumOps.normAxis v) = posInf ∨ NumOps.div x (NumOps.normAxis v) = negInf ∨
          NaN (NumOps.div x (NumOps.normAxis v))))
    (h2 : ∀ x ∈ v, NaN (NumOps.mul (NumOps.div x (NumOps.normAxis v)) (NumOps.normAxis v))) :
    Lost e i v := by
  obtain ⟨_, _, _, _, h5, rows, h6, _, h7⟩ := h
  have hn : (vs.map NumOps.normAxis)[i]? = some (NumOps.normAxis v) := by
    rw [List.getElem?_map, hv]; rfl
  have hs : StoredRow e.storage i (v.map fun x => NumOps.div x (NumOps.normAxis v)) := by
    rw [h6]; exact h7 i v hv
  refine ⟨_, _, _, (v.map fun x => NumOps.div x (NumOps.normAxis v)).map
    fun x => NumOps.mul x (NumOps.normAxis v), hs, h5, hn, by simp, ?_, ?_, by simp, ?_⟩
  · rcases h1 with ⟨h1, h3⟩ | ⟨h1, h3, h4⟩
    · refine Or.inl ⟨h1, fun y hy => ?_⟩
      obtain ⟨x, hx, rfl⟩ := List.mem_map.mp hy
      exact h3 x hx
    · refine Or.inr ⟨h1, h3, fun y hy => ?_⟩
      obtain ⟨x, hx, rfl⟩ := List.mem_map.mp hy
      exact h4 x hx
  · refine ⟨_, hs, ?_⟩
    rw [h5]
    refine ⟨_, hn, by simp, fun t x hx => ?_⟩
    rw [List.getElem?_map, hx]; rfl
  · intro y hy
    rw [List.map_map] at hy
    obtain ⟨x, hx, rfl⟩ := List.mem_map.mp hy
    exact h2 x hx

/-- Rows of infinite norms -/
theorem lost_infinite (hB : Binary32) {cols : Nat} {words : List PyStr} {vs : List (List F32)}
    {e : Embeddings F32} (h : Normalized cols words vs e) {i : Nat} {v : List F32}
    (hv : vs[i]? = some v) (hf : ∀ x ∈ v, Finite x) (hn : NumOps.normAxis v = posInf) : Lost e i v := by
  have hdiv : ∀ x ∈ v, Finite (NumOps.div x posInf) ∧ val (NumOps.div x posInf) = 0 := by
    intro x hx
    have := div_posInf (hf x hx)
    rw [(hB.div x posInf).eq this.1.not_nan]
    exact this
  refine lost_core h hv (Or.inl ⟨hn, ?_⟩) ?_
  · rw [hn]; exact hdiv
  · intro x hx
    rw [hn]
    exact (hB.mul _ _).nan (zero_mul_posInf (hdiv x hx).1 (hdiv x hx).2)

/-- Rows of norms that are zero -/
theorem lost_zero (hB : Binary32) {cols : Nat} {words : List PyStr} {vs : List (List F32)}
    {e : Embeddings F32} (h : Normalized cols words vs e) {i : Nat} {v : List F32}
    (hv : vs[i]? = some v) (hf : ∀ x ∈ v, Finite x) (hn : Finite (NumOps.normAxis v))
    (hn0 : val (NumOps.normAxis v) = 0) : Lost e i v := by
  have hdiv : ∀ x ∈ v, NumOps.div x (NumOps.normAxis v) = posInf ∨ NumOps.div x (NumOps.normAxis v) = negInf ∨
      NaN (NumOps.div x (NumOps.normAxis v)) := by
    intro x hx
    obtain ⟨h1, h2⟩ := div_zero_b32 (hf x hx) hn hn0
    by_cases h0 : val x = 0
    · exact Or.inr (Or.inr ((hB.div x _).nan (h2 h0)))
    · rcases h1 h0 with h | h
      · exact Or.inl (by rw [(hB.div x _).eq (by rw [h]; exact posInf_not_nan), h])
      · exact Or.inr (Or.inl (by rw [(hB.div x _).eq (by rw [h]; exact negInf_not_nan), h]))
  refine lost_core h hv (Or.inr ⟨hn, hn0, hdiv⟩) ?_
  intro x hx
  exact (hB.mul _ _).nan (inf_mul_zero hn hn0 (hdiv x hx))

/-- Every vector with a component of `2⁶⁴` or more, or of length `2⁶⁵` or more, is lost, in whatever order its
squares are added. -/
theorem C66_overflow (hB : Binary32) (cols : Nat) (words : List PyStr) (vs : List (List F32))
    (e : Embeddings F32) (h : Normalized cols words vs e) (i : Nat) (v : List F32)
    (hv : vs[i]? = some v) (hf : ∀ x ∈ v, Finite x)
    (hbig : (∃ x ∈ v, (2 : ℝ) ^ 64 ≤ |val x|) ∨ (v.length ≤ 2 ^ 20 ∧ 2 ^ 65 ≤ exactLen (v.map val))) :
    Lost e i v ∧ ∃ ns, e.norms = some ns ∧ ns[i]? = some posInf := by
  obtain ⟨d, hd, hs⟩ := hB.normAxis v
  have hinf : d = posInf := by
    rcases hd.overflow (mem_zip_eq hf) with ⟨h1, _, h3⟩ | h
    · rcases hbig with ⟨x, hx, hb⟩ | ⟨hl, hb⟩
      · obtain ⟨j, hj, rfl⟩ := List.getElem_of_mem hx
        have := h3 (v[j], v[j]) (by
          rw [List.mem_iff_getElem]
          exact ⟨j, by simpa using hj, by simp⟩)
        linarith
      · linarith [sum_large hf hl hd h1]
    · exact h
  subst hinf
  rw [sqrt_posInf] at hs
  have hn := hs.eq posInf_not_nan
  exact ⟨lost_infinite hB h hv hf hn, _, h.2.2.2.2.1, by rw [List.getElem?_map, hv, ← hn]; rfl⟩

/-- So is every vector whose components are at most `2⁻⁷⁵`. -/
theorem C66_underflow (hB : Binary32) (cols : Nat) (words : List PyStr) (vs : List (List F32))
    (e : Embeddings F32) (h : Normalized cols words vs e) (i : Nat) (v : List F32)
    (hv : vs[i]? = some v) (hf : ∀ x ∈ v, Finite x) (hsmall : ∀ x ∈ v, |val x| ≤ (2 : ℝ)⁻¹ ^ 75) :
    Lost e i v ∧ ∃ ns n, e.norms = some ns ∧ ns[i]? = some n ∧ Finite n ∧ val n = 0 := by
  obtain ⟨d, hd, hs⟩ := hB.normAxis v
  obtain ⟨hdf, hd0⟩ := hd.underflow (fun p hp => ⟨hf _ (mem_zip_self hp).1, by
    obtain ⟨j, hj, rfl⟩ := List.getElem_of_mem hp
    simp, hsmall _ (mem_zip_self hp).1⟩)
  rw [sqrt_zero_b32 hdf hd0] at hs
  have hn := hs.eq hdf.not_nan
  exact ⟨lost_zero hB h hv hf (by rw [hn]; exact hdf) (by rw [hn]; exact hd0), _, d, h.2.2.2.2.1,
    by rw [List.getElem?_map, hv, ← hn]; rfl, hdf, hd0⟩

/-- There are no other cases: norms are infinite and the row is lost, or they are finite and at least `2⁻⁶⁰` and
the row is right, or the vector is shorter than `2⁻⁵⁹`. -/
theorem C66_cases (hB : Binary32) (cols : Nat) (words : List PyStr) (vs : List (List F32))
    (e : Embeddings F32) (h : Normalized cols words vs e) (i : Nat) (v : List F32)
    (hv : vs[i]? = some v) (hf : ∀ x ∈ v, Finite x) (hl : v.length ≤ 2 ^ 20) :
    ∃ ns n, e.norms = some ns ∧ ns[i]? = some n ∧
      ((n = posInf ∧ 2 ^ 62 < exactLen (v.map val) ∧ Lost e i v) ∨
        (Finite n ∧ (2 : ℝ)⁻¹ ^ 60 ≤ val n ∧ Faithful e i v) ∨
        (Finite n ∧ 0 ≤ val n ∧ val n < (2 : ℝ)⁻¹ ^ 60 ∧ exactLen (v.map val) < 2⁻¹ ^ 59 ∧
          (val n = 0 → Lost e i v))) := by
  refine ⟨_, _, h.2.2.2.2.1, by rw [List.getElem?_map, hv]; rfl, ?_⟩
  obtain ⟨d, hd, hs⟩ := hB.normAxis v
  rcases hd.overflow (mem_zip_eq hf) with ⟨h1, h2, _⟩ | rfl
  · obtain ⟨g1, g2, g3⟩ := sqrt_sum h1 h2
    have hn := hs.eq g1.not_nan
    right
    by_cases hlow : (2 : ℝ)⁻¹ ^ 60 ≤ val (NumOps.normAxis v)
    · exact Or.inl ⟨by rw [hn]; exact g1, hlow, C66_normalized_partial hB _ _ _ e h i v hv
        ⟨hf, hl, by rw [hn]; exact g1, hlow⟩⟩
    · refine Or.inr ⟨by rw [hn]; exact g1, by rw [hn]; exact g2, not_le.mp hlow, ?_,
        lost_zero hB h hv hf (by rw [hn]; exact g1)⟩
      refine sum_small hf hl hd h1 ?_
      by_contra hc
      rw [hn] at hlow
      refine hlow ?_
      have h4 : 13 / 10 * 2⁻¹ ^ 60 ≤ Real.sqrt (val d) := by
        refine Real.le_sqrt_of_sq_le (le_trans ?_ (not_lt.mp hc))
        norm_num
      have h5 := (abs_le.mp g3).1
      have hs0 := Real.sqrt_nonneg (val d)
      have h6 : uu * Real.sqrt (val d) ≤ 1 / 10 * Real.sqrt (val d) :=
        mul_le_mul_of_nonneg_right (by unfold uu; norm_num) hs0
      have h7 : eta ≤ 1 / 100 * 2⁻¹ ^ 60 := by unfold eta; norm_num
      have h8 : (0 : ℝ) < 2⁻¹ ^ 60 := by positivity
      linarith
  · rw [sqrt_posInf] at hs
    have hn := hs.eq posInf_not_nan
    refine Or.inl ⟨hn, ?_, lost_infinite hB h hv hf hn⟩
    by_contra hc
    obtain ⟨hp, ht⟩ := pow_bound hl
    have hu := uu_pos
    have hP1 : (1 + uu) ^ v.length ≤ (1 + uu) ^ (v.length + 1) := pow_le_pow_right₀ (by linarith) (by omega)
    refine posInf_not_finite (hd.error (fun p hp => ⟨hf _ (mem_zip_self hp).1, hf _ (mem_zip_self hp).2⟩) ?_ ?_).1
    · rw [show (v.zip v).length = v.length by simp]
      linarith
    · rw [prods_absSum, ← exactLen_sq]
      refine (pow_le_pow_left₀ (Real.sqrt_nonneg _) (not_lt.mp hc) 2).trans ?_
      rw [← pow_mul]
      exact pow_le_pow_right₀ (by norm_num) (by norm_num)

/-- Norms are in range if the length is between `2⁻⁵⁹` and `2⁶²`, for instance, if all components are at most `2⁵²`
and one is at least `2⁻⁵⁹`. -/
theorem C66_range (hB : Binary32) (v : List F32) :
    (Moderate v → NormInRange v (NumOps.normAxis v) ∧ NormInRange v (NumOps.norm v)) ∧
    ((∀ x ∈ v, Finite x ∧ |val x| ≤ 2 ^ 52) → (∃ x ∈ v, (2 : ℝ)⁻¹ ^ 59 ≤ |val x|) → v.length ≤ 2 ^ 20 →
      Moderate v) := by
  refine ⟨fun hv => ⟨?_, ?_⟩, fun h1 h2 h3 => ?_⟩
  · obtain ⟨d, hd, h⟩ := hB.normAxis v
    exact inRange_moderate hv hd h
  · obtain ⟨d, hd, h⟩ := hB.norm v
    exact inRange_moderate hv hd h
  · obtain ⟨x, hx, h2⟩ := h2
    exact Moderate.of_components (fun x hx => (h1 x hx).1) (fun x hx => (h1 x hx).2)
      (h2.trans (abs_le_exactLen (List.mem_map_of_mem hx))) h3

end

/-! ### The hypotheses can be met -/

theorem dot_sum_b32 (ps : List (F32 × F32)) (qs : List (F32 × F32)) (a : F32) (h : Dot qs a) :
    Dot (qs ++ ps) ((ps.map fun p => B32.mul p.1 p.2).foldl B32.add a) := by
  induction ps generalizing qs a with
  | nil => simpa using h
  | cons p ps ih =>
    have := ih (qs ++ [p]) (B32.add a (B32.mul p.1 p.2)) (.add h (.mul p.1 p.2))
    simpa using this

theorem dot_b32 (xs ys : List F32) : Dot (xs.zip ys) (B32.dot xs ys) := by
  have e : B32.dot xs ys = B32.sum ((xs.zip ys).map fun p => B32.mul p.1 p.2) := by
    unfold B32.dot
    congr 1
    induction xs generalizing ys with
    | nil => rfl
    | cons x xs ih =>
      cases ys with
      | nil => rfl
      | cons y ys => simpa using ih ys
  rw [e]
  cases h : xs.zip ys with
  | nil => exact .nil
  | cons p ps => exact dot_sum_b32 ps [p] _ (.mul p.1 p.2)

/-- Addition from left to right without fused operations is one of the possibilities. -/
theorem binary32_b32 : @Binary32 b32Ops :=
  @Binary32.mk b32Ops rfl (fun _ => rfl) (fun _ _ => .inl rfl) (fun _ _ => .inl rfl) (fun _ _ => .inl rfl)
    (fun _ _ => .inl rfl) (fun xs ys => ⟨_, dot_b32 xs ys, .inl rfl⟩) (fun v => ⟨_, dot_b32 v v, .inl rfl⟩)
    (fun v => ⟨_, dot_b32 v v, .inl rfl⟩)

/-- The hypothesis of the theorems below on the arithmetic can be met: float32 of the model, with sums from left to right
and norms as roots of sums of squares, is correctly rounded. -/
theorem C66_left_to_right : @Binary32 b32Ops := binary32_b32

/-- The norm of (3, 4) is 5. -/
example : b32Ops.norm [0x40400000, 0x40800000] = 0x40A00000 := by decide +kernel

/-- Larger patterns are larger numbers. -/
theorem mag_mono {m n : Nat} (h : m ≤ n) : B32.mag m ≤ B32.mag n := by
  unfold B32.mag
  have p1 := Nat.mod_lt m (show 0 < 2 ^ 23 by norm_num)
  split <;> rename_i hm <;> split <;> rename_i hn
  · exact h
  · have := Nat.le_mul_of_pos_right (2 ^ 23 + n % 2 ^ 23) (Nat.two_pow_pos (n / 2 ^ 23 - 1))
    omega
  · omega
  · rcases Nat.lt_or_ge (m / 2 ^ 23) (n / 2 ^ 23) with hl | hl
    · calc (2 ^ 23 + m % 2 ^ 23) * 2 ^ (m / 2 ^ 23 - 1) ≤ 2 ^ 24 * 2 ^ (m / 2 ^ 23 - 1) :=
            Nat.mul_le_mul_right _ (by omega)
        _ = 2 ^ 23 * 2 ^ (m / 2 ^ 23) := by
            rw [← pow_add, ← pow_add]
            congr 1
            omega
        _ ≤ 2 ^ 23 * 2 ^ (n / 2 ^ 23 - 1) :=
            Nat.mul_le_mul_left _ (Nat.pow_le_pow_right (by norm_num) (by omega))
        _ ≤ _ := Nat.mul_le_mul_right _ (by omega)
    · have he : m / 2 ^ 23 = n / 2 ^ 23 := le_antisymm (Nat.div_le_div_right h) hl
      rw [he]
      exact Nat.mul_le_mul_right _ (by omega)

/-- `2⁶⁴` and `2⁻⁷⁵` -/
theorem val_big : Finite 0x5F800000 ∧ val 0x5F800000 = 2 ^ 64 := by
  have h1 : ex 0x5F800000 = 191 := by decide
  have h2 : fr 0x5F800000 = 0 := by decide
  have h3 : sgn 0x5F800000 = 0 := by decide
  refine ⟨by unfold F32.Finite; rw [h1]; decide, ?_⟩
  unfold val
  rw [h1, h2, h3]
  norm_num

theorem val_small : Finite 0x1A000000 ∧ val 0x1A000000 = 2⁻¹ ^ 75 := by
  have h1 : ex 0x1A000000 = 52 := by decide
  have h2 : fr 0x1A000000 = 0 := by decide
  have h3 : sgn 0x1A000000 = 0 := by decide
  refine ⟨by unfold F32.Finite; rw [h1]; decide, ?_⟩
  unfold val
  rw [h1, h2, h3]
  norm_num

theorem val_three : Finite 0x40400000 ∧ val 0x40400000 = 3 := by
  have h1 : ex 0x40400000 = 128 := by decide
  have h2 : fr 0x40400000 = 2 ^ 22 := by decide
  have h3 : sgn 0x40400000 = 0 := by decide
  refine ⟨by unfold F32.Finite; rw [h1]; decide, ?_⟩
  unfold val
  rw [h1, h2, h3]
  norm_num

theorem val_four : Finite 0x40800000 ∧ val 0x40800000 = 4 := by
  have h1 : ex 0x40800000 = 129 := by decide
  have h2 : fr 0x40800000 = 0 := by decide
  have h3 : sgn 0x40800000 = 0 := by decide
  refine ⟨by unfold F32.Finite; rw [h1]; decide, ?_⟩
  unfold val
  rw [h1, h2, h3]
  norm_num

/-- The range of the components cannot be dropped: with the finite, nonzero vectors (2⁶⁴) and (2⁻⁷⁵) the first
row is zero and the second one infinite, and both are exported as NaN. -/
theorem C66_all_refuted [NumOps F32] (hB : Binary32) : ∃ (rows : List (PyStr × List F32)) (e : Embeddings F32),
    Rd.run (loadWord2vec false) (w2vFile 1 rows) = .ok e ∧ rows.length = 2 ∧
    (∀ p ∈ rows, W2vWord p.1 ∧ p.2.length = 1 ∧ ∀ x ∈ p.2, Finite x ∧ val x ≠ 0) ∧
    ∀ (i : Nat) w r, rows[i]? = some (w, r) → Lost e i r ∧ ¬ Faithful e i r := by
  have hw : ∀ p ∈ [(([97] : PyStr), ([0x5F800000] : List F32)), ([0xDF], [0x1A000000])], W2vWord p.1 := by
    intro p hp
    simp only [List.mem_cons, List.not_mem_nil, or_false] at hp
    rcases hp with rfl | rfl <;>
    · refine ⟨?_, ?_, ?_, ?_⟩ <;> intro c hc <;> simp at hc <;> subst hc <;> decide
  obtain ⟨e, h1, hN⟩ := C38_load (K := F32) false 1 [([97], [0x5F800000]), ([0xDF], [0x1A000000])] hw
    (by decide) (by decide) (by unfold ShapeOk; decide)
  refine ⟨_, e, h1, rfl, ?_, ?_⟩
  · intro p hp
    refine ⟨hw p hp, ?_⟩
    simp only [List.mem_cons, List.not_mem_nil, or_false] at hp
    rcases hp with rfl | rfl
    · refine ⟨rfl, fun x hx => ?_⟩
      rw [List.mem_singleton] at hx
      subst hx
      refine ⟨val_big.1, ?_⟩
      rw [val_big.2]
      positivity
    · refine ⟨rfl, fun x hx => ?_⟩
      rw [List.mem_singleton] at hx
      subst hx
      refine ⟨val_small.1, ?_⟩
      rw [val_small.2]
      positivity
  · intro i w r hr
    match i, hr with
    | 0, hr =>
      cases hr
      obtain ⟨h2, ns, h3, h4⟩ := C66_overflow hB _ _ _ e hN 0 [0x5F800000] rfl
        (by intro x hx; rw [List.mem_singleton] at hx; subst hx; exact val_big.1)
        (.inl ⟨_, List.mem_singleton.mpr rfl, by rw [val_big.2, abs_of_nonneg (by positivity)]⟩)
      refine ⟨h2, ?_⟩
      rintro ⟨row, n, ns', v', _, g1, g2, g3, _⟩
      rw [h3] at g1
      cases g1
      rw [h4] at g2
      cases g2
      exact posInf_not_finite g3
    | 1, hr =>
      cases hr
      obtain ⟨h2, ns, n, h3, h4, h5, h6⟩ := C66_underflow hB _ _ _ e hN 1 [0x1A000000] rfl
        (by intro x hx; rw [List.mem_singleton] at hx; subst hx; exact val_small.1)
        (by
          intro x hx
          rw [List.mem_singleton] at hx
          subst hx
          rw [val_small.2, abs_of_nonneg (by positivity)])
      refine ⟨h2, ?_⟩
      rintro ⟨row, n', ns', v', _, g1, g2, _, g3, _⟩
      rw [h3] at g1
      cases g1
      rw [h4] at g2
      cases g2
      linarith

theorem val_short : F32.Finite 0x1A400000 ∧ val 0x1A400000 = 3 / 2 * 2⁻¹ ^ 75 := by
  have h1 : ex 0x1A400000 = 52 := by decide
  have h2 : fr 0x1A400000 = 2 ^ 22 := by decide
  have h3 : sgn 0x1A400000 = 0 := by decide
  refine ⟨by unfold F32.Finite; rw [h1]; decide, ?_⟩
  unfold val
  rw [h1, h2, h3]
  norm_num

/-- In the last case of `C66_cases` the row can be wrong without being lost: the norm of (1.5 · 2⁻⁷⁵) is computed
as about 1.41 · 2⁻⁷⁵. -/
theorem C66_short_refuted [NumOps F32] (hB : Binary32) : ∃ (rows : List (PyStr × List F32)) (e : Embeddings F32),
    Rd.run (loadWord2vec false) (w2vFile 1 rows) = .ok e ∧
    ∃ w r ns n, rows[0]? = some (w, r) ∧ (∀ x ∈ r, F32.Finite x ∧ val x ≠ 0) ∧ e.norms = some ns ∧ ns[0]? = some n ∧
      F32.Finite n ∧ 0 < val n ∧ val n ≤ 95 / 100 * exactLen (r.map val) ∧ ¬ Faithful e 0 r := by
  have hw : ∀ p ∈ [(([97] : PyStr), ([0x1A400000] : List F32))], W2vWord p.1 := by
    intro p hp
    rw [List.mem_singleton] at hp
    subst hp
    refine ⟨?_, ?_, ?_, ?_⟩ <;> intro c hc <;> simp at hc <;> subst hc <;> decide
  obtain ⟨e, h1, hN⟩ := C38_load (K := F32) false 1 [([97], [0x1A400000])] hw
    (by decide) (by decide) (by unfold ShapeOk; decide)
  have hv : ∀ x ∈ ([0x1A400000] : List F32), F32.Finite x ∧ val x ≠ 0 := by
    intro x hx
    rw [List.mem_singleton] at hx
    subst hx
    refine ⟨val_short.1, ?_⟩
    rw [val_short.2]
    positivity
  have hL : exactLen (([0x1A400000] : List F32).map val) = 3 / 2 * 2⁻¹ ^ 75 := by
    simp only [List.map_cons, List.map_nil, exactLen, exactDot, add_zero, val_short.2]
    exact Real.sqrt_mul_self (by positivity)
  obtain ⟨d, hd, hs⟩ := hB.normAxis [0x1A400000]
  have hS : (prods (([0x1A400000] : List F32).zip [0x1A400000])).sum = 9 / 8 * 2⁻¹ ^ 149 := by
    rw [prods_sum]
    simp only [List.map_cons, List.map_nil, exactDot, add_zero, val_short.2]
    norm_num
  obtain ⟨d1, d2⟩ := hd.error (fun p hp => ⟨(hv _ (mem_zip_self hp).1).1, (hv _ (mem_zip_self hp).2).1⟩)
    (by unfold uu; norm_num) (by
      rw [prods_absSum, ← prods_sum, hS]
      norm_num)
  obtain ⟨d3, _⟩ := hd.error_sq (mem_zip_eq fun x hx => (hv x hx).1) d1
  rw [prods_absSum, ← prods_sum, hS] at d2
  have hd1 : val d = 2⁻¹ ^ 149 := by
    have ha := abs_val d
    rw [abs_of_nonneg d3] at ha
    have e1 : (1 : ℝ) / 2 ^ 149 = 2⁻¹ ^ 149 := by rw [one_div, inv_pow]
    have h2 : val d = (B32.mag (B32.mant d) : ℝ) * 2⁻¹ ^ 149 := by rw [ha, div_eq_mul_one_div, e1]
    rw [h2] at d2 ⊢
    have hp : (0 : ℝ) < 2⁻¹ ^ 149 := by positivity
    have he : eta = 1 / 2 * 2⁻¹ ^ 149 := by unfold eta; norm_num
    have hu : uu ≤ 1 / 100 := by unfold uu; norm_num
    have hu0 := uu_pos
    simp only [List.zip_cons_cons, List.zip_nil_right, List.length_cons, List.length_nil, zero_add, pow_one] at d2
    rw [he] at d2
    push_cast at d2
    generalize (2 : ℝ)⁻¹ ^ 149 = q at *
    obtain ⟨a1, a2⟩ := abs_le.mp d2
    have b1 : (B32.mag (B32.mant d) : ℝ) < 2 := by nlinarith
    have b2 : (0 : ℝ) < B32.mag (B32.mant d) := by nlinarith
    have b3 : B32.mag (B32.mant d) < 2 := by exact_mod_cast b1
    have b4 : 0 < B32.mag (B32.mant d) := by exact_mod_cast b2
    have b5 : B32.mag (B32.mant d) = 1 := by omega
    rw [b5, Nat.cast_one, one_mul]
  obtain ⟨g1, g2, g3⟩ := sqrt_sum d1 d3
  have hn := hs.eq g1.not_nan
  have s1 : Real.sqrt (val d) ≤ 142 / 100 * 2⁻¹ ^ 75 := by
    rw [hd1, Real.sqrt_le_iff]
    exact ⟨by positivity, by norm_num⟩
  have s2 : 141 / 100 * 2⁻¹ ^ 75 ≤ Real.sqrt (val d) := by
    rw [hd1]
    refine Real.le_sqrt_of_sq_le ?_
    norm_num
  have hp : (0 : ℝ) < 2⁻¹ ^ 75 := by positivity
  have hu : uu ≤ 1 / 1000 := by unfold uu; norm_num
  have h6 : uu * Real.sqrt (val d) ≤ 1 / 1000 * Real.sqrt (val d) :=
    mul_le_mul_of_nonneg_right hu (Real.sqrt_nonneg _)
  have h7 : eta ≤ 1 / 1000 * 2⁻¹ ^ 75 := by unfold eta; norm_num
  obtain ⟨g4, g5⟩ := abs_le.mp g3
  have hhi : val (B32.sqrt d) ≤ 1425 / 1000 * 2⁻¹ ^ 75 := by linarith
  have hlo : 1 / 2 * 2⁻¹ ^ 75 ≤ val (B32.sqrt d) := by linarith
  have hns : (([([97], [0x1A400000])] : List (PyStr × List F32)).map fun p =>
      NumOps.normAxis (p.2.map (Codec.ofBits : F32 → F32)))[0]? = some (NumOps.normAxis [0x1A400000]) := rfl
  have hes := hN.2.2.2.2.1
  rw [List.map_map] at hes
  refine ⟨_, e, h1, [97], [0x1A400000], _, _, rfl, hv, hes, rfl, ?_, ?_, ?_, ?_⟩
  · show F32.Finite (NumOps.normAxis [0x1A400000])
    rw [hn]; exact g1
  · show 0 < val (NumOps.normAxis [0x1A400000])
    rw [hn]; linarith
  · show val (NumOps.normAxis [0x1A400000]) ≤ _
    rw [hn, hL]; linarith
  · rintro ⟨row, n', ns', v', _, k1, k2, _, _, k3, _⟩
    rw [hes] at k1
    cases k1
    cases k2
    change |val (NumOps.normAxis [0x1A400000]) - _| ≤ _ at k3
    rw [hn, hL] at k3
    have := (abs_le.mp k3).1
    norm_num at this hhi hp
    linarith

namespace Sample

/-- 3 + 4 = 7, 3 / 4 = 0.75, 3 / 0 = ∞, 2⁶⁴ · 2⁶⁴ = ∞, and 1 / 3 is rounded. -/
example : B32.add 0x40400000 0x40800000 = 0x40E00000 ∧ B32.div 0x40400000 0x40800000 = 0x3F400000 ∧
    B32.div 0x40400000 0 = posInf ∧ B32.mul 0x5F800000 0x5F800000 = posInf ∧
    B32.div 0x3F800000 0x40400000 = 0x3EAAAAAB := by decide +kernel

theorem moderate34 : Moderate [0x40400000, 0x40800000] := by
  refine (@C66_range b32Ops binary32_b32 _).2 ?_ ⟨_, List.mem_cons_self, by rw [val_three.2]; norm_num⟩ (by norm_num)
  intro x hx
  simp only [List.mem_cons, List.not_mem_nil, or_false] at hx
  rcases hx with rfl | rfl
  · rw [val_three.2]; exact ⟨val_three.1, by norm_num⟩
  · rw [val_four.2]; exact ⟨val_four.1, by norm_num⟩

theorem moderate43 : Moderate [0x40800000, 0x40400000] := by
  refine (@C66_range b32Ops binary32_b32 _).2 ?_ ⟨_, List.mem_cons_self, by rw [val_four.2]; norm_num⟩ (by norm_num)
  intro x hx
  simp only [List.mem_cons, List.not_mem_nil, or_false] at hx
  rcases hx with rfl | rfl
  · rw [val_four.2]; exact ⟨val_four.1, by norm_num⟩
  · rw [val_three.2]; exact ⟨val_three.1, by norm_num⟩

theorem inRange34 : NormInRange [0x40400000, 0x40800000] (b32Ops.normAxis [0x40400000, 0x40800000]) :=
  ((@C66_range b32Ops binary32_b32 _).1 moderate34).1

theorem inRange43 : NormInRange [0x40800000, 0x40400000] (b32Ops.normAxis [0x40800000, 0x40400000]) :=
  ((@C66_range b32Ops binary32_b32 _).1 moderate43).1

def rows34 : List (PyStr × List F32) := [([97], [0x40400000, 0x40800000]), ([0xDF], [0x40800000, 0x40400000])]

theorem w2v34 : ∀ p ∈ rows34, W2vWord p.1 := by
  intro p hp
  unfold rows34 at hp
  simp only [List.mem_cons, List.not_mem_nil, or_false] at hp
  rcases hp with rfl | rfl <;>
  · refine ⟨?_, ?_, ?_, ?_⟩ <;> intro c hc <;> simp at hc <;> subst hc <;> decide

/-- (3, 4) and (4, 3) from a word2vec file: rows, norms and exports, and the similarity, about 0.96. -/
example : ∃ e : Embeddings F32,
    Rd.run (@loadWord2vec F32 b32Ops _ false) (w2vFile 2 rows34) = .ok e ∧
    @Faithful b32Ops e 0 [0x40400000, 0x40800000] ∧ @Faithful b32Ops e 1 [0x40800000, 0x40400000] ∧
    ∃ x, @Embeddings.wordSimilarity F32 b32Ops (@Sel.sorting F32 b32Score ⟨0⟩) e [97] 1 =
      .ok (some [([0xDF], x)]) ∧ |val x - 24 / 25| ≤ 22 * 2⁻¹ ^ 24 := by
  obtain ⟨e, h1, h2⟩ := @C66_word2vec_partial b32Ops binary32_b32 false 2 rows34 w2v34 (by decide) (by decide)
    (by unfold ShapeOk; decide)
  refine ⟨e, h1, (h2 0 _ _ rfl inRange34).2, (h2 1 _ _ rfl inRange43).2, ?_⟩
  obtain ⟨e', h3, hN⟩ := @C38_load F32 b32Ops _ false 2 rows34 w2v34 (by decide) (by decide)
    (by unfold ShapeOk; decide)
  rw [h1] at h3
  cases h3
  obtain ⟨res, r1, r2, _, r3, _⟩ := @C66_word_similarity_partial b32Ops binary32_b32 _
    (@sorting_admissible F32 b32Score ⟨0⟩) e
    (@loadWord2vec_built F32 b32Ops _ false _ _ h1).1 2 _ _ hN (by
      intro v hv
      simp only [rows34, List.map_cons, List.map_nil, List.mem_cons, List.not_mem_nil, or_false] at hv
      rcases hv with rfl | rfl
      exacts [inRange34, inRange43]) 0 [97] [0x40400000, 0x40800000] rfl rfl 1 (by decide)
  obtain ⟨⟨w, x⟩, rfl⟩ := List.length_eq_one_iff.mp r2
  obtain ⟨g1, _, i, v', g2, g3, g4⟩ := r3 w x List.mem_cons_self
  match i, g2, g3 with
  | 0, g2, _ => cases g2; exact absurd rfl g1
  | 1, g2, g3 =>
    cases g2
    cases g3
    refine ⟨x, r1, ?_⟩
    have e1 : exactCos (([0x40800000, 0x40400000] : List F32).map val)
        (([0x40400000, 0x40800000] : List F32).map val) = 24 / 25 := by
      simp only [List.map_cons, List.map_nil, val_three.2, val_four.2, exactCos, exactLen, exactDot]
      norm_num
    change |val x - exactCos (([0x40800000, 0x40400000] : List F32).map val)
        (([0x40400000, 0x40800000] : List F32).map val)| ≤ _ at g4
    rw [e1] at g4
    refine g4.trans (le_of_eq ?_)
    norm_num

/-- (3, 4) is in the second case of `C66_cases`. -/
example : ∃ (e : Embeddings F32) (ns : List F32) (n : F32),
    Rd.run (@loadWord2vec F32 b32Ops _ false) (w2vFile 2 rows34) = .ok e ∧ e.norms = some ns ∧ ns[0]? = some n ∧
    (2 : ℝ)⁻¹ ^ 60 ≤ val n ∧ @Faithful b32Ops e 0 [0x40400000, 0x40800000] := by
  obtain ⟨e, h1, hN⟩ := @C38_load F32 b32Ops _ false 2 rows34 w2v34 (by decide) (by decide)
    (by unfold ShapeOk; decide)
  have hL : exactLen (([0x40400000, 0x40800000] : List F32).map val) = 5 := by
    simp only [List.map_cons, List.map_nil, val_three.2, val_four.2, exactLen, exactDot]
    rw [show (3 : ℝ) * 3 + (4 * 4 + 0) = 5 * 5 by norm_num]
    exact Real.sqrt_mul_self (by norm_num)
  obtain ⟨ns, n, h2, h3, h4⟩ := @C66_cases b32Ops binary32_b32 _ _ _ e hN 0 [0x40400000, 0x40800000] rfl
    moderate34.fin moderate34.length
  refine ⟨e, ns, n, h1, h2, h3, ?_⟩
  rw [hL] at h4
  rcases h4 with ⟨_, h, _⟩ | ⟨_, h⟩ | ⟨_, _, _, h, _⟩
  · norm_num at h
  · exact h
  · norm_num at h

theorem textRows34b : @TextRows F32 f32Text 2 rows34 := by
  refine @TextRows.mk F32 f32Text 2 rows34 ?_ (by decide) ?_ (by decide) (by decide) (by unfold ShapeOk; decide)
  · intro p hp
    unfold rows34 at hp
    simp only [List.mem_cons, List.not_mem_nil, or_false] at hp
    rcases hp with rfl | rfl
    exacts [textWords [97] (by decide), textWords [0xDF] (by decide)]
  · exact fun _ _ x _ => f32Text_printable x

/-- Text files -/
example : ∃ e : Embeddings F32, @loadText F32 b32Ops f32Text Sample.textIO false
    (utf8 (textFile false [32] 2 (@strRows F32 f32Text rows34))) = .ok e ∧
    @Faithful b32Ops e 1 [0x40800000, 0x40400000] := by
  obtain ⟨e, h1, h2⟩ := @C66_text_partial b32Ops Sample.textIO f32Text binary32_b32 false false [32] ⟨by decide, by
    intro c hc; rw [List.mem_singleton] at hc; subst hc; decide⟩ 2 rows34 textRows34b (fun _ => by simp [rows34])
  exact ⟨e, h1, (h2 1 _ _ rfl inRange43).2⟩

/-- A fastText file with one word and one n-gram, both with the vector (3, 4) -/
def ftFile34 : FtFile := { ftFile1 with rows := [[0x40400000, 0x40800000], [0x40400000, 0x40800000]] }

theorem ftFile34_ok : ftFile34.OK where
  ints := ftFile1_ok.ints
  buckets := ftFile1_ok.buckets
  range := ftFile1_ok.range
  prune := ftFile1_ok.prune
  count := ftFile1_ok.count
  nul := ftFile1_ok.nul
  text := ftFile1_ok.text
  nodup := ftFile1_ok.nodup
  shape := by decide
  cols := by decide
  size := by unfold ShapeOk; decide

example : ∃ e : Embeddings F32, Rd.run (@loadFasttext F32 b32Ops _ false) ftFile34.bytes = .ok e ∧
    @Faithful b32Ops e 0 [0x40400000, 0x40800000] := by
  obtain ⟨e, h1, h2⟩ := @C66_fasttext_partial b32Ops binary32_b32 ftFile34 ftFile34_ok false
  obtain ⟨_, is, sel, mean, g1, g2, g3, g4⟩ := h2 0 ([97], 7) rfl
  have := ftSubwords_unique g1 ftSub1
  subst this
  have hsel := forall₂_get_unique g2 (.cons rfl (.cons rfl .nil) :
    List.Forall₂ (fun j r => ftFile34.rows[j]? = some r) [0, 1]
      [[0x40400000, 0x40800000], [0x40400000, 0x40800000]])
  subst hsel
  have hm : mean = [0x40400000, 0x40800000] := by
    obtain ⟨s, b1, rfl⟩ := g3
    have := @isSum_unique F32 b32Ops _ _ _ _ b1 (@addReduce_isSum F32 b32Ops (cols := ftFile34.cols)
      (rows := [[0x40400000, 0x40800000], [0x40400000, 0x40800000]]) (by decide))
    subst this
    decide +kernel
  subst hm
  exact ⟨e, h1, g4 inRange34⟩

/-- A third is rounded to 11184811 / 2²⁵ and to nothing else. -/
example (b : F32) (h : RoundsTo (val 0x3F800000 / val 0x40400000) b) : b = 0x3EAAAAAB := by
  have h3 : val (0x40400000 : F32) ≠ 0 := by rw [Ne, val_zero_iff]; decide
  have hf : ∀ c ∈ ([0x3F800000, 0x40400000] : List F32), Finite c := by unfold F32.Finite; decide
  have h0 := (@C66_arith b32Ops binary32_b32 0x3F800000 0x40400000 (hf _ (by simp)) (hf _ (by simp))).2.2.2.1 h3
  have e : @NumOps.div F32 b32Ops 0x3F800000 0x40400000 = 0x3EAAAAAB := by decide +kernel
  rw [e] at h0
  rcases C66_determined _ b _ h h0 with h | h
  · exact h
  · have := val_zero_iff.mp h.2.2.2
    exact absurd this (by decide)

end Sample

end FF
