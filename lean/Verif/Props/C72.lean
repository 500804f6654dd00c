import Verif.Lemmas.QuantFloat
import Verif.Lemmas.QuantizedCalls
import Verif.Props.C70
import Verif.Props.C71
/-!
# C72: quantized vectors in float32 arithmetic

The row of a quantized storage is the concatenation of centroids, projected and multiplied by its norm.  With the
operations of IEEE 754 binary32 every component is right up to rounding, whatever the order of summation; without a
projection it is correctly rounded and does not depend on the machine.
-/

namespace FF

open F32

section
variable [NumOps F32]

/-- The vectors of quantized storages are right up to rounding. -/
theorem C72_row (hB : Binary32) (q : QArr F32) (hm : QMild q) (i : Nat) (v : List F32) (h : IsRow q i v) :
    RowApprox q i v := by
  obtain ⟨codes, u, w, h1, h2, h3, h4⟩ := h
  have hu := concat_mild hm h2
  have hul : u.length ≤ 2 ^ 20 := by rw [isConcat_length h2]; exact hm.length
  refine ⟨codes, u, h1, h2, ?_⟩
  cases hp : q.pq.projection with
  | none =>
    rw [hp] at h3
    have h3 : w = u := h3
    subst h3
    cases hn : q.norms with
    | none =>
      rw [hn] at h4
      have h4 : v = w := h4
      subst h4
      exact ⟨fun y hy => (hu y hy).1, rfl⟩
    | some ns =>
      rw [hn] at h4
      obtain ⟨n, h5, h6, rfl⟩ := scaled_plain hB hm hn hu h4
      refine ⟨?_, n, h5, by simp, fun t x y hx hy => ?_⟩
      · intro y hy
        obtain ⟨x, hx, rfl⟩ := List.mem_map.mp hy
        exact (mild_mul hB h6 (hu x hx)).2.1
      · rw [List.getElem?_map, hx] at hy
        cases hy
        exact (mild_mul hB h6 (hu x (List.mem_of_getElem? hx))).2.2
  | some p =>
    rw [hp] at h3
    obtain ⟨h5, h6⟩ : w.length = p.rows.length ∧
      ∀ (r : Nat) row, p.rows[r]? = some row → w[r]? = some (NumOps.dot u row) := h3
    have hdot := dot_mild hB hm hp hu hul
    have row_of : ∀ t, t < p.rows.length → ∃ r, p.rows[t]? = some r ∧ r ∈ p.rows :=
      fun t ht => ⟨_, List.getElem?_eq_getElem ht, List.getElem_mem ht⟩
    cases hn : q.norms with
    | none =>
      rw [hn] at h4
      have h4 : v = w := h4
      subst h4
      refine ⟨fun y hy => ?_, 1, rfl, h5, fun t r y hr hy => ?_⟩
      · obtain ⟨t, ht, rfl⟩ := List.getElem_of_mem hy
        obtain ⟨r, hr, hmem⟩ := row_of t (by omega)
        have := h6 t r hr
        rw [List.getElem?_eq_getElem ht] at this
        rw [Option.some.inj this]
        exact (mild_unscaled hu (hm.proj p hp r hmem) hul (hdot r hmem)).1
      · rw [h6 t r hr] at hy
        cases hy
        have hmem := List.mem_of_getElem? hr
        exact (mild_unscaled hu (hm.proj p hp r hmem) hul (hdot r hmem)).2
    | some ns =>
      rw [hn] at h4
      obtain ⟨n, h7, h8, h9⟩ := h4
      have hnm := hm.norms ns hn n (List.mem_of_getElem? h7)
      refine ⟨fun y hy => ?_, val n, ⟨n, h7, rfl⟩, by rw [h8, h5], fun t r y hr hy => ?_⟩
      · obtain ⟨t, ht, rfl⟩ := List.getElem_of_mem hy
        obtain ⟨r, hr, hmem⟩ := row_of t (by omega)
        have := h9 t _ (h6 t r hr)
        rw [List.getElem?_eq_getElem ht] at this
        rw [Option.some.inj this]
        exact (mild_scaled hB hu (hm.proj p hp r hmem) hul hnm (hdot r hmem)).1
      · have := h9 t _ (h6 t r hr)
        rw [hy] at this
        cases this
        have hmem := List.mem_of_getElem? hr
        exact (mild_scaled hB hu (hm.proj p hp r hmem) hul hnm (hdot r hmem)).2

/-- Lookups: for every key, the array that `embedding` returns holds such vectors. -/
theorem C72_lookup (hB : Binary32) (h : Heap F32) (q : HQArr) (hv : Valids h q.views) (hw : QWF (q.val h))
    (hm : QMild (q.val h)) (key : Key) (s is : List Nat) (hk : KeySel q.codes.length key s is)
    (hc : RowsCoded (q.val h) is) :
    ∃ a h', q.embeddingAll key none h = (.ok a, h') ∧ a.shape = s ++ [q.pq.reconstructedLen] ∧
      ∀ (k i : Nat), is[k]? = some i → RowApprox (q.val h) i
        (((h'.read a.view).drop (k * q.pq.reconstructedLen)).take q.pq.reconstructedLen) := by
  obtain ⟨a, h', h1, h2, h3, _⟩ := C71_fresh hv hw key s is hk hc
  have hd : (q.val h).pq.reconstructedLen = q.pq.reconstructedLen := nCols_val (h := h) (.quant q)
  refine ⟨a, h', h1, h2, fun k i hi => C72_row hB _ hm i _ ?_⟩
  rw [← hd]
  exact h3.2 k i hi

end

/-- Two machines that sum up in different orders: without a projection the vectors are the same. -/
theorem C72_machines_plain (A B : NumOps F32) (hA : @Binary32 A) (hB : @Binary32 B) (q : QArr F32) (hm : QMild q)
    (hp : q.pq.projection = none) (i : Nat) (v w : List F32) (hv : @IsRow F32 A q i v) (hw : @IsRow F32 B q i w) :
    v = w := by
  obtain ⟨c1, u1, w1, a1, a2, a3, a4⟩ := hv
  obtain ⟨c2, u2, w2, b1, b2, b3, b4⟩ := hw
  rw [a1] at b1
  cases b1
  have hu : u1 = u2 := isConcat_unique a2 b2
  subst hu
  rw [hp] at a3 b3
  have a3 : w1 = u1 := a3
  have b3 : w2 = u1 := b3
  subst a3
  subst b3
  have hu := concat_mild hm a2
  cases hn : q.norms with
  | none =>
    rw [hn] at a4 b4
    exact Eq.trans a4 (Eq.symm b4)
  | some ns =>
    rw [hn] at a4 b4
    obtain ⟨n, x1, _, rfl⟩ := @scaled_plain A q i _ v hA hm ns hn hu a4
    obtain ⟨n', x2, _, rfl⟩ := @scaled_plain B q i _ w hB hm ns hn hu b4
    rw [x1] at x2
    cases x2
    rfl

/-- With a projection they differ by at most twice the rounding error. -/
theorem C72_machines_projected (A B : NumOps F32) (hA : @Binary32 A) (hB : @Binary32 B) (q : QArr F32)
    (hm : QMild q) (p : Mat F32) (hp : q.pq.projection = some p) (i : Nat) (v w : List F32) (hv : @IsRow F32 A q i v)
    (hw : @IsRow F32 B q i w) :
    ∃ codes u n, q.codes[i]? = some codes ∧ IsConcat q.pq codes u ∧ Factor q.norms i n ∧ v.length = w.length ∧
      ∀ (t : Nat) r y z, p.rows[t]? = some r → v[t]? = some y → w[t]? = some z →
        |val y - val z| ≤ 2 * projErr u.length n (u.map val) (r.map val) := by
  obtain ⟨c1, u1, a1, a2, _, a3⟩ := @C72_row A hA q hm i v hv
  obtain ⟨c2, u2, b1, b2, _, b3⟩ := @C72_row B hB q hm i w hw
  rw [hp] at a3 b3
  dsimp only at a3 b3
  obtain ⟨n1, a3, a4, a5⟩ := a3
  obtain ⟨n2, b3, b4, b5⟩ := b3
  rw [a1] at b1
  cases b1
  have hu : u1 = u2 := isConcat_unique a2 b2
  subst hu
  have hn : n1 = n2 := by
    unfold Factor at a3 b3
    cases hq : q.norms with
    | none => rw [hq] at a3 b3; exact a3.trans b3.symm
    | some ns =>
      rw [hq] at a3 b3
      obtain ⟨x, x1, rfl⟩ := a3
      obtain ⟨y, y1, rfl⟩ := b3
      rw [x1] at y1
      cases y1
      rfl
  subst hn
  refine ⟨c1, u1, n1, a1, a2, a3, a4.trans b4.symm, fun t r y z hr hy hz => ?_⟩
  have e1 := a5 t r y hr hy
  have e2 := b5 t r z hr hz
  have : val y - val z = (val y - n1 * exactDot (u1.map val) (r.map val)) -
    (val z - n1 * exactDot (u1.map val) (r.map val)) := by ring
  rw [this]
  refine (abs_sub _ _).trans ?_
  linarith

/-! ### The hypotheses can be met -/

theorem mild_of {x : F32} (h : B32.mant x ≤ 0x4E800000) : Mild x := by
  refine ⟨isFin_iff.mp ?_, ?_⟩
  · unfold B32.isFin
    exact decide_eq_true (lt_of_le_of_lt h (by decide))
  · rw [abs_val, div_le_iff₀ (by positivity), ← pow_add]
    have h1 := mag_mono h
    have h2 : B32.mag 0x4E800000 = 2 ^ 179 := by
      unfold B32.mag
      norm_num
    rw [h2] at h1
    exact_mod_cast h1

/-- The additions from right to left -/
@[instance_reducible] def Sample.b32Rev : NumOps F32 :=
  { b32Ops with dot := fun xs ys => B32.sum (((xs.zip ys).map fun p => B32.mul p.1 p.2).reverse) }

theorem Sample.binary32_rev : @Binary32 Sample.b32Rev := by
  refine @Binary32.mk Sample.b32Rev rfl (fun _ => rfl) (fun _ _ => .inl rfl) (fun _ _ => .inl rfl) (fun _ _ => .inl rfl)
    (fun _ _ => .inl rfl) (fun xs ys => ⟨_, ?_, .inl rfl⟩) (fun v => ⟨_, dot_b32 v v, .inl rfl⟩)
    (fun v => ⟨_, dot_b32 v v, .inl rfl⟩)
  show Dot (xs.zip ys) (B32.sum (((xs.zip ys).map fun p => B32.mul p.1 p.2).reverse))
  rw [← List.map_reverse]
  refine .perm (List.reverse_perm _) ?_
  cases h : (xs.zip ys).reverse with
  | nil => exact .nil
  | cons p ps => exact dot_sum_b32 ps [p] _ (.mul p.1 p.2)

/-- The centroids `2²⁴`, `1` and `-2²⁴`, and a projection to their sum; norms 3 and 1. -/
def Sample.qf : QArr F32 :=
  ⟨⟨1, 1, [[[0x4B800000]], [[0x3F800000]], [[0xCB800000]]],
    some ⟨3, [[0x3F800000, 0x3F800000, 0x3F800000], [0x3F800000, 0, 0], [0, 0x3F800000, 0]]⟩⟩, 3,
    [[0, 0, 0], [0, 0, 0]], some [0x40400000, 0x3F800000]⟩

theorem Sample.qf_mild : QMild Sample.qf := by
  refine ⟨?_, ?_, ?_, by decide⟩
  · have : ∀ m ∈ Sample.qf.pq.quantizers, ∀ r ∈ m, ∀ x ∈ r, B32.mant x ≤ 0x4E800000 := by decide
    exact fun m hm r hr x hx => mild_of (this m hm r hr x hx)
  · intro p hp
    cases hp
    have : ∀ r ∈ [[(0x3F800000 : F32), 0x3F800000, 0x3F800000], [0x3F800000, 0, 0], [0, 0x3F800000, 0]], ∀ x ∈ r,
        B32.mant x ≤ 0x4E800000 := by decide
    exact fun r hr x hx => mild_of (this r hr x hx)
  · intro ns hn
    cases hn
    have : ∀ x ∈ [(0x40400000 : F32), 0x3F800000], B32.mant x ≤ 0x4E800000 := by decide
    exact fun x hx => mild_of (this x hx)

theorem Sample.qf_wf : QWF Sample.qf := by
  refine ⟨by decide, rfl, by decide, by decide, ?_, ?_, by decide, by decide, by decide⟩
  · intro p hp
    cases hp
    exact ⟨by unfold Mat.WF; decide, rfl, rfl⟩
  · intro n hn
    cases hn
    decide

/-- One machine computes `[0, 3 * 2²⁴, 3]`, the other `[3, 3 * 2²⁴, 3]`. -/
example : @QArr.getOne F32 b32Ops Sample.qf 0 = .ok [0, 0x4C400000, 0x40400000] ∧
    @QArr.getOne F32 Sample.b32Rev Sample.qf 0 = .ok [0x40400000, 0x4C400000, 0x40400000] ∧
    @IsRow F32 b32Ops Sample.qf 0 [0, 0x4C400000, 0x40400000] ∧
    @IsRow F32 Sample.b32Rev Sample.qf 0 [0x40400000, 0x4C400000, 0x40400000] := by
  have h1 : @QArr.getOne F32 b32Ops Sample.qf 0 = .ok [0, 0x4C400000, 0x40400000] := by decide +kernel
  have h2 : @QArr.getOne F32 Sample.b32Rev Sample.qf 0 = .ok [0x40400000, 0x4C400000, 0x40400000] := by decide +kernel
  refine ⟨h1, h2, ?_, ?_⟩
  · obtain ⟨j, hj, hr⟩ := (@qGetOne_ok F32 b32Ops _ Sample.qf_wf _ _).mp h1
    cases hj
    exact hr
  · obtain ⟨j, hj, hr⟩ := (@qGetOne_ok F32 Sample.b32Rev _ Sample.qf_wf _ _).mp h2
    cases hj
    exact hr

/-- The same storage in memory -/
def Sample.heapF : Heap F32 :=
  [⟨[0x4B800000, 0x3F800000, 0xCB800000], false⟩,
    ⟨[0x3F800000, 0x3F800000, 0x3F800000, 0x3F800000, 0, 0, 0, 0x3F800000, 0], false⟩, ⟨[0x40400000, 0x3F800000], true⟩]

def Sample.hqf : HQArr :=
  ⟨⟨1, 1, [⟨0, 1, [[0]]⟩, ⟨0, 1, [[1]]⟩, ⟨0, 1, [[2]]⟩], some ⟨1, 3, [[0, 1, 2], [3, 4, 5], [6, 7, 8]]⟩⟩, 3,
    [[0, 0, 0], [0, 0, 0]], some ⟨2, [0, 1]⟩⟩

example : Sample.hqf.val Sample.heapF = Sample.qf ∧ Valids Sample.heapF Sample.hqf.views ∧
    KeySel Sample.hqf.codes.length (.arr [1, 1] [-1]) [1, 1] [1] ∧ RowsCoded (Sample.hqf.val Sample.heapF) [1] := by
  refine ⟨rfl, ?_, ⟨rfl, .cons ⟨by decide, by decide⟩ .nil⟩, ?_⟩
  · intro v hv
    have hv : v ∈ [⟨0, [0]⟩, ⟨0, [1]⟩, ⟨0, [2]⟩, ⟨1, [0, 1, 2]⟩, ⟨1, [3, 4, 5]⟩, ⟨1, [6, 7, 8]⟩, (⟨2, [0, 1]⟩ : View)] := hv
    have hval : ∀ v ∈ [⟨0, [0]⟩, ⟨0, [1]⟩, ⟨0, [2]⟩, ⟨1, [0, 1, 2]⟩, ⟨1, [3, 4, 5]⟩, ⟨1, [6, 7, 8]⟩, (⟨2, [0, 1]⟩ : View)],
        (Sample.heapF[v.loc]?.any fun b => v.idxs.all fun i => decide (i < b.data.length)) = true := by decide
    have := hval v hv
    cases hb : Sample.heapF[v.loc]? with
    | none => rw [hb] at this; cases this
    | some b =>
      rw [hb] at this
      exact ⟨b, hb, fun i hi => by
        have := List.all_eq_true.mp this i hi
        simpa using this⟩
  · intro i hi c hc x hx
    rw [List.mem_singleton] at hi
    subst hi
    cases hc
    simp only [List.mem_cons, List.not_mem_nil, or_false, or_self] at hx
    subst hx
    decide

/-- Numbers that are too large become infinite: the norm `2¹²⁷` and the centroid 4. -/
example : @QArr.getOne F32 b32Ops ⟨⟨1, 1, [[[0x40800000]]], none⟩, 1, [[0]], some [0x7F000000]⟩ 0 = .ok [posInf] := by
  decide +kernel

end FF
