import Verif.Lemmas.StorageRows
import Verif.Props.C37
/-! C35: quantized embeddings are projected, scaled concatenations of centroids. -/

namespace FF

section
variable {K : Type} [NumOps K]

/-- Integer keys, negative ones counting from the end: the row the specification describes, of
length `reconstructed_len`; `IndexError` if there is none (index out of range, or a code without
centroid). -/
theorem C35_int (q : QArr K) (hq : QWF q) (i : Int) :
    (∀ v, q.getOne i = .ok v ↔
      ∃ j : Nat, j < q.codes.length ∧ (i = j ∨ i = j - q.codes.length) ∧ IsRow q j v) ∧
    (∀ v, q.getOne i = .ok v → v.length = q.pq.reconstructedLen) ∧
    ∀ e, q.getOne i = .error e → e = .indexError := by
  refine ⟨fun v => ?_, fun v h => getOne_length (s := .quant q) hq h, fun e h => qGetOne_err h⟩
  rw [qGetOne_ok hq]
  refine exists_congr fun j => ?_
  rw [npIndex_ok, and_assoc]

/-- At most one vector satisfies the specification of a row. -/
theorem C35_unique (q : QArr K) (i : Nat) (v v' : List K) (h : IsRow q i v) (h' : IsRow q i v') :
    v = v' := isRow_unique h h'

/-- If every code has a centroid then every row exists. -/
theorem C35_total (q : QArr K) (hq : QWF q) (hc : ∀ c ∈ q.codes, ∀ x ∈ c, x.toNat < q.pq.nCentroids)
    (i : Int) (hi : -(q.codes.length : Int) ≤ i ∧ i < q.codes.length) : ∃ v, q.getOne i = .ok v :=
  getOne_total (s := .quant q) hq hc hi

/-- List keys give the rows of the integer keys. -/
theorem C35_list (q : QArr K) (is : List Int) :
    (∀ vs, q.getMany is = .ok vs ↔ List.Forall₂ (fun i v => q.getOne i = .ok v) is vs) ∧
    ∀ e, q.getMany is = .error e → e = .indexError :=
  ⟨fun vs => by rw [qGetMany_eq, mapRes_ok], fun _ h => qGetMany_err h⟩

theorem embeddingSlice_eq {q : QArr K} (hq : QWF q) {s : PySlice} {is : List Nat}
    (h : slicePos q.codes.length s = .ok is) :
    q.embeddingSlice s = q.getMany (is.map fun i : Nat => (i : Int)) := by
  unfold QArr.embeddingSlice QArr.getMany
  rw [npSlice_eq, h]
  cases hn : q.norms with
  | none => rfl
  | some ns =>
    simp only
    rw [npSlice_eq, hq.norms ns hn, h]
    rfl

/-- `embedding(slice)` gives the rows at the positions of the slice. -/
theorem C35_slice (q : QArr K) (hq : QWF q) (s : PySlice) (h0 : s.step ≠ some 0) :
    ∃ is, SliceSel q.codes.length s is ∧
      (∀ vs, q.embeddingSlice s = .ok vs ↔
        List.Forall₂ (fun (i : Nat) v => IsRow q i v) is vs) ∧
      ∀ e, q.embeddingSlice s = .error e → e = .indexError := by
  cases hp : slicePos q.codes.length s with
  | error e => exact absurd (slicePos_err.mp hp).2 h0
  | ok is =>
    refine ⟨is, slicePos_sel hp, fun vs => ?_, fun e h => ?_⟩
    · rw [embeddingSlice_eq hq hp, (C35_list q _).1, List.forall₂_map_left_iff]
      have hl := slicePos_lt hp
      constructor
      · intro h
        refine h.imp ?_
        intro i v hi
        obtain ⟨j, _, hj, hr⟩ := ((C35_int q hq i).1 v).mp hi
        have : i = j := by omega
        rwa [this]
      · intro h
        rw [List.forall₂_iff_get] at h ⊢
        refine ⟨h.1, fun j h1 h2 => ?_⟩
        exact ((C35_int q hq _).1 _).mpr ⟨_, hl _ (List.get_mem _ _), Or.inl rfl, h.2 j h1 h2⟩
    · rw [embeddingSlice_eq hq hp] at h
      exact qGetMany_err h

end

/-- Over exact arithmetic the projection is the matrix product. -/
theorem C35_real (p : Mat ℝ) (u w : List ℝ) (hp : p.WF) (hu : u.length = p.cols)
    (h : IsProjected (some p) u w) (r : Nat) (row : List ℝ) (hr : p.rows[r]? = some row) :
    w[r]? = some (∑ c ∈ Finset.range p.cols, row.getD c 0 * u.getD c 0) := by
  rw [h.2 r row hr]
  have hl : row.length = p.cols := hp row (List.mem_of_getElem? hr)
  congr 1
  show sumProd u row = _
  clear hr h
  obtain ⟨cols, rows⟩ := p
  simp only at hu hl ⊢
  clear hp
  induction u generalizing row cols with
  | nil =>
    cases hu
    rfl
  | cons x u ih =>
    cases row with
    | nil => rw [← hl] at hu; cases hu
    | cons y row =>
      rw [← hu, List.length_cons, Finset.sum_range_succ']
      simp only [sumProd, List.getD_cons_succ, List.getD_cons_zero]
      rw [ih row u.length rfl (by simp at hl hu; omega)]
      ring

/-! ### The hypotheses can be met -/

/-- Two quantizers with two centroids of two components, a projection and norms. -/
example : ∃ q : QArr Int, QWF q ∧ q.pq.projection ≠ none ∧ q.norms ≠ none ∧
    q.getOne (-1) = .ok [12, 3, 18, 21] ∧ q.getMany [1, 0] = .ok [[12, 3, 18, 21], [12, 2, 4, 6]] ∧
    q.embeddingSlice ⟨some 1, none, none⟩ = .ok [[12, 3, 18, 21]] ∧ q.getOne 2 = .error .indexError
    := by
  refine ⟨⟨⟨2, 2, [[[1, 2], [1, 6]], [[3, 6], [7, 4]]],
    some ⟨4, [[0, 0, 0, 1], [1, 0, 0, 0], [0, 1, 0, 0], [0, 0, 1, 0]]⟩⟩, 2, [[0, 0], [1, 1]],
    some [2, 3]⟩, ⟨by decide, rfl, by decide, by decide, ?_, by simp, by decide, by decide,
    by decide⟩, by decide,
    by decide, by decide, by decide, by decide, by decide⟩
  intro p hp
  cases hp
  exact ⟨by unfold Mat.WF; decide, rfl, rfl⟩

end FF
