import Verif.Lemmas.Word2VecCut
import Verif.Lemmas.Word2VecOne
import Verif.Props.C38
/-! C39: truncated word2vec files. -/

namespace FF

section
variable {K : Type} [NumOps K] [Codec K]

/-- Every proper prefix of a word2vec file with at least one row is rejected, except: the prefix
that lacks only the final newline (see `C39_newline`), and, for vectors of two or more
components, the prefixes that contain exactly one complete component of the last vector.  Missing:
the latter are accepted, see `C39_refuted`; so are prefixes of files without rows, see
`C39_empty_refuted`. -/
theorem C39_raises_partial (lossy : Bool) (cols : Nat) (rows : List (PyStr × List F32))
    (hw : ∀ p ∈ rows, W2vWord p.1) (hl : ∀ p ∈ rows, p.2.length = cols)
    (hne : rows ≠ []) (hs : ShapeOk rows.length cols) (k : Nat)
    (hk : k < (w2vFile cols rows).length - 1)
    (h1 : ¬ (2 ≤ cols ∧ (w2vFile cols rows).length - 1 - 4 * cols + 4 ≤ k ∧
      k < (w2vFile cols rows).length - 1 - 4 * cols + 8)) :
    ∃ e, Rd.run (loadWord2vec (K := K) lossy) ((w2vFile cols rows).take k) = .error e := by
  refine loadWord2vec_cut lossy rows hw hl hne hs k (by omega) ?_
  rintro ⟨a, b, c⟩
  have hge : 4 * cols + 1 ≤ (w2vFile cols rows).length := by
    obtain ⟨p, hp⟩ := List.exists_mem_of_ne_nil rows hne
    have h2 : (f32sLE p.2).length ≤ (rows.flatMap fun p => utf8 p.1 ++ [32] ++ f32sLE p.2 ++ [10]).length := by
      rw [List.length_flatMap]
      refine le_trans ?_ (List.single_le_sum (by simp) _ (List.mem_map_of_mem hp))
      simp only [List.length_append]
      omega
    have h3 : 0 < (utf8 (decimal rows.length ++ [32] ++ decimal cols ++ [10])).length := by
      have := utf8_dims rows.length cols
      unfold dimsLine at this
      rw [this]
      simp
    unfold w2vFile
    rw [List.length_append]
    rw [length_f32sLE, hl p hp] at h2
    omega
  exact h1 ⟨a, by omega, by omega⟩

/-- Without the final newline the file loads as if it were complete. -/
theorem C39_newline (lossy : Bool) (cols : Nat) (rows : List (PyStr × List F32))
    (hw : ∀ p ∈ rows, W2vWord p.1) (hl : ∀ p ∈ rows, p.2.length = cols)
    (hn : (rows.map Prod.fst).Nodup) (hne : rows ≠ []) (hs : ShapeOk rows.length cols) :
    Rd.run (loadWord2vec (K := K) lossy) ((w2vFile cols rows).take ((w2vFile cols rows).length - 1))
      = Rd.run (loadWord2vec lossy) (w2vFile cols rows) := by
  rw [loadWord2vec_ok lossy rows hw hl hn hs, w2vFile_eq, if_neg hne]
  have := (loadWord2vec_parses (K := K) lossy rows hw hl hn hs).run []
  rw [List.append_nil] at this
  rw [List.length_append, List.length_singleton, Nat.add_sub_cancel, List.take_left, this]

/-- What is loaded from an accepted proper prefix: the file whose last vector repeats its first
component. -/
theorem C39_broadcast (lossy : Bool) (cols : Nat) (init : List (PyStr × List F32)) (w : PyStr)
    (x : F32) (xs : List F32) (hw : ∀ p ∈ init ++ [(w, x :: xs)], W2vWord p.1)
    (hl : ∀ p ∈ init ++ [(w, x :: xs)], p.2.length = cols)
    (hn : ((init ++ [(w, x :: xs)]).map Prod.fst).Nodup)
    (hs : ShapeOk (init ++ [(w, x :: xs)]).length cols) (k : Nat) (hc : 2 ≤ cols)
    (hk : (w2vFile cols (init ++ [(w, x :: xs)])).length - 1 + 4 ≤ k + 4 * cols)
    (hk' : k + 4 * cols < (w2vFile cols (init ++ [(w, x :: xs)])).length - 1 + 8) :
    Rd.run (loadWord2vec (K := K) lossy) ((w2vFile cols (init ++ [(w, x :: xs)])).take k) =
      Rd.run (loadWord2vec lossy) (w2vFile cols (init ++ [(w, List.replicate cols x)])) := by
  rw [loadWord2vec_one lossy init w x xs hw hl hn hs k ⟨hc, hk, hk'⟩,
    loadWord2vec_ok lossy _ ?_ ?_ ?_ ?_]
  · intro p hp
    rw [List.mem_append, List.mem_singleton] at hp
    rcases hp with hp | rfl
    · exact hw p (List.mem_append_left _ hp)
    · exact hw (w, x :: xs) (by simp)
  · intro p hp
    rw [List.mem_append, List.mem_singleton] at hp
    rcases hp with hp | rfl
    · exact hl p (List.mem_append_left _ hp)
    · exact List.length_replicate
  · simpa using hn
  · simpa using hs

/-- Exactly which proper prefixes load, for files with rows and distinct words: those with one
complete component of the last of several, and those lacking only the final newline. -/
theorem C39_exact (lossy : Bool) (cols : Nat) (rows : List (PyStr × List F32))
    (hw : ∀ p ∈ rows, W2vWord p.1) (hl : ∀ p ∈ rows, p.2.length = cols)
    (hn : (rows.map Prod.fst).Nodup) (hne : rows ≠ []) (hs : ShapeOk rows.length cols) (k : Nat)
    (hk : k < (w2vFile cols rows).length) :
    (∃ e, Rd.run (loadWord2vec (K := K) lossy) ((w2vFile cols rows).take k) = .ok e) ↔
      (k + 1 = (w2vFile cols rows).length ∨
        2 ≤ cols ∧ (w2vFile cols rows).length + 3 ≤ k + 4 * cols ∧
          k + 4 * cols < (w2vFile cols rows).length + 7) := by
  constructor
  · rintro ⟨e, he⟩
    by_contra hcon
    obtain ⟨er, her⟩ := loadWord2vec_cut (K := K) lossy rows hw hl hne hs k (by omega) (by
      rintro ⟨a, b, c⟩
      exact hcon (Or.inr ⟨a, by omega, by omega⟩))
    rw [he] at her
    cases her
  · rintro (h | ⟨a, b, c⟩)
    · obtain rfl : k = (w2vFile cols rows).length - 1 := by omega
      rw [C39_newline lossy cols rows hw hl hn hne hs, loadWord2vec_ok lossy rows hw hl hn hs]
      exact ⟨_, rfl⟩
    · obtain ⟨init, ⟨w, v⟩, rfl⟩ : ∃ init p, rows = init ++ [p] :=
        ⟨rows.dropLast, rows.getLast hne, (List.dropLast_append_getLast hne).symm⟩
      have hv := hl (w, v) (by simp)
      cases v with
      | nil => simp only [List.length_nil] at hv; omega
      | cons x xs =>
        exact ⟨_, loadWord2vec_one lossy init w x xs hw hl hn hs k
          ⟨a, by omega, by omega⟩⟩

end

/-- The claim fails: after a cut inside the second of two components the remaining first one is
broadcast over the whole vector. -/
theorem C39_refuted : ¬ ∀ (cols : Nat) (rows : List (PyStr × List F32)),
    (∀ p ∈ rows, W2vWord p.1) → (∀ p ∈ rows, p.2.length = cols) → rows ≠ [] →
    ShapeOk rows.length cols → ∀ k, k < (w2vFile cols rows).length - 1 →
    ∃ e, Rd.run (@loadWord2vec F32 Sample.f32Ops _ false) ((w2vFile cols rows).take k) =
      .error e := by
  intro h
  obtain ⟨e, he⟩ := h 2 [([97], [7, 14])]
    (by
      intro p hp
      rw [List.mem_singleton] at hp
      subst hp
      exact Sample.w2vWords _ (by decide))
    (by decide) (by decide) (by unfold ShapeOk; decide) 10 (by decide +kernel)
  have : Sample.errOf (Rd.run (@loadWord2vec F32 Sample.f32Ops _ false)
      ((w2vFile 2 [([97], [7, 14])]).take 10)) = none := by decide +kernel
  rw [he] at this
  cases this

/-- A file without rows has no payload; its header may be cut. -/
theorem C39_empty_refuted : ∃ k, k < (w2vFile 12 []).length - 1 ∧
    ∃ e, Rd.run (@loadWord2vec F32 Sample.f32Ops _ false) ((w2vFile 12 []).take k) = .ok e ∧
      e.storage = .nd ⟨1, []⟩ := by
  refine ⟨3, by decide +kernel, ?_⟩
  obtain ⟨e, he⟩ := Sample.ok_of_errOf (r := Rd.run (@loadWord2vec F32 Sample.f32Ops _ false)
    ((w2vFile 12 []).take 3)) (by decide +kernel)
  refine ⟨e, he, ?_⟩
  have : (match Rd.run (@loadWord2vec F32 Sample.f32Ops _ false) ((w2vFile 12 []).take 3) with
    | .ok e => decide (e.storage = .nd ⟨1, []⟩)
    | .error _ => false) = true := by decide +kernel
  rw [he] at this
  exact of_decide_eq_true this

example : ∀ k, k < 14 → k ≠ 10 → k ≠ 11 → k ≠ 12 → k ≠ 13 →
    ∃ e, Rd.run (@loadWord2vec F32 Sample.f32Ops _ false) ((w2vFile 2 [([97], [7, 14])]).take k) =
      .error e := by
  intro k h1 h2 h3 h4 h5
  have hl : (w2vFile 2 [([97], [7, 14])]).length = 15 := by decide +kernel
  refine @C39_raises_partial F32 Sample.f32Ops _ false 2 [([97], [7, 14])]
    (by
      intro p hp
      rw [List.mem_singleton] at hp
      subst hp
      exact Sample.w2vWords _ (by decide))
    (by decide) (by decide) (by unfold ShapeOk; decide) k (by omega) (by omega)

example : Rd.run (@loadWord2vec F32 Sample.f32Ops _ false) ((w2vFile 2 [([97], [7, 14])]).take 12) =
    Rd.run (@loadWord2vec F32 Sample.f32Ops _ false) (w2vFile 2 [([97], [7, 7])]) :=
  have hl : (w2vFile 2 [([97], [7, 14])]).length = 15 := by decide +kernel
  @C39_broadcast F32 Sample.f32Ops _ false 2 [] [97] 7 [14]
    (by
      intro p hp
      rw [List.nil_append, List.mem_singleton] at hp
      subst hp
      exact Sample.w2vWords _ (by decide))
    (by decide) (by decide) (by unfold ShapeOk; decide) 12 (by decide)
    (by rw [List.nil_append, hl]; decide) (by rw [List.nil_append, hl]; decide)

example : ∀ k, k < 15 →
    ((∃ e, Rd.run (@loadWord2vec F32 Sample.f32Ops _ false) ((w2vFile 2 [([97], [7, 14])]).take k) =
      .ok e) ↔ 10 ≤ k) := by
  intro k hk
  have hl : (w2vFile 2 [([97], [7, 14])]).length = 15 := by decide +kernel
  rw [@C39_exact F32 Sample.f32Ops _ false 2 [([97], [7, 14])]
    (by
      intro p hp
      rw [List.mem_singleton] at hp
      subst hp
      exact Sample.w2vWords _ (by decide))
    (by decide) (by decide) (by decide) (by unfold ShapeOk; decide) k (by omega), hl]
  omega

end FF
