import Verif.Lemmas.DamageW2v
import Verif.Lemmas.FtExact
import Verif.Spec.DamageFt
/-! Replacing bytes of a row of a fastText file. -/

namespace FF
open Fifu

/-- The rows before a row, the row, and those behind it. -/
theorem flatten_row {α : Type} {c : Nat} {rows : List (List α)} (h : ∀ r ∈ rows, r.length = c) {i : Nat} {row : List α}
    (hi : rows[i]? = some row) :
    ∃ a b : List α, a.length = c * i ∧ rows.flatten = a ++ (row ++ b) ∧
      ∀ row', (rows.set i row').flatten = a ++ (row' ++ b) := by
  induction rows generalizing i with
  | nil => simp at hi
  | cons r rs ih =>
    cases i with
    | zero =>
      simp only [List.getElem?_cons_zero, Option.some.injEq] at hi
      subst hi
      exact ⟨[], rs.flatten, rfl, by simp, by simp⟩
    | succ i =>
      obtain ⟨a, b, h1, h2, h3⟩ := ih (fun r' hr' => h r' (by simp [hr'])) (by simpa using hi)
      refine ⟨r ++ a, b, ?_, ?_, ?_⟩
      · rw [List.length_append, h r (by simp), h1, Nat.mul_succ]; omega
      · rw [List.flatten_cons, h2, List.append_assoc]
      · intro row'
        rw [List.set_cons_succ, List.flatten_cons, h3, List.append_assoc]

/-- The file with another row. -/
theorem ftOK_row {f : FtFile} (hf : f.OK) (i : Nat) {row : List F32} (hr : row.length = f.cols) :
    ({ f with rows := f.rows.set i row } : FtFile).OK := by
  refine ⟨hf.ints, hf.buckets, hf.range, hf.prune, hf.count, hf.nul, hf.text, hf.nodup, ?_, ?_, ?_⟩
  · show (f.rows.set i row).length = _
    rw [List.length_set]; exact hf.shape
  · intro r h
    rcases List.mem_or_eq_of_mem_set h with h | h
    · exact hf.cols r h
    · rw [h]; exact hr
  · show ShapeOk (f.rows.set i row).length _
    rw [List.length_set]; exact hf.size

/-- The rows of the matrix of a file. -/
theorem ftRow_damage {lossy : Bool} {L : FtLayout} {f : FtFile} (hL : L.Fits) (hr : L.Reads lossy f) (hf : f.OK) :
    ∃ start, ∀ (i : Nat) row, f.rows[i]? = some row → HasAt L.bytes (start + 4 * f.cols * i) (floats row) ∧
      ∀ bs', DiffersWithin L.bytes bs' (start + 4 * f.cols * i) (start + 4 * f.cols * (i + 1)) →
        ∃ row' L', row'.length = f.cols ∧ HasAt bs' (start + 4 * f.cols * i) (floats row') ∧
          FtLayout.Fits L' ∧ L'.bytes = bs' ∧ L'.Reads lossy { f with rows := f.rows.set i row' } := by
  obtain ⟨E, hE⟩ : ∃ E, ∀ r, ({ L with rest := r } : FtLayout).bytes = E ++ r := ⟨sle 4 793712314 ++ sle 4 12 ++
    L.args.flatMap (sle 4) ++ le 8 L.threshold.toNat ++ sle 4 L.nEntries ++ sle 4 L.nWords ++ sle 4 0 ++ sle 8 L.nTokens ++
    sle 8 L.prune ++ L.entries.flatMap ftEntryBytes ++ [0] ++ sle 8 L.rows ++ sle 8 L.cols, fun r => rfl⟩
  have hLb : L.bytes = E ++ L.rest := hE L.rest
  obtain ⟨hm, hdim⟩ := hr.matrix
  refine ⟨E.length, fun i row hi => ?_⟩
  obtain ⟨a, b, ha, hfl, hset⟩ := flatten_row hf.cols hi
  have hrow : row.length = f.cols := hf.cols row (List.mem_of_getElem? hi)
  have hpos : (E ++ f32sLE a).length = E.length + 4 * f.cols * i := by
    rw [List.length_append, length_f32sLE, ha, Nat.mul_assoc]
  have hend : (E ++ f32sLE a).length + (f32sLE row).length = E.length + 4 * f.cols * (i + 1) := by
    rw [hpos, length_f32sLE, hrow, Nat.mul_succ]; omega
  have hshape : ∀ r : List F32, E ++ (f32sLE (a ++ (r ++ b)) ++ f.output) =
      (E ++ f32sLE a) ++ (f32sLE r ++ (f32sLE b ++ f.output)) := by
    intro r; simp [f32sLE_append]
  have hbs : L.bytes = (E ++ f32sLE a) ++ (f32sLE row ++ (f32sLE b ++ f.output)) := by
    rw [hLb, hm, hfl, hshape]
  rw [← hpos, ← hend, floats_eq]
  refine ⟨by rw [hbs]; exact hasAt_mid, fun bs' hd => ?_⟩
  obtain ⟨mid, hml, rfl⟩ := split_at hbs hd
  rw [length_f32sLE, hrow] at hml
  have hback := f32sLE_f32sOf mid (by omega)
  have hl' : (f32sOf mid).length = f.cols := by
    have := congrArg List.length hback
    rw [length_f32sLE] at this; omega
  refine ⟨f32sOf mid, { L with rest := f32sLE ((f.rows.set i (f32sOf mid)).flatten) ++ f.output }, hl', ?_, ?_, ?_, ?_⟩
  · rw [floats_eq, hback]; exact hasAt_mid
  · exact ⟨hL.count, hL.args, hL.sizes, hL.longs, hL.freqs, hL.nul, hL.entries⟩
  · rw [hE, hset, hshape, hback]
  · refine ⟨hr.args, hr.threshold, hr.sizes, hr.words, rfl, ?_⟩
    have hne : f.rows ≠ [] → f.rows.set i (f32sOf mid) ≠ [] := by
      intro h h'
      exact h (List.length_eq_zero_iff.mp (by rw [← List.length_set (as := f.rows) (i := i), h']; rfl))
    rcases hdim with h | ⟨h1, h2, h | ⟨h3, h4, h5⟩⟩
    · exact Or.inl ⟨by simpa using h.1, h.2⟩
    · exact Or.inr ⟨h1, h2, Or.inl h⟩
    · exact Or.inr ⟨h1, h2, Or.inr ⟨h3, hne h4, by simpa using h5⟩⟩

section
variable {K : Type} [NumOps K]

omit [NumOps K] in
theorem forall₂_rows {xs ys : List (List K)} {js : List Nat} {sel : List (List K)}
    (hj : ∀ j ∈ js, xs[j]? = ys[j]?) (h : List.Forall₂ (fun j x => xs[j]? = some x) js sel) :
    List.Forall₂ (fun j x => ys[j]? = some x) js sel := by
  induction h with
  | nil => exact .nil
  | cons hd _ ih =>
    refine .cons ?_ (ih fun j h => hj j (List.mem_cons_of_mem _ h))
    rw [← hd, hj _ (by simp)]

/-- What does not use the row is as before. -/
theorem ftLoaded_row {f : FtFile} (hf : f.OK) {raw : List (List K)} (hraw : raw.length = f.rows.length) {i : Nat}
    {r : List K} {rs : List (List F32)} {e e' : Embeddings K} (h : FtLoaded f raw e)
    (h' : FtLoaded { f with rows := rs } (raw.set i r) e') :
    e'.vocab = e.vocab ∧ e'.metadata = e.metadata ∧
    ∀ u, u.any isSurrogate = false → ¬ f.Uses u i →
      e'.embedding u = e.embedding u ∧ e'.embeddingWithNorm u = e.embeddingWithNorm u := by
  obtain ⟨w, s, b, m, rows, norms, h1, h2, h3, h4, h5, h6⟩ := h
  obtain ⟨w', s', b', m', rows', norms', h1', h2', h3', h4', h5', h6'⟩ := h'
  simp only at w' s' m' h1' h4' h5' h6'
  rw [List.length_set] at h3'
  have hv : e'.vocab = e.vocab := by
    have g := b.vocab.2
    have g' := b'.vocab.2
    rw [w, s] at g
    rw [w', s', g] at g'
    exact (Except.ok.inj g').symm
  have hwl : e.vocab.words.length = f.words.length := by rw [w, List.length_map]
  refine ⟨hv, m'.trans m.symm, fun u hu hno => ?_⟩
  have hone : ∀ j : Nat, (f.words.map Prod.fst)[j]? = some u → rows'[j]? = rows[j]? ∧ norms'[j]? = norms[j]? := by
    intro j hj
    obtain ⟨is, sel, mean, a1, a2, ⟨t, a3, a3'⟩, a4, a5⟩ := h6 j _ hj
    obtain ⟨is', sel', mean', b1, b2, ⟨t', b3, b3'⟩, b4, b5⟩ := h6' j _ hj
    have := ftSubwords_unique a1 b1
    subst this
    have hi : i ∉ j :: is := by
      intro hm
      rcases List.mem_cons.mp hm with rfl | hm
      · exact hno (Or.inl hj)
      · exact hno (Or.inr ⟨is, a1, hm⟩)
    have := forall₂_get_unique a2 (forall₂_rows (fun k hk => List.getElem?_set_ne (by rintro rfl; exact hi hk)) b2)
    subst this
    have := isSum_unique a3 b3
    subst this
    subst a3' b3'
    exact ⟨b5.trans a5.symm, b4.trans a4.symm⟩
  have hgetE : ∀ {α : Type} (xs ys : List α) (j : Nat), xs.length = ys.length → xs[j]? = ys[j]? →
      npGet xs (j : Int) = npGet ys (j : Int) := by
    intro α xs ys j hl hj
    unfold npGet
    rw [hl]
    cases hk : npIndex ys.length (j : Int) with
    | error x => rfl
    | ok k =>
      obtain ⟨hk1, hk2⟩ := npIndex_ok.mp hk
      have : k = j := by omega
      subst this
      show (match xs[k]? with | some x => _ | none => _) = (match ys[k]? with | some x => _ | none => _)
      rw [hj]
  have hrl : rows'.length = rows.length := by omega
  have hnl : norms'.length = norms.length := by omega
  have key : e.vocab.idx u = .ok none ∨ ∃ ix, e.vocab.idx u = .ok (some ix) ∧ e'.embed ix = e.embed ix := by
    unfold Vocab.idx
    rw [s]
    simp only
    cases hd : Dict.get? e.vocab.index u with
    | some j =>
      refine Or.inr ⟨_, rfl, ?_⟩
      obtain ⟨hr, hn⟩ := hone j (by rw [← w]; exact b.vocab.get.mp hd)
      unfold Embeddings.embed
      rw [h1, h1', h2, h2']
      simp only [Storage.getOne]
      rw [hgetE _ _ j hrl hr, hgetE _ _ j hnl hn]
    | none =>
      obtain ⟨is, g1, g2, g3⟩ := ftSubwords_total b.vocab s (by rw [hwl]; have := hf.count; omega) hu
      rw [g2]
      simp only [bind, Except.bind]
      split
      · refine Or.inr ⟨_, rfl, ?_⟩
        rw [hwl] at g1 g3
        have hlt : ∀ j ∈ is, j < rows.length := by
          intro j hj
          have := (g3 j hj).2
          rw [h3, hraw, hf.shape]; exact this
        obtain ⟨ys, y1, y2⟩ := npTake_nat hlt
        obtain ⟨ys', y1', y2'⟩ := npTake_nat (xs := rows') (is := is) (fun j hj => by rw [hrl]; exact hlt j hj)
        have : ys' = ys := by
          refine forall₂_get_unique (forall₂_rows (fun j hj => ?_) y2') y2
          rw [h5' j (g3 j hj).1, h5 j (g3 j hj).1,
            List.getElem?_set_ne (by rintro rfl; exact hno (Or.inr ⟨is, g1, hj⟩))]
        unfold Embeddings.embed
        rw [h1, h1']
        simp only [Storage.getMany]
        rw [y1, y1', this]
        rfl
      · exact Or.inl rfl
  unfold Embeddings.embedding Embeddings.embeddingWithNorm
  rw [hv, h2, h2']
  rcases key with h | ⟨ix, h, he⟩
  · rw [h]; exact ⟨rfl, rfl⟩
  · rw [h]
    simp only [bind, Except.bind]
    rw [he]
    exact ⟨rfl, rfl⟩

end

end FF
