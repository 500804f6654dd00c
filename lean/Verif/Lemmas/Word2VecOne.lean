import Verif.Lemmas.Word2VecCut
import Verif.Lemmas.CutExact
/-! word2vec files cut off after the first component of the last vector. -/

namespace FF

section
variable {K : Type} [Codec K]

omit [Codec K] in
theorem encR_length {cols : Nat} (l : List (PyStr × List F32)) (w : PyStr) (x : F32) (xs : List F32)
    (hx : (x :: xs).length = cols) (j : PyStr) :
    4 * cols ≤ (encR j (l ++ [(w, x :: xs)])).length := by
  induction l generalizing j with
  | nil =>
    rw [List.nil_append, encR]
    simp only [List.length_append, length_f32sLE, hx]
    omega
  | cons q l ih =>
    rw [List.cons_append, encR, List.length_append]
    have := ih [10]
    omega

theorem w2vRows_one (lossy : Bool) {cols : Nat} (hc : 4 * cols < maxSize)
    (init : List (PyStr × List F32)) (w : PyStr) (x : F32) (xs : List F32)
    (hw : ∀ p ∈ init ++ [(w, x :: xs)], W2vWord p.1)
    (hl : ∀ p ∈ init ++ [(w, x :: xs)], p.2.length = cols) {j : PyStr} (hj : Junk j) (pre : Bytes)
    (k : Nat) (h1 : OneLeft cols (encR j (init ++ [(w, x :: xs)])).length k) :
    ∃ s', w2vRows (K := K) lossy cols (init ++ [(w, x :: xs)]).length
        ⟨pre ++ (encR j (init ++ [(w, x :: xs)])).take k, pre.length⟩ =
      .ok ((init ++ [(w, List.replicate cols x)]).map fun p => (p.1, p.2.map Codec.ofBits), s') := by
  induction init generalizing j pre k with
  | nil =>
    obtain ⟨g1, g2, g3⟩ := hj.word (hw (w, x :: xs) (by simp))
    have hp := hl (w, x :: xs) (by simp)
    simp only at g1 g2 g3 hp
    obtain ⟨a, b, c⟩ := h1
    have hfl : (f32sLE (x :: xs)).length = 4 * cols := by rw [length_f32sLE, hp]
    rw [List.nil_append, encR, encR, List.append_nil] at b c ⊢
    dsimp only at b c ⊢
    simp only [List.length_append, List.length_singleton, hfl] at b c
    obtain ⟨i, rfl⟩ : ∃ i, k = (utf8 (j ++ w) ++ [32]).length + i :=
      ⟨k - (utf8 (j ++ w) ++ [32]).length, by simp only [List.length_append, List.length_singleton]; omega⟩
    simp only [List.length_append, List.length_singleton] at b c
    rw [List.length_singleton, w2vRows]
    rw [List.take_append, List.take_of_length_le (by omega), Nat.add_sub_cancel_left,
      ← List.append_assoc]
    rw [rd_bind_ok (readDelim_parses g1 pre _), rd_bind_ok (by
        rw [decodeLossy_utf8 lossy g2]; exact rd_lift_ok _ _)]
    rw [rd_bind_ok (fromFileF32_short _ _ cols i hfl (by omega) hc)]
    have hx : f32sOf ((f32sLE (x :: xs)).take i) = [x] := by
      rw [f32sOf_take, show i / 4 = 1 by omega]
      rfl
    rw [hx, rd_bind_ok (m := Rd.lift (assignRow cols ([x].map (Codec.ofBits (K := K)))))
      (a := List.replicate cols (Codec.ofBits x)) (by
        unfold assignRow
        rw [if_neg (by simp; omega)]
        rfl)]
    rw [g3]
    exact ⟨_, by
      rw [w2vRows, rd_bind_ok (m := pure []) rfl]
      simp
      rfl⟩
  | cons p ps ih =>
    obtain ⟨g1, g2, g3⟩ := hj.word (hw p (by simp))
    have hp := hl p (by simp)
    rw [List.cons_append, encR] at h1 ⊢
    obtain ⟨a, b, c⟩ := h1
    have hlast := encR_length ps w x xs (hl (w, x :: xs) (by simp)) [10]
    simp only [List.length_append] at b c
    obtain ⟨i, rfl⟩ : ∃ i, k = (utf8 (j ++ p.1) ++ [32] ++ f32sLE p.2).length + i :=
      ⟨k - (utf8 (j ++ p.1) ++ [32] ++ f32sLE p.2).length, by
        simp only [List.length_append, List.length_singleton] at b c ⊢; omega⟩
    simp only [List.length_append, List.length_singleton] at b c
    rw [List.length_cons, w2vRows]
    rw [List.take_append, List.take_of_length_le (by omega), Nat.add_sub_cancel_left]
    rw [List.append_assoc (utf8 (j ++ p.1) ++ [32]), ← List.append_assoc]
    rw [rd_bind_ok (readDelim_parses g1 pre _), rd_bind_ok (by
        rw [decodeLossy_utf8 lossy g2]; exact rd_lift_ok _ _)]
    rw [← List.append_assoc, rd_bind_ok (fromFileF32_parses p.2 _ cols hp hc _), rd_bind_ok (by
          rw [assignRow_ok (by simpa using hp)]; exact rd_lift_ok _ _)]
    obtain ⟨s', hs'⟩ := ih (fun q hq => hw q (List.mem_cons_of_mem _ hq))
      (fun q hq => hl q (List.mem_cons_of_mem _ hq)) (Or.inr rfl)
      (pre ++ (utf8 (j ++ p.1) ++ [32]) ++ f32sLE p.2) i ⟨a, by omega, by omega⟩
    rw [rd_bind_ok hs', g3]
    exact ⟨s', rfl⟩

variable [NumOps K]

theorem loadWord2vec_one (lossy : Bool) {cols : Nat} (init : List (PyStr × List F32)) (w : PyStr)
    (x : F32) (xs : List F32) (hw : ∀ p ∈ init ++ [(w, x :: xs)], W2vWord p.1)
    (hl : ∀ p ∈ init ++ [(w, x :: xs)], p.2.length = cols)
    (hn : ((init ++ [(w, x :: xs)]).map Prod.fst).Nodup)
    (hs : ShapeOk (init ++ [(w, x :: xs)]).length cols) (k : Nat)
    (h1 : OneLeft cols ((w2vFile cols (init ++ [(w, x :: xs)])).length - 1) k) :
    Rd.run (loadWord2vec (K := K) lossy) ((w2vFile cols (init ++ [(w, x :: xs)])).take k) =
      .ok (w2vResult cols ((init ++ [(w, List.replicate cols x)]).map
        fun p => (p.1, p.2.map Codec.ofBits))) := by
  have hne : init ++ [(w, x :: xs)] ≠ [] := by simp
  rw [w2vFile_eq, if_neg hne] at h1 ⊢
  have hlen : ((utf8 (dimsLine (init ++ [(w, x :: xs)]).length cols) ++
      encR [] (init ++ [(w, x :: xs)]) ++ [10]).length - 1) =
      (utf8 (dimsLine (init ++ [(w, x :: xs)]).length cols)).length +
        (encR [] (init ++ [(w, x :: xs)])).length := by
    simp only [List.length_append, List.length_singleton]; omega
  rw [hlen] at h1
  have hge := encR_length init w x xs (hl (w, x :: xs) (by simp)) []
  obtain ⟨a, b, c⟩ := h1
  obtain ⟨k1, rfl⟩ : ∃ k1, k = (utf8 (dimsLine (init ++ [(w, x :: xs)]).length cols)).length + k1 :=
    ⟨k - (utf8 (dimsLine (init ++ [(w, x :: xs)]).length cols)).length, by omega⟩
  rw [List.append_assoc, List.take_length_add_append, List.take_append_of_le_length (by omega)]
  obtain ⟨s', hs'⟩ := w2vRows_one (K := K) lossy hs.cols init w x xs hw hl (Or.inl rfl)
    (utf8 (dimsLine (init ++ [(w, x :: xs)]).length cols)) k1 ⟨a, by omega, by omega⟩
  generalize hrows : init ++ [(w, x :: xs)] = rows at *
  refine rd_run_of (s' := s') ?_
  unfold loadWord2vec
  have hd := readLine_parses (dims_no_newline rows.length cols) [] ((encR [] rows).take k1)
  rw [← utf8_dims, List.nil_append, List.length_nil] at hd
  rw [rd_bind_ok hd]
  rw [rd_bind_ok (by rw [decodeAscii_utf8 (dimsLine_ascii _ _)]; exact rd_lift_ok _ _)]
  rw [rd_bind_ok (by rw [twoInts_dims]; exact rd_lift_ok _ _)]
  rw [rd_bind_ok (by rw [zerosShape_ok hs]; exact rd_lift_ok _ _)]
  rw [rd_bind_ok hs']
  dsimp only
  have hf : ((init ++ [(w, List.replicate cols x)]).map fun p =>
      (p.1, p.2.map (Codec.ofBits (K := K)))).map Prod.fst = rows.map Prod.fst := by
    rw [← hrows]; simp
  rw [rd_bind_ok (by rw [Vocab.new_ok.mpr ⟨by rw [hf]; exact hn, rfl⟩]; exact rd_lift_ok _ _)]
  exact (congrArg (fun r => Rd.lift r s') w2vResult_new).trans rfl

end

end FF
