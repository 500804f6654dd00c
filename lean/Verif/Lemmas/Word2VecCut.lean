import Verif.Lemmas.Word2Vec
/-! Truncated word2vec files. -/

namespace FF

theorem take_append_cases' (e1 e2 : Bytes) (k : Nat) (hk : k < (e1 ++ e2).length) :
    (k < e1.length ∧ (e1 ++ e2).take k = e1.take k) ∨
    (∃ j, k = e1.length + j ∧ j < e2.length ∧ (e1 ++ e2).take k = e1 ++ e2.take j ∧
      (e1 ++ e2).length = e1.length + e2.length) := by
  by_cases h : k < e1.length
  · left
    exact ⟨h, List.take_append_of_le_length (by omega)⟩
  · right
    refine ⟨k - e1.length, by omega, ?_, ?_, List.length_append⟩
    · simp at hk; omega
    · rw [List.take_append]
      rw [List.take_of_length_le (by omega)]

section
variable {K : Type} [Codec K]

theorem w2vRows_eof (lossy : Bool) (cols n : Nat) : FailsEof (w2vRows (K := K) lossy cols (n + 1)) := by
  intro s hs
  obtain ⟨e, he⟩ := readDelim_eof 32 s hs
  exact ⟨e, rd_bind_error he⟩

/-- The cut leaves exactly one complete component of the last row, where there are several. -/
def OneLeft (cols len k : Nat) : Prop :=
  2 ≤ cols ∧ len + 4 ≤ k + 4 * cols ∧ k + 4 * cols < len + 8

omit [Codec K] in
theorem assignRow_short {cols : Nat} {xs : List K} (h : xs.length < cols) (h1 : xs.length ≠ 1) :
    assignRow cols xs = .error .valueError := by
  unfold assignRow
  rw [if_neg (by omega)]
  match xs, h1 with
  | [], _ => rfl
  | [_], h1 => exact absurd rfl h1
  | _ :: _ :: _, _ => rfl

theorem w2vRows_short (lossy : Bool) {cols : Nat} (hc : 4 * cols < maxSize)
    (rows : List (PyStr × List F32)) (hw : ∀ p ∈ rows, W2vWord p.1)
    (hl : ∀ p ∈ rows, p.2.length = cols) {j : PyStr} (hj : Junk j) (pre : Bytes) (k : Nat)
    (hk : k < (encR j rows).length) (h1 : ¬ OneLeft cols (encR j rows).length k) :
    ∃ e, w2vRows (K := K) lossy cols rows.length ⟨pre ++ (encR j rows).take k, pre.length⟩
      = .error e := by
  induction rows generalizing j pre k with
  | nil => simp [encR] at hk
  | cons p ps ih =>
    obtain ⟨g1, g2, g3⟩ := hj.word (hw p (by simp))
    have hp := hl p (by simp)
    rw [encR, List.append_assoc] at hk h1 ⊢
    rw [List.length_cons, w2vRows]
    rcases take_append_cases' _ _ k hk with ⟨hk1, e1⟩ | ⟨k1, hkk, hk1, e1, hlen1⟩
    · rw [e1]
      obtain ⟨er, her⟩ := readDelim_short g1 pre k hk1
      exact ⟨er, rd_bind_error her⟩
    · rw [e1, ← List.append_assoc]
      rw [rd_bind_ok (readDelim_parses g1 pre _), rd_bind_ok (by
        rw [decodeLossy_utf8 lossy g2]; exact rd_lift_ok _ _)]
      generalize hpre : pre ++ (utf8 (j ++ p.1) ++ [32]) = pre1
      rcases take_append_cases' _ _ k1 hk1 with ⟨hk2, e2⟩ | ⟨k2, hkk1, hk2, e2, hlen2⟩
      · rw [e2, rd_bind_ok (fromFileF32_short _ _ cols k1 (by simp [hp]) hk2 hc)]
        have hfl : (f32sLE p.2).length = 4 * cols := by rw [length_f32sLE, hp]
        have hlen : ((f32sOf ((f32sLE p.2).take k1)).map (Codec.ofBits (K := K))).length = k1 / 4 := by
          rw [List.length_map, length_f32sOf, List.length_take]
          congr 1
          omega
        by_cases h4 : k1 / 4 = 1
        · cases ps with
          | nil =>
            exfalso
            apply h1
            rw [hkk]
            simp only [encR, List.append_nil, List.length_append, hfl] at hk2 ⊢
            refine ⟨by omega, by omega, by omega⟩
          | cons q ps =>
            rw [rd_bind]
            cases hr : Rd.lift (assignRow cols ((f32sOf ((f32sLE p.2).take k1)).map
              (Codec.ofBits (K := K)))) ⟨pre1 ++ (f32sLE p.2).take k1, (pre1 ++ (f32sLE p.2).take k1).length⟩ with
            | error e => exact ⟨e, rfl⟩
            | ok x =>
              obtain ⟨row, s'⟩ := x
              obtain ⟨_, rfl⟩ := rd_lift_inv hr
              simp only
              obtain ⟨e, he⟩ := w2vRows_eof (K := K) lossy cols ps.length
                ⟨pre1 ++ (f32sLE p.2).take k1, (pre1 ++ (f32sLE p.2).take k1).length⟩ (le_refl _)
              exact ⟨e, rd_bind_error he⟩
        · refine ⟨.valueError, rd_bind_error ?_⟩
          rw [assignRow_short (by rw [hlen]; omega) (by rw [hlen]; exact h4)]
          rfl
      · rw [e2, ← List.append_assoc]
        rw [rd_bind_ok (fromFileF32_parses p.2 pre1 cols hp hc _), rd_bind_ok (by
          rw [assignRow_ok (by simpa using hp)]; exact rd_lift_ok _ _)]
        obtain ⟨er, her⟩ := ih (fun q hq => hw q (List.mem_cons_of_mem _ hq))
          (fun q hq => hl q (List.mem_cons_of_mem _ hq)) (Or.inr rfl) (pre1 ++ f32sLE p.2) k2 hk2
          (by
            rintro ⟨a, b, c⟩
            apply h1
            rw [hkk, hkk1, hlen1, hlen2]
            exact ⟨a, by omega, by omega⟩)
        exact ⟨er, rd_bind_error her⟩

theorem utf8_ascii {s : PyStr} (h : ∀ c ∈ s, c.val < 128) :
    utf8 s = s.map fun c => UInt8.ofNat c.val := by
  induction s with
  | nil => rfl
  | cons c s ih =>
    rw [utf8, encCode_ascii (h c (by simp)), ih fun d hd => h d (List.mem_cons_of_mem _ hd)]
    rfl

theorem take_utf8_ascii {s : PyStr} (h : ∀ c ∈ s, c.val < 128) (k : Nat) :
    (utf8 s).take k = utf8 (s.take k) := by
  rw [utf8_ascii h, utf8_ascii fun c hc => h c (List.mem_of_mem_take hc), List.map_take]

/-- A cut dimensions line is rejected or has the right number of rows. -/
theorem twoInts_cut {r c k : Nat} {p : Int × Int} (hk : k < (dimsLine r c).length)
    (h : twoInts ((dimsLine r c).take k) = .ok p) : p.1 = r := by
  have hd : ∀ n, ∀ x ∈ decimal n, isSpace x = false := fun n x hx =>
    digit_not_space (decimal_digits n x hx)
  unfold twoInts splitWs at h
  have e : dimsLine r c = decimal r ++ (32 :: (decimal c ++ [10])) := by simp [dimsLine]
  rw [e] at h
  by_cases hkr : k ≤ (decimal r).length
  · rw [List.take_append_of_le_length hkr] at h
    rw [pieces_free fun x hx => hd r x (List.mem_of_mem_take hx)] at h
    by_cases h0 : (decimal r).take k = []
    · simp only [h0, List.filter_cons, ne_eq, not_true, decide_false, List.filter_nil] at h
      cases h
    · simp only [List.filter_cons, ne_eq, h0, not_false_eq_true, decide_true, if_true,
        List.filter_nil] at h
      cases h
  · obtain ⟨m, hm⟩ : ∃ m, k = (decimal r).length + (m + 1) := ⟨k - (decimal r).length - 1, by omega⟩
    have et : (decimal r ++ (32 :: (decimal c ++ [10]))).take k =
        decimal r ++ 32 :: (decimal c ++ [10]).take m := by
      rw [hm, List.take_length_add_append, List.take_succ_cons]
    rw [et, pieces_append (hd r) (by decide)] at h
    simp only [List.filter_cons, ne_eq, decimal_ne_nil, not_false_eq_true, decide_true, if_true] at h
    generalize ((pieces isSpace (List.take m (decimal c ++ [10]))).filter fun p => decide ¬ p = []) = l at h
    match l, h with
    | [], h => cases h
    | [b], h =>
      simp only at h
      rw [pyInt_decimal, res_bind_ok] at h
      obtain ⟨x, _, h⟩ := res_bind_inv h
      cases h
      rfl
    | _ :: _ :: _, h => cases h

variable [NumOps K]

theorem loadWord2vec_cut (lossy : Bool) {cols : Nat} (rows : List (PyStr × List F32))
    (hw : ∀ p ∈ rows, W2vWord p.1) (hl : ∀ p ∈ rows, p.2.length = cols)
    (hne : rows ≠ []) (hs : ShapeOk rows.length cols) (k : Nat)
    (hk : k + 1 < (w2vFile cols rows).length)
    (h1 : ¬ OneLeft cols ((w2vFile cols rows).length - 1) k) :
    ∃ e, Rd.run (loadWord2vec (K := K) lossy) ((w2vFile cols rows).take k) = .error e := by
  rw [w2vFile_eq, if_neg hne] at hk h1 ⊢
  have hkl : k < (utf8 (dimsLine rows.length cols) ++ encR [] rows).length := by
    rw [List.length_append, List.length_singleton] at hk; omega
  rw [List.take_append_of_le_length (by omega)]
  have hlen : ((utf8 (dimsLine rows.length cols) ++ encR [] rows ++ [10]).length - 1) =
      (utf8 (dimsLine rows.length cols)).length + (encR [] rows).length := by
    simp only [List.length_append, List.length_singleton]; omega
  rw [hlen] at h1
  suffices ∃ e, loadWord2vec (K := K) lossy
      ⟨(utf8 (dimsLine rows.length cols) ++ encR [] rows).take k, 0⟩ = .error e by
    obtain ⟨e, he⟩ := this
    refine ⟨e, ?_⟩
    unfold Rd.run
    rw [he]
  rcases take_append_cases' _ _ k hkl with ⟨hk1, e1⟩ | ⟨k1, hkk, hk1, e1, _⟩
  · rw [e1]
    have hasc := dimsLine_ascii rows.length cols
    have hul : (utf8 (dimsLine rows.length cols)).length = (dimsLine rows.length cols).length := by
      rw [utf8_ascii hasc, List.length_map]
    have hnl : (10 : UInt8) ∉ (utf8 (dimsLine rows.length cols)).take k := by
      intro hm
      rw [utf8_dims] at hm hk1
      rw [List.length_append, List.length_singleton] at hk1
      rw [List.take_append_of_le_length (by omega)] at hm
      exact dims_no_newline _ _ (List.mem_of_mem_take hm)
    unfold loadWord2vec
    have hrl : readLine ⟨(utf8 (dimsLine rows.length cols)).take k, 0⟩ =
        .ok ((utf8 (dimsLine rows.length cols)).take k,
          ⟨(utf8 (dimsLine rows.length cols)).take k, ((utf8 (dimsLine rows.length cols)).take k).length⟩) := by
      unfold readLine
      simp only [List.drop_zero]
      rw [takeLine_none hnl, Nat.zero_add]
    rw [rd_bind_ok hrl]
    rw [take_utf8_ascii hasc]
    rw [rd_bind_ok (by
      rw [decodeAscii_utf8 fun c hc => hasc c (List.mem_of_mem_take hc)]; exact rd_lift_ok _ _)]
    cases ht : twoInts ((dimsLine rows.length cols).take k) with
    | error e => exact ⟨e, rd_bind_error (rd_lift_error _ _)⟩
    | ok p =>
      have hp := twoInts_cut (by rw [← hul]; exact hk1) ht
      rw [rd_bind_ok (rd_lift_ok _ _)]
      cases hz : zerosShape p.1 p.2 with
      | error e => exact ⟨e, rd_bind_error (rd_lift_error _ _)⟩
      | ok sh =>
        rw [rd_bind_ok (rd_lift_ok _ _)]
        have hsh : sh.1 = rows.length := by
          unfold zerosShape at hz
          split at hz
          · cases hz
          · cases hz
            rw [hp]
            simp
        obtain ⟨n, hn⟩ : ∃ n, rows.length = n + 1 :=
          Nat.exists_eq_succ_of_ne_zero (by simpa using hne)
        rw [hsh, hn]
        obtain ⟨e, he⟩ := w2vRows_eof (K := K) lossy sh.2 n
          ⟨utf8 ((dimsLine (n + 1) cols).take k), (utf8 ((dimsLine (n + 1) cols).take k)).length⟩ (le_refl _)
        exact ⟨e, rd_bind_error he⟩
  · rw [e1]
    unfold loadWord2vec
    have hd := readLine_parses (dims_no_newline rows.length cols) [] ((encR [] rows).take k1)
    rw [← utf8_dims, List.nil_append, List.length_nil] at hd
    rw [rd_bind_ok hd]
    rw [rd_bind_ok (by rw [decodeAscii_utf8 (dimsLine_ascii _ _)]; exact rd_lift_ok _ _)]
    rw [rd_bind_ok (by rw [twoInts_dims]; exact rd_lift_ok _ _)]
    rw [rd_bind_ok (by rw [zerosShape_ok hs]; exact rd_lift_ok _ _)]
    obtain ⟨e, he⟩ := w2vRows_short (K := K) lossy hs.cols rows hw hl (Or.inl rfl)
      (utf8 (dimsLine rows.length cols)) k1 hk1 (by
        rintro ⟨a, b, c⟩
        apply h1
        exact ⟨a, by omega, by omega⟩)
    exact ⟨e, rd_bind_error he⟩

end

end FF
