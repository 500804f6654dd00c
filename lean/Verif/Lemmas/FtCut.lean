import Verif.Lemmas.FtLayout
/-! Truncated fastText files and files of unsupported models. -/

namespace FF

theorem FailsShort.bind_left {α β : Type} {m : Rd α} {f : α → Rd β} {pre e : Bytes}
    (h : FailsShort m pre e) : FailsShort (m >>= f) pre e := by
  intro k hk
  obtain ⟨er, her⟩ := h k hk
  exact ⟨er, rd_bind_error her⟩

theorem FailsShort.congr {α : Type} {m : Rd α} {pre e e' : Bytes} (h : FailsShort m pre e) (he : e = e') :
    FailsShort m pre e' := he ▸ h

theorem length_sle (w : Nat) (i : Int) : (sle w i).length = w := by
  rw [sle_eq]; simp

theorem readSigned_short (ws : List Nat) (pre enc : Bytes) (he : enc.length = calcsize ws) :
    FailsShort (readSigned ws) pre enc := (readRequired_short ws pre enc he).bind_left

theorem readFtHeader_short (pre : Bytes) : FailsShort readFtHeader pre FtFile.headerBytes :=
  (readSigned_short _ pre _ (by simp [FtFile.headerBytes, length_sle, calcsize])).bind_left

theorem readFtCfg_short (f : FtFile) (pre : Bytes) : FailsShort readFtCfg pre f.cfgBytes :=
  (readRequired_short _ pre _ (by simp [FtFile.cfgBytes, length_sle, calcsize])).bind_left

theorem readFtWord_short (lossy : Bool) {p : PyStr × Int} (h0 : ∀ c ∈ p.1, c.val ≠ 0)
    (hi : Int64Ok p.2) (pre : Bytes) : FailsShort (readFtWord lossy) pre (ftWordBytes p) := by
  unfold readFtWord ftWordBytes
  have h1 := readDelim_parses (no_nul_utf8 h0) pre
  have h2 := readOne_parses 8 (sleNat 8 p.2) (pre ++ (utf8 p.1 ++ [0])) (by decide) (by decide)
    (sleNat_lt (by decide) (int64 hi))
  refine (FailsShort.bind h1 (readDelim_short (no_nul_utf8 h0) pre)
    (FailsShort.bind h2 (readOne_short 8 _ _ (by simp))
      (readOne_short 1 _ [0] (by simp)).bind_left)).congr ?_
  rw [sle_eq]
  simp only [List.append_assoc]

theorem readFtWords_short (lossy : Bool) {ps : List (PyStr × Int)}
    (h0 : ∀ p ∈ ps, ∀ c ∈ p.1, c.val ≠ 0)
    (hs : ∀ p ∈ ps, ∀ c ∈ p.1, c.val < 0xD800 ∨ 0xDFFF < c.val)
    (hi : ∀ p ∈ ps, Int64Ok p.2) (pre : Bytes) :
    FailsShort (readFtWords lossy ps.length) pre (ps.flatMap ftWordBytes) := by
  induction ps generalizing pre with
  | nil => exact FailsShort.nil _ _
  | cons p ps ih =>
    rw [List.length_cons, readFtWords, List.flatMap_cons]
    exact FailsShort.bind (readFtWord_parses lossy (h0 p (by simp)) (hs p (by simp)) (hi p (by simp)) pre)
      (readFtWord_short lossy (h0 p (by simp)) (hi p (by simp)) pre)
      (ih (fun q hq => h0 q (List.mem_cons_of_mem _ hq))
        (fun q hq => hs q (List.mem_cons_of_mem _ hq))
        (fun q hq => hi q (List.mem_cons_of_mem _ hq)) _).bind_left

theorem readFtSizes_parses {f : FtFile} (hf : f.OK) (l : Int) (hl : Int32Ok l) (pre : Bytes) :
    Parses (readSigned [4, 4, 4]) pre (sle 4 f.words.length ++ sle 4 f.nWords ++ sle 4 l)
      [(f.words.length : Int), f.nWords, l] := by
  obtain ⟨_, _, _, _, _, _, _, d7, d8, d9, d10⟩ := hf.ints
  have := readSigned_parses [4, 4, 4] [(4, (f.words.length : Int)), (4, f.nWords), (4, l)] pre rfl
    (by decide) (by decide) (by simp)
    (by
      intro x hx
      simp only [List.mem_cons, List.not_mem_nil, or_false] at hx
      rcases hx with rfl | rfl | rfl
      · exact int32_nat hf.count
      · exact int32 d7
      · exact int32 hl)
  simpa using this

theorem readFtVocab_short (lossy : Bool) {f : FtFile} (hf : f.OK) (pre : Bytes) :
    FailsShort (readFtVocab f.buckets f.minN f.maxN lossy) pre f.dictBytes := by
  obtain ⟨_, _, _, _, _, _, _, d7, d8, d9, d10⟩ := hf.ints
  have hp := readFtSizes_parses hf 0 (by unfold Int32Ok; decide) pre
  have h2 := fun pre => readOne_parses 8 (sleNat 8 f.nTokens) pre (by decide) (by decide)
    (sleNat_lt (by decide) (int64 d8))
  have h3 := fun pre => readOne_parses 8 (sleNat 8 f.prune) pre (by decide) (by decide)
    (sleNat_lt (by decide) (int64 d9))
  have hsg := toSigned_sleNat (w := 8) (by decide) (int64 d9)
  unfold readFtVocab
  refine (FailsShort.bind hp (readSigned_short _ _ _ (by simp [length_sle, calcsize]))
    (e2 := le 8 (sleNat 8 f.nTokens) ++ (le 8 (sleNat 8 f.prune) ++
    f.words.flatMap ftWordBytes)) ?_).congr ?_
  · show FailsShort (readOne 8 >>= _) _ _
    refine FailsShort.bind (h2 _) (readOne_short 8 _ _ (by simp))
      (FailsShort.bind (h3 _) (readOne_short 8 _ _ (by simp)) ?_)
    have hneg : ¬ (toSigned 8 (sleNat 8 f.prune) ≥ 0) := by
      rw [hsg]; have := hf.prune; omega
    simp only [hneg, if_false]
    show FailsShort (readFtWords lossy f.words.length >>= _) _ _
    exact (readFtWords_short lossy hf.nul hf.text d10 _).bind_left
  · unfold FtFile.dictBytes
    simp only [List.append_assoc, sle_eq]

section
variable {K : Type} [NumOps K] [Codec K]

theorem readFtStorage_short {f : FtFile} (hf : f.OK) (pre : Bytes) :
    FailsShort (readFtStorage (K := K) f.vocab f.ix) pre f.matrixBytes := by
  have s1 := hf.size.rows
  have s2 := hf.size.cols
  have s3 := hf.size.size
  unfold maxSize at s1 s2 s3
  have hp0 := readOne_parses 1 0 pre (by decide) (by decide) (by decide)
  have hp := fun pre => readSigned_parses [8, 8] [(8, (f.rows.length : Int)), (8, (f.cols : Int))] pre rfl
    (by decide) (by decide) (by simp)
    (by
      intro x hx
      simp only [List.mem_cons, List.not_mem_nil, or_false] at hx
      rcases hx with rfl | rfl
      · exact int64_nat (by omega)
      · exact int64_nat (by omega))
  have hlen : f.rows.flatten.length = f.rows.length * f.cols := flatten_length_of hf.cols
  unfold readFtStorage
  refine (FailsShort.bind hp0 (readOne_short 1 _ _ (by simp))
    (e2 := ([(8, (f.rows.length : Int)), (8, (f.cols : Int))] : List (Nat × Int)).flatMap
    (fun f => sle f.1 f.2) ++ f32sLE f.rows.flatten) ?_).congr ?_
  · show FailsShort (readSigned [8, 8] >>= _) _ _
    refine FailsShort.bind (hp _) (readSigned_short _ _ _ (by simp [length_sle, calcsize])) ?_
    simp only [List.map_cons, List.map_nil]
    intro k hk
    have e : (f.rows.length : Int) * (f.cols : Int) = ((f.rows.length * f.cols : Nat) : Int) := by
      push_cast; rfl
    have hfl : (f32sLE f.rows.flatten).length = 4 * (f.rows.length * f.cols) := by
      rw [length_f32sLE, hlen]
    refine ⟨.valueError, ?_⟩
    have hff : ∀ pre, fromFileInt ((f.rows.length : Int) * (f.cols : Int))
        ⟨pre ++ (f32sLE f.rows.flatten).take k, pre.length⟩ = .ok (f32sOf ((f32sLE f.rows.flatten).take k),
          ⟨pre ++ (f32sLE f.rows.flatten).take k, (pre ++ (f32sLE f.rows.flatten).take k).length⟩) := by
      intro pre
      unfold fromFileInt
      rw [e, if_pos (by omega), Int.toNat_natCast]
      exact fromFileF32_short _ _ _ k hfl hk (by unfold maxSize; omega)
    refine (rd_bind_ok (hff _)).trans (rd_bind_error ?_)
    · unfold reshapeInt
      rw [if_neg (by omega), if_neg (by omega)]
      unfold reshape2
      simp only [Int.toNat_natCast]
      rw [if_neg]
      · rfl
      · intro hc
        have hc := hc.1
        rw [List.length_map, length_f32sOf, List.length_take] at hc
        omega
  · unfold FtFile.matrixBytes
    have : le 1 0 = [0] := rfl
    rw [this]
    simp only [List.flatMap_cons, List.flatMap_nil, List.append_nil, List.append_assoc]

theorem loadFasttext_short {f : FtFile} (hf : f.OK) (lossy : Bool) :
    FailsShort (loadFasttext (K := K) lossy) []
      (FtFile.headerBytes ++ (f.cfgBytes ++ (f.dictBytes ++ f.matrixBytes))) := by
  unfold loadFasttext
  exact FailsShort.bind (readFtHeader_parses _) (readFtHeader_short _)
    (FailsShort.bind (readFtCfg_parses hf _) (readFtCfg_short f _)
      (FailsShort.bind (readFtVocab_parses lossy hf _) (readFtVocab_short lossy hf _)
        (readFtStorage_short hf _).bind_left))

end

end FF
