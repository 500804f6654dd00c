import Verif.Lemmas.StepsExact
import Verif.Props.C83
/-!
# C89: loading takes a number of steps in proportion to the file

A step is a round of one of the loops that the library itself runs (`Verif.Model.Steps`); a load that has used up its budget
of steps ends with `Stop.memory`.
-/

namespace FF

/-- A finalfusion file is loaded, or rejected, within one step per byte and two more. -/
theorem C89_finalfusion (T : Toml) (mmap : Bool) (bs : Bytes) (n : Nat) (hn : bs.length + 2 ≤ n) :
    MRd.run (Steps.loadFinalfusion T mmap) n bs = (Rd.run (loadFinalfusion T mmap) bs).mapError .py :=
  (Finishes.loadFinalfusion T mmap).run (by omega)

/-- A file that is loaded takes two steps for every word and every stored n-gram, whatever the rest of it: with fewer steps it
is not loaded. -/
theorem C89_finalfusion_exact (T : Toml) (mmap : Bool) (bs : Bytes) (e : Embeddings F32)
    (h : Rd.run (loadFinalfusion T mmap) bs = .ok e) (n : Nat) :
    MRd.run (Steps.loadFinalfusion T mmap) n bs =
      if 2 * (e.vocab.words.length + storedNgrams e.vocab) ≤ n then .ok e else .error .memory := by
  obtain ⟨s', h⟩ := rd_run_ok h
  exact (Exact.loadFinalfusion h).run n

/-- The loaders of a single chunk -/
theorem C89_parts (T : Toml) (mmap : Bool) (bs : Bytes) (n : Nat) (hn : bs.length + 3 ≤ n) :
    MRd.run Steps.loadVocab n bs = (Rd.run loadVocab bs).mapError .py ∧
    MRd.run (Steps.loadStorage mmap) n bs = (Rd.run (loadStorage mmap) bs).mapError .py ∧
    MRd.run Steps.loadNorms n bs = (Rd.run loadNorms bs).mapError .py ∧
    MRd.run (Steps.loadMetadata T) n bs = (Rd.run (loadMetadata T) bs).mapError .py := by
  refine ⟨findChunk_run (d := 2) (fun o => ?_) (by omega), findChunk_run (d := 0) (fun o => ?_) (by omega),
    findChunk_run (d := 0) (fun o => ?_) (by omega), findChunk_run (d := 0) (fun o => ?_) (by omega)⟩
  · cases o with
    | none => exact .mono (.of _) (by omega)
    | some c => exact .takes (.readVocabChunk c)
  all_goals
    rcases o with _ | c
    · exact .of _
    · cases c <;> exact .of _

section
variable {K : Type} [NumOps K]

/-- A word2vec file is loaded, or rejected, within three steps per byte and two more. -/
theorem C89_word2vec [Codec K] (lossy : Bool) (bs : Bytes) (n : Nat) (hn : 3 * bs.length + 2 ≤ n) :
    MRd.run (Steps.loadWord2vec lossy : MRd (Embeddings K)) n bs = (Rd.run (loadWord2vec lossy) bs).mapError .py :=
  (Finishes.loadWord2vec lossy).run hn

/-- The number of steps for a word2vec file is at least three for every word. -/
theorem C89_word2vec_exact [Codec K] (lossy : Bool) (bs : Bytes) (e : Embeddings K)
    (h : Rd.run (loadWord2vec lossy) bs = .ok e) :
    ∃ c, 3 * e.vocab.words.length ≤ c ∧ c ≤ 3 * bs.length + 2 ∧
      ∀ n, MRd.run (Steps.loadWord2vec lossy) n bs = if c ≤ n then .ok e else .error .memory := by
  obtain ⟨s', h'⟩ := rd_run_ok h
  obtain ⟨c, hc, hx⟩ := exact_loadWord2vec h'
  refine ⟨c, hc, ?_, hx.run⟩
  by_contra hl
  have h1 := C89_word2vec (K := K) lossy bs (3 * bs.length + 2) (le_refl _)
  rw [hx.run, if_neg (by omega), h] at h1
  cases h1

theorem next_lines {l file : Lines} {first : PyStr} (h : l.next = .ok (some (first, file))) :
    file.lines.length + 1 = l.lines.length := by
  unfold Lines.next at h
  split at h
  · cases h
  · cases h
  · rename_i hl
    cases h
    rw [hl]
    rfl

/-- A text file is loaded, or rejected, within three steps per byte, or two if its first line gives the shape. -/
theorem C89_text [NumText K] [TextIO] (lossy : Bool) (bs : Bytes) (n : Nat) :
    (3 * bs.length ≤ n → (Steps.loadText lossy n bs : Except Stop (Embeddings K)) = (loadText lossy bs).mapError .py) ∧
    (2 * bs.length ≤ n →
      (Steps.loadTextDims lossy n bs : Except Stop (Embeddings K)) = (loadTextDims lossy bs).mapError .py) := by
  have hl := textLines_length lossy bs
  constructor
  · intro hn
    unfold Steps.loadText loadText
    cases hx : (textLines lossy bs).next with
    | error e => rfl
    | ok o =>
      rcases o with _ | ⟨first, file⟩
      · rfl
      have hf := next_lines hx
      have hs : Steps.spend file.lines.length n = .ok (n - file.lines.length) := by
        unfold Steps.spend
        rw [if_pos (by omega)]
      show (Steps.spend file.lines.length n >>= _) = Except.mapError Stop.py (file.all >>= _)
      rw [hs]
      show (file.all.mapError Stop.py >>= _) = _
      cases file.all with
      | error e => rfl
      | ok ls => exact steps_loadTextLines _ _ _ _ (by omega)
  · intro hn
    unfold Steps.loadTextDims loadTextDims
    cases hx : (textLines lossy bs).next with
    | error e => rfl
    | ok o =>
      rcases o with _ | ⟨first, file⟩
      · rfl
      have hf := next_lines hx
      show ((twoInts first).mapError Stop.py >>= _) = Except.mapError Stop.py (twoInts first >>= _)
      cases twoInts first with
      | error e => rfl
      | ok d => exact steps_loadTextLines _ _ _ _ (by omega)

omit [NumOps K] in
theorem ftRounds_file {lossy : Bool} {bs : Bytes} {u : Unit} {cfg : FtCfg} {v : Vocab} {ix : FtIndexer}
    {s1 s2 s3 : RFile} (h1 : readFtHeader ⟨bs, 0⟩ = .ok (u, s1)) (h2 : readFtCfg s1 = .ok (cfg, s2))
    (h3 : readFtVocab cfg.buckets cfg.minN cfg.maxN lossy s2 = .ok ((v, ix), s3)) {C : Nat → Nat}
    (hC : 0 < ix.minN → ∀ w : PyStr, ∀ c, w.length + 10 ≤ c →
      1 + Steps.ngramRounds ix.minN ix.maxN (bracketed true w) ≤ C c)
    (hadd : ∀ a b, C a + C b ≤ C (a + b)) : ftRounds ix v.words ≤ C bs.length := by
  have a1 := readFtHeader_ate h1
  obtain ⟨_, _, _, _, _, a2⟩ := readFtCfg_ate h2
  obtain ⟨n, nw, nt, prune, ps, _, _, _, _, _, _, _, _, hf, hix, a3⟩ := readFtVocab_ate h3
  have h0 : 0 < ix.minN := by
    obtain ⟨_, _, _, h0, _⟩ := ftNew_ok.mp hix
    exact h0
  refine (ftRounds_le (hC h0) hadd hf).trans ?_
  have a := (a1.trans a2).trans a3
  have hl : (ps.flatMap ftEntryBytes).length ≤ bs.length := by
    have := congrArg List.length a.2
    simp only [List.length_append, List.drop_zero] at this
    omega
  have := hadd (ps.flatMap ftEntryBytes).length (bs.length - (ps.flatMap ftEntryBytes).length)
  rw [Nat.add_sub_cancel' hl] at this
  omega

/-- The steps of a fastText file: those for its bytes, and those for the n-grams of its words -/
theorem ft_steps [Codec K] {lossy : Bool} {bs : Bytes} {n R : Nat}
    (hR : ∀ u cfg v ix s1 s2 s3, readFtHeader ⟨bs, 0⟩ = .ok (u, s1) → readFtCfg s1 = .ok (cfg, s2) →
      readFtVocab cfg.buckets cfg.minN cfg.maxN lossy s2 = .ok ((v, ix), s3) → ftRounds ix v.words ≤ R)
    (hn : 3 * bs.length + 2 + R ≤ n) :
    MRd.run (Steps.loadFasttext lossy : MRd (Embeddings K)) n bs = (Rd.run (loadFasttext lossy) bs).mapError .py := by
  unfold MRd.run Rd.run Steps.loadFasttext loadFasttext
  rw [mrd_bind, rd_bind]
  cases k1 : readFtHeader ⟨bs, 0⟩ with
  | error e => simp only [MRd.of, k1]; rfl
  | ok p1 =>
  obtain ⟨u, s1⟩ := p1
  have l1 := Onward.readFtHeader _ _ _ k1
  simp only [MRd.of, k1]
  rw [mrd_bind, rd_bind]
  cases k2 : readFtCfg s1 with
  | error e => simp only [MRd.of, k2]; rfl
  | ok p2 =>
  obtain ⟨cfg, s2⟩ := p2
  have l2 := Onward.readFtCfg _ _ _ k2
  have l0 : (RFile.mk bs 0).left = bs.length := rfl
  simp only [MRd.of, k2]
  have h3 := Takes.readFtVocab cfg.buckets cfg.minN cfg.maxN lossy n s2 (by omega)
  rw [mrd_bind, rd_bind]
  cases k3 : readFtVocab cfg.buckets cfg.minN cfg.maxN lossy s2 with
  | error e =>
    rw [k3] at h3
    simp only at h3
    rw [h3]
    rfl
  | ok p3 =>
  obtain ⟨⟨v, ix⟩, s3⟩ := p3
  rw [k3] at h3
  obtain ⟨b3, e3, hb3⟩ := h3
  rw [e3]
  have hr := hR _ _ _ _ _ _ _ k1 k2 k3
  have h4 := Takes.readFtStorage (K := K) v ix b3 s3 (by simp only at hb3; omega)
  simp only
  rw [mrd_bind, rd_bind]
  cases k4 : (readFtStorage v ix s3 : Except PyErr (Mat K × RFile)) with
  | error e =>
    rw [k4] at h4
    simp only at h4
    rw [h4]
    rfl
  | ok p4 =>
  obtain ⟨m, s4⟩ := p4
  rw [k4] at h4
  obtain ⟨b4, e4, _⟩ := h4
  rw [e4]
  simp only
  cases k5 : Embeddings.new (.nd ⟨m.cols, (normalizeMatrix (m.rows.take v.len)).1 ++ m.rows.drop v.len⟩) v
    (some (normalizeMatrix (m.rows.take v.len)).2) (some cfg.toMeta) with
  | error e => simp only [Rd.lift]; rfl
  | ok e => simp only [Rd.lift]; rfl

theorem cube_le {a b : Nat} (h : a ≤ b) : a ^ 3 ≤ b ^ 3 := Nat.pow_le_pow_left h 3

/-- A fastText file is loaded, or rejected, within four steps per byte cubed, and three per byte. -/
theorem C89_fasttext_cubic [Codec K] (lossy : Bool) (bs : Bytes) (n : Nat) (hn : 4 * bs.length ^ 3 + 3 * bs.length + 2 ≤ n) :
    MRd.run (Steps.loadFasttext lossy : MRd (Embeddings K)) n bs = (Rd.run (loadFasttext lossy) bs).mapError .py := by
  refine ft_steps (R := 4 * bs.length ^ 3) (fun u cfg v ix s1 s2 s3 h1 h2 h3 => ?_) (by omega)
  refine ftRounds_file (C := fun c => 4 * c ^ 3) h1 h2 h3 (fun h0 w c hc => ?_) fun a b => ?_
  · have hw := ngramRounds_cubic h0 (hi := ix.maxN) (bracketed true w)
    have hl : (bracketed true w).length = w.length + 2 := by simp [bracketed]
    rw [hl] at hw
    have := cube_le hc
    show _ ≤ 4 * c ^ 3
    generalize w.length = x at *
    nlinarith
  · show 4 * a ^ 3 + 4 * b ^ 3 ≤ 4 * (a + b) ^ 3
    have : (a + b) ^ 3 = a ^ 3 + b ^ 3 + (3 * a * a * b + 3 * a * b * b) := by ring
    omega

/-- In terms of the n-gram range: the number of steps is in proportion to the file, with a factor that depends on the range.
The factor cannot be a constant: `C89_fasttext_refuted`. -/
theorem C89_fasttext_partial [Codec K] (lossy : Bool) (bs : Bytes) (e : Embeddings K) (n : Nat)
    (h : Rd.run (loadFasttext lossy) bs = .ok e) (ix : FtIndexer) (hix : e.vocab.sub = some (.ft ix))
    (hn : bs.length * (8 + (ix.maxN + 1 - ix.minN) * (4 * ix.maxN + 1)) + 2 ≤ n) :
    MRd.run (Steps.loadFasttext lossy) n bs = .ok e := by
  obtain ⟨s', h'⟩ := rd_run_ok h
  unfold loadFasttext at h'
  obtain ⟨u', t1, k1, h'⟩ := rd_bind_inv h'
  obtain ⟨cfg', t2, k2, h'⟩ := rd_bind_inv h'
  obtain ⟨⟨v', ix'⟩, t3, k3, h'⟩ := rd_bind_inv h'
  obtain ⟨m, t4, k4, h'⟩ := rd_bind_inv h'
  obtain ⟨e1, _⟩ := embNew_iff.mp (rd_lift_inv h').1
  obtain ⟨hv, hsub⟩ := readFtVocab_built k3
  have e2 : e.vocab = v' := by rw [e1]
  rw [e2, hsub] at hix
  cases hix
  simp only at hn
  rw [ft_steps (R := bs.length * (5 + (ix'.maxN + 1 - ix'.minN) * (4 * ix'.maxN + 1))) _ _, h]
  · rfl
  · intro u cfg v ix s1 s2 s3 h1 h2 h3
    rw [k1] at h1
    cases h1
    rw [k2] at h2
    cases h2
    rw [k3] at h3
    cases h3
    refine ftRounds_file (C := fun c => c * (5 + (ix'.maxN + 1 - ix'.minN) * (4 * ix'.maxN + 1))) k1 k2 k3
      (fun h0 w c hc => ?_) fun a b => ?_
    · have hw := ngramRounds_range h0 (hi := ix'.maxN) (bracketed true w)
      have hl : (bracketed true w).length = w.length + 2 := by simp [bracketed]
      rw [hl] at hw
      show _ ≤ c * _
      have := Nat.mul_le_mul_right (5 + (ix'.maxN + 1 - ix'.minN) * (4 * ix'.maxN + 1)) (show (w.length + 2) + 1 ≤ c by omega)
      rw [Nat.add_comm (4 * ix'.maxN) 1] at this ⊢
      generalize (ix'.maxN + 1 - ix'.minN) * (1 + 4 * ix'.maxN) = y at *
      nlinarith
    · show a * _ + b * _ ≤ (a + b) * _
      rw [Nat.add_mul]
  · have : bs.length * (8 + (ix'.maxN + 1 - ix'.minN) * (4 * ix'.maxN + 1)) =
      3 * bs.length + bs.length * (5 + (ix'.maxN + 1 - ix'.minN) * (4 * ix'.maxN + 1)) := by ring
    omega

/-- A fastText file that is loaded takes at least the steps for the n-grams of each of its words. -/
theorem C89_fasttext_needs [Codec K] (lossy : Bool) (bs : Bytes) (e : Embeddings K) (n : Nat)
    (h : Rd.run (loadFasttext lossy) bs = .ok e) (ix : FtIndexer) (hix : e.vocab.sub = some (.ft ix)) (w : PyStr)
    (hw : w ∈ e.vocab.words) (hn : n < Steps.ngramRounds ix.minN ix.maxN (wrap true w)) :
    MRd.run (Steps.loadFasttext lossy : MRd (Embeddings K)) n bs = .error .memory := by
  refine (needs_loadFasttext h hix).run (hn.trans_le ?_)
  unfold ftRounds
  have := List.single_le_sum (l := e.vocab.words.map fun w => 1 + Steps.ngramRounds ix.minN ix.maxN (bracketed true w))
    (by simp) _ (List.mem_map_of_mem hw)
  have hb : bracketed true w = wrap true w := by rfl
  rw [hb] at this
  omega

/-- The number of steps of a fastText file is not in proportion to the file: one of at most `30 m` bytes, with a single word of
`3 m` letters, is loaded, and takes at least `m` cubed steps. -/
theorem C89_fasttext_refuted [Codec K] (lossy : Bool) (m : Nat) (h1 : 50 ≤ m) (hm : 3 * m < 2 ^ 30) :
    ∃ (bs : Bytes) (e : Embeddings K), bs.length ≤ 30 * m ∧ Rd.run (loadFasttext lossy) bs = .ok e ∧
      ∀ n, n < m ^ 3 → MRd.run (Steps.loadFasttext lossy : MRd (Embeddings K)) n bs = .error .memory := by
  obtain ⟨e, h, hl⟩ := C42_load (K := K) _ (Sample.ftLong_ok (3 * m) hm) lossy
  obtain ⟨k1, k2, _⟩ := hl
  refine ⟨_, e, (Sample.ftLong_length (3 * m) (by omega)).trans (by omega), h, fun n hn => ?_⟩
  refine C89_fasttext_needs lossy _ e n h _ k2 (List.replicate (3 * m) 97) (by rw [k1]; simp [Sample.ftLong]) ?_
  refine hn.trans_le ?_
  have hw : (wrap true (List.replicate (3 * m) (97 : Code))).length = 3 * m + 2 := by simp [wrap]
  exact ngramRounds_long (by omega) (by rw [hw]; exact le_refl (3 * m + 2))

end

/-! ### The hypotheses can be met -/

example : ∃ e, Rd.run (loadFinalfusion Sample.toml false) ((Sample.embExpl.write Sample.toml).file).2 = .ok e ∧
    MRd.run (Steps.loadFinalfusion Sample.toml false) (2 * (e.vocab.words.length + storedNgrams e.vocab))
      ((Sample.embExpl.write Sample.toml).file).2 = .ok e ∧
    0 < storedNgrams e.vocab ∧
    MRd.run (Steps.loadFinalfusion Sample.toml false) 1 ((Sample.embExpl.write Sample.toml).file).2 = .error .memory := by
  obtain ⟨e, h⟩ := Sample.ok_of_errOf
    (r := Rd.run (loadFinalfusion Sample.toml false) ((Sample.embExpl.write Sample.toml).file).2) (by decide +kernel)
  have hs : (match Rd.run (loadFinalfusion Sample.toml false) ((Sample.embExpl.write Sample.toml).file).2 with
    | .ok e => decide (0 < storedNgrams e.vocab)
    | .error _ => false) = true := by decide +kernel
  rw [h] at hs
  have hs := of_decide_eq_true hs
  refine ⟨e, h, ?_, hs, ?_⟩
  · rw [C89_finalfusion_exact _ _ _ _ h, if_pos (le_refl _)]
  · rw [C89_finalfusion_exact _ _ _ _ h, if_neg (by omega)]

/-- A file that is cut short is rejected within the same number of steps. -/
example : MRd.run (Steps.loadFinalfusion Sample.toml false) 42 (((Sample.embExpl.write Sample.toml).file).2.take 40) =
    .error (.py .formatError) := by
  rw [C89_finalfusion _ _ _ _ (by decide +kernel), Sample.of_errOf (e := .formatError)
    (r := Rd.run (loadFinalfusion Sample.toml false) (((Sample.embExpl.write Sample.toml).file).2.take 40)) (by decide +kernel)]
  rfl

example : ∃ e, Rd.run (@loadWord2vec F32 Sample.f32Ops _ false) Sample.w2vTwo = .ok e ∧
    MRd.run (@Steps.loadWord2vec F32 Sample.f32Ops _ false) (3 * Sample.w2vTwo.length + 2) Sample.w2vTwo = .ok e := by
  obtain ⟨e, h⟩ := Sample.ok_of_errOf (r := Rd.run (@loadWord2vec F32 Sample.f32Ops _ false) Sample.w2vTwo) (by decide +kernel)
  refine ⟨e, h, ?_⟩
  rw [@C89_word2vec F32 Sample.f32Ops _ _ _ _ (le_refl _), h]
  rfl

example : ∃ e, @loadText F32 Sample.f32Ops Sample.f32Text Sample.textIO false (utf8 Sample.mixedText) = .ok e ∧
    @Steps.loadText F32 Sample.f32Ops Sample.f32Text Sample.textIO false (3 * (utf8 Sample.mixedText).length)
      (utf8 Sample.mixedText) = .ok e := by
  obtain ⟨e, h⟩ := Sample.ok_of_errOf
    (r := @loadText F32 Sample.f32Ops Sample.f32Text Sample.textIO false (utf8 Sample.mixedText)) (by decide +kernel)
  refine ⟨e, h, ?_⟩
  rw [(@C89_text F32 Sample.f32Ops Sample.f32Text Sample.textIO false _ _).1 (le_refl _), h]
  rfl

example : ∃ e ix, Rd.run (@loadFasttext F32 Sample.f32Ops _ true) Sample.ftFile2.bytes = .ok e ∧
    e.vocab.sub = some (.ft ix) ∧
    MRd.run (@Steps.loadFasttext F32 Sample.f32Ops _ true)
      (Sample.ftFile2.bytes.length * (8 + (ix.maxN + 1 - ix.minN) * (4 * ix.maxN + 1)) + 2) Sample.ftFile2.bytes = .ok e := by
  obtain ⟨e, h, hl⟩ := @C42_load F32 Sample.f32Ops _ Sample.ftFile2 Sample.ftFile2_ok true
  exact ⟨e, _, h, hl.2.1, @C89_fasttext_partial F32 Sample.f32Ops _ _ _ _ _ h _ hl.2.1 (le_refl _)⟩

end FF
