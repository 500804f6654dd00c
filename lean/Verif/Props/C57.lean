import Verif.Lemmas.FtCut
import Verif.Lemmas.Utf8Lossy
import Verif.Spec.Samples
import Verif.Props.C42
/-!
# C57: `load_fasttext` accepts only files of supported models

Files with another magic number or version, with labels, pruned or quantized files, and truncated files
are rejected.
-/

namespace FF

section
variable {K : Type} [NumOps K] [Codec K]

/-- Whatever is loaded was stored in the format, for every byte string: the right magic number and version,
twelve arguments, no labels, not pruned, entries of type "word" only, not quantized; the words and the
n-gram parameters are those of the file.  If the dimensions of the matrix are not negative, it is complete
and its dimensions are those of the storage. -/
theorem C57_layout (lossy : Bool) (bs : Bytes) (e : Embeddings K)
    (h : Rd.run (loadFasttext lossy) bs = .ok e) :
    ∃ L : FtLayout, L.Fits ∧ L.bytes = bs ∧ L.prune < 0 ∧
      List.Forall₂ (fun p w => DecodesTo lossy p.1 w) L.entries e.vocab.words ∧
      (∃ loss model : Int, L.args[6]? = some loss ∧ L.args[7]? = some model ∧
        -2 ≤ loss ∧ loss ≤ 3 ∧ -2 ≤ model ∧ model ≤ 3) ∧
      (∃ ix : FtIndexer, e.vocab.sub = some (.ft ix) ∧ L.args[8]? = some (ix.nBuckets : Int) ∧
        L.args[9]? = some (ix.minN : Int) ∧ L.args[10]? = some (ix.maxN : Int) ∧
        0 < ix.nBuckets ∧ 0 < ix.minN ∧ ix.minN ≤ ix.maxN) ∧
      (0 ≤ L.rows → 0 ≤ L.cols → (e.storage.nRows : Int) = L.rows ∧ (e.storage.nCols : Int) = L.cols ∧
        4 * (L.rows * L.cols) ≤ L.rest.length) := by
  obtain ⟨s', h⟩ := rd_run_ok h
  unfold loadFasttext at h
  obtain ⟨_, s1, h1, k1⟩ := rd_bind_inv h
  obtain ⟨cfg, s2, h2, k2⟩ := rd_bind_inv k1
  obtain ⟨p, s3, h3, k3⟩ := rd_bind_inv k2
  obtain ⟨m, s4, h4, k4⟩ := rd_bind_inv k3
  have hnew := (rd_lift_inv k4).1
  clear h k1 k2 k3 k4
  obtain ⟨hb, hsub⟩ := readFtVocab_built h3
  have hmwf := (readFtStorage_wf h4).1
  have a1 := readFtHeader_ate h1
  obtain ⟨args, t, hal, hargs, hof, a2⟩ := readFtCfg_ate h2
  obtain ⟨n, nw, nt, prune, ps, b1, b2, b3, b4, b5, b6, b7, b8, b9, b10, a3⟩ := readFtVocab_ate h3
  obtain ⟨r, c, s5, xs, m0, c1, c2, a4, hff, hre, hcols, hpre⟩ := readFtStorage_ate h4
  have ha := ((a1.trans a2).trans a3).trans a4
  obtain ⟨hst, _⟩ := embNew_iff.mp hnew
  have hvw : e.vocab = p.1 := by rw [hst]
  obtain ⟨x0, x1, x2, x3, x4, x5, x6, x7, x8, x9, x10, x11, rfl, _, _, _, _, _, _, g6, g7, g8, g9, g10,
    g11, g12⟩ := hof
  obtain ⟨i1, i2, i3, i4, i5, i6, i7, i8⟩ := ftNew_ok.mp b10
  have hrange : ∀ {l : List PyStr} {x : PyStr} {i : Int}, l.length = 3 → npGet l (i - 1) = .ok x →
      -2 ≤ i ∧ i ≤ 3 := by
    intro l x i hl hg
    obtain ⟨j, hj, _⟩ := npGet_ok.mp hg
    unfold npIndex at hj
    rw [hl] at hj
    split at hj
    · omega
    · split at hj
      · omega
      · cases hj
  have hr6 := hrange rfl g6
  have hr7 := hrange rfl g7
  refine ⟨⟨[x0, x1, x2, x3, x4, x5, x6, x7, x8, x9, x10, x11], t, n, nw, nt, prune, ps, r, c,
    s5.data.drop s5.pos⟩, ⟨rfl, hargs, ⟨b1, b2⟩, ⟨b3, b4, c1, c2⟩, b7, b8, b6⟩, ?_, b5,
    by rw [hvw]; exact b9.imp fun _ _ h => decodeLossy_iff.mp h, ⟨x6, x7, rfl, rfl, hr6.1, hr6.2, hr7.1, hr7.2⟩,
    ⟨p.2, by rw [hvw]; exact hsub, ?_, ?_, ?_, i7, i4, i5⟩, ?_⟩
  · obtain ⟨d1, d2⟩ := ha
    simp only [List.drop_zero] at d2
    rw [d2]
    unfold FtLayout.bytes
    rw [d1]
    simp only [List.append_assoc]
  · show some x8 = _; rw [i1, g8]
  · show some x9 = _; rw [i2, g9]
  · show some x10 = _; rw [i3, g10]
  · intro hr hc
    simp only at hr hc ⊢
    unfold reshapeInt at hre
    rw [if_neg (by omega), if_neg (by omega)] at hre
    obtain ⟨e1, e2, e3, e4, e5⟩ := reshape2_inv hre
    have hrl := (precomputeWords_wf hpre (by intro x hx; exact e5 x hx)).1
    have hrows : e.storage.nRows = r.toNat := by
      rw [hst]
      show (_ ++ _ : List (List K)).length = _
      rw [List.length_append, List.length_map, List.length_take, List.length_drop]
      omega
    have hcol : e.storage.nCols = c.toNat := by
      rw [hst]
      show m.cols = _
      rw [hcols, e3]
    refine ⟨by omega, by omega, ?_⟩
    have hm : 0 ≤ r * c := mul_nonneg hr hc
    unfold fromFileInt at hff
    rw [if_pos hm] at hff
    obtain ⟨f1, _⟩ := fromFileF32_inv hff
    have hlen : xs.length = (r * c).toNat := by
      rw [← List.length_map (f := Codec.ofBits (K := K)), e1, Int.toNat_mul hr hc]
    rw [f1, length_f32sOf, List.length_take] at hlen
    omega

/-- The files that are loaded strictly are those of the format (`FtFile.OK`, so that `C42_load` says what
is returned), apart from files with a loss or model number between -2 and 0 or a negative size. -/
theorem C57_regular (bs : Bytes) (hbs : bs.length < 2 ^ 63) (e : Embeddings K)
    (h : Rd.run (loadFasttext false) bs = .ok e) :
    ∃ L : FtLayout, L.Fits ∧ L.bytes = bs ∧
      ((∃ loss model : Int, L.args[6]? = some loss ∧ L.args[7]? = some model ∧ 1 ≤ loss ∧ 1 ≤ model) →
        0 ≤ L.nEntries → 0 ≤ L.rows → 0 ≤ L.cols →
        ∃ f : FtFile, f.OK ∧ f.bytes = bs ∧ FtLoaded f (f.rows.map fun r => r.map Codec.ofBits) e) := by
  obtain ⟨hbt, ⟨ix', hs'⟩, _⟩ := loadFasttext_built h
  obtain ⟨L, hL, hLb, hp, hent, ⟨loss, model, l1, l2, l3, l4, l5, l6⟩, ⟨ix, x0, x1, x2, x3, x4, x5, x6⟩,
    hmat⟩ := C57_layout false bs e h
  refine ⟨L, hL, hLb, ?_⟩
  rintro ⟨loss', model', q1, q2, q3, q4⟩ hn hr hc
  rw [l1] at q1; cases q1
  rw [l2] at q2; cases q2
  obtain ⟨args, t, nE, nW, nT, prune, entries, rows, cols, rest⟩ := L
  obtain ⟨f0, f1, ⟨f2, f3⟩, ⟨f4, f5, f6, f7⟩, f8, f9, f10⟩ := hL
  simp only at *
  match args, f0 with
  | [a0, a1, a2, a3, a4, a5, a6, a7, a8, a9, a10, a11], _ =>
  simp only [List.getElem?_cons_succ, List.getElem?_cons_zero, Option.some.injEq] at l1 l2 x1 x2 x3
  simp only [List.mem_cons, List.not_mem_nil, or_false, forall_eq_or_imp, forall_eq] at f1
  obtain ⟨y0, y1, y2, y3, y4, y5, y6, y7, y8, y9, y10, y11⟩ := f1
  subst l1 l2 x1 x2 x3
  obtain ⟨m1, m2, m3⟩ := hmat hr hc
  obtain ⟨r, rfl⟩ := Int.eq_ofNat_of_zero_le hr
  obtain ⟨c, rfl⟩ := Int.eq_ofNat_of_zero_le hc
  obtain ⟨n, rfl⟩ := Int.eq_ofNat_of_zero_le hn
  have m3' : 4 * (r * c) ≤ rest.length := by exact_mod_cast m3
  have hrl : rest.length ≤ bs.length := by
    rw [← hLb]; unfold FtLayout.bytes; rw [List.length_append]; exact Nat.le_add_left _ _
  have hub := (embNew_iff.mp hbt.new).2.1
  have hwl : e.vocab.words.length = entries.length := hent.length_eq.symm
  have hrows : r = entries.length + ix.nBuckets := by
    unfold Vocab.upperBound Indexer.upperBound FtIndexer.upperBound at hub
    rw [x0, hbt.vocab.len, hwl] at hub
    simp only at hub
    omega
  have hdec : ∀ i (h1 : i < entries.length) (h2 : i < e.vocab.words.length),
      utf8 e.vocab.words[i] = entries[i].1 ∧ e.vocab.words[i].any isSurrogate = false := by
    intro i h1 h2
    have := List.forall₂_iff_get.mp hent
    have := this.2 i h1 h2
    obtain ⟨h3, h4⟩ := utf8Text_iff.mp this
    exact ⟨h3.symm, h4⟩
  obtain ⟨ll, hll⟩ : ∃ ll : Fin 3, ((ll.val + 1 : Nat) : Int) = a6 :=
    ⟨⟨(a6 - 1).toNat, by omega⟩, by show (((a6 - 1).toNat + 1 : Nat) : Int) = a6; omega⟩
  obtain ⟨mm, hmm⟩ : ∃ mm : Fin 3, ((mm.val + 1 : Nat) : Int) = a7 :=
    ⟨⟨(a7 - 1).toNat, by omega⟩, by show (((a7 - 1).toNat + 1 : Nat) : Int) = a7; omega⟩
  have hf32 : (f32sOf (rest.take (4 * (r * c)))).length = r * c := by
    rw [length_f32sOf, List.length_take]; omega
  obtain ⟨w1, w2⟩ := splitRows_flat r c _ hf32
  obtain ⟨ps, hps⟩ : ∃ ps : List (PyStr × Int), ps = e.vocab.words.zip (entries.map Prod.snd) := ⟨_, rfl⟩
  have hpl : ps.length = entries.length := by rw [hps]; simp [hwl]
  have hpf : ps.map Prod.fst = e.vocab.words := by
    rw [hps]; exact List.map_fst_zip (by simp [hwl])
  have hpb : ps.flatMap ftWordBytes = entries.flatMap ftEntryBytes := by
    rw [List.flatMap, List.flatMap]
    congr 1
    apply List.ext_getElem (by simp [hpl])
    intro i h1 h2
    have h2' : i < entries.length := by simpa using h2
    simp only [List.getElem_map]
    unfold ftWordBytes ftEntryBytes
    have : ps[i]'(by rw [hpl]; exact h2') = (e.vocab.words[i]'(by rw [hwl]; exact h2'), entries[i].2) := by
      subst hps; simp
    rw [this]
    simp only
    rw [(hdec i h2' (by rw [hwl]; exact h2')).1]
  let f : FtFile := {
    dims := a0, windowSize := a1, epoch := a2, minCount := a3, ns := a4, wordNgrams := a5, loss := ll,
    model := mm, buckets := ix.nBuckets, minN := ix.minN, maxN := ix.maxN, lrUpdateRate := a11,
    samplingThreshold := t, nWords := nW, nTokens := nT, prune := prune, words := ps, cols := c,
    rows := splitRows r c (f32sOf (rest.take (4 * (r * c)))), output := rest.drop (4 * (r * c)) }
  have hok : f.OK := by
    have hmem : ∀ p ∈ ps, ∃ (i : Nat) (h1 : i < entries.length) (h2 : i < e.vocab.words.length),
        p = (e.vocab.words[i], entries[i].2) := by
      intro p hp
      obtain ⟨i, hi, rfl⟩ := List.getElem_of_mem hp
      subst hps
      have h1 : i < entries.length := by omega
      exact ⟨i, h1, by omega, by simp⟩
    refine ⟨⟨y0, y1, y2, y3, y4, y5, y11, f3, f4, f5, ?_⟩, ⟨x4, ?_⟩, ⟨x5, x6, ?_⟩, hp, ?_, ?_, ?_, ?_, ?_,
      ?_, ?_⟩
    · intro p hp
      obtain ⟨i, h1, h2, rfl⟩ := hmem p hp
      exact f8 _ (List.getElem_mem h1)
    · have := y8.2; show ix.nBuckets < _; omega
    · have := y10.2; show ix.maxN < _; omega
    · have := f2.2; show ps.length < _; omega
    · intro p hp
      obtain ⟨i, h1, h2, rfl⟩ := hmem p hp
      intro x hx h0
      apply f9 _ (List.getElem_mem h1)
      simp only at hx
      have hd := (hdec i h1 h2).1
      rw [← hd]
      obtain ⟨l1, l2, hl⟩ := List.append_of_mem hx
      rw [hl, utf8_append, utf8]
      have : encCode x = [0] := by unfold encCode; rw [h0]; rfl
      rw [this]; simp
    · intro p hp
      obtain ⟨i, h1, h2, rfl⟩ := hmem p hp
      exact any_surrogate.mp (hdec i h1 h2).2
    · show (ps.map Prod.fst).Nodup
      rw [hpf]; exact hbt.vocab.nodup
    · show (splitRows r c _).length = ps.length + ix.nBuckets
      rw [length_splitRows, hpl]; exact hrows
    · exact w2
    · show ShapeOk (splitRows r c _).length c
      rw [length_splitRows]
      have := y8.2
      have := f2.2
      have : c ≤ r * c := Nat.le_mul_of_pos_left _ (by omega)
      exact shapeOk_of (by omega) (by omega) (by omega)
  have hbytes : f.bytes = bs := by
    rw [← hLb]
    unfold FtFile.bytes FtFile.headerBytes FtFile.cfgBytes FtFile.dictBytes FtFile.matrixBytes
      FtLayout.bytes
    show _ ++ (_ ++ sle 4 ((ll.val + 1 : Nat) : Int) ++ sle 4 ((mm.val + 1 : Nat) : Int) ++ _ ++ _ ++ _ ++
      _ ++ _) ++ (sle 4 (ps.length : Int) ++ _ ++ _ ++ _ ++ _ ++ ps.flatMap ftWordBytes) ++
      ([0] ++ sle 8 ((splitRows r c _).length : Int) ++ _ ++ f32sLE (splitRows r c _).flatten) ++ _ = _
    rw [length_splitRows, w1, hpb, hll, hmm, hpl, f10, Int.toNat_natCast]
    have e1 : f32sLE (f32sOf (rest.take (4 * (r * c)))) ++ rest.drop (4 * (r * c)) = rest := by
      rw [f32sLE_f32sOf _ (by rw [List.length_take]; omega), List.take_append_drop]
    simp only [List.flatMap_cons, List.flatMap_nil, List.append_assoc, List.append_nil]
    show _ = _
    congr 25
  refine ⟨f, hok, hbytes, ?_⟩
  obtain ⟨e', h', hl'⟩ := C42_load (K := K) f hok false
  rw [hbytes, h] at h'
  cases h'
  exact hl'

/-- Truncated files are rejected, wherever they end before the end of the input matrix. -/
theorem C57_truncated (f : FtFile) (hf : f.OK) (lossy : Bool) (k : Nat)
    (hk : k + f.output.length < f.bytes.length) :
    ∃ err, Rd.run (loadFasttext (K := K) lossy) (f.bytes.take k) = .error err := by
  have e1 : f.bytes = (FtFile.headerBytes ++ (f.cfgBytes ++ (f.dictBytes ++ f.matrixBytes))) ++ f.output := by
    unfold FtFile.bytes; simp only [List.append_assoc]
  rw [e1, List.length_append] at hk
  obtain ⟨er, her⟩ := loadFasttext_short (K := K) hf lossy k (by omega)
  refine ⟨er, ?_⟩
  rw [e1, List.take_append_of_le_length (by omega)]
  unfold Rd.run
  simp only [List.nil_append, List.length_nil] at her
  rw [her]

/-! ### What is raised -/

/-- Another magic number or version -/
theorem C57_magic (lossy : Bool) (m v : Int) (hm : Int32Ok m) (hv : Int32Ok v)
    (h : m ≠ 793712314 ∨ v ≠ 12) (rest : Bytes) :
    Rd.run (loadFasttext (K := K) lossy) (sle 4 m ++ sle 4 v ++ rest) = .error .valueError := by
  have hp := readSigned_parses [4, 4] [(4, m), (4, v)] [] rfl (by decide) (by decide)
    (by simp) (by
      intro x hx
      simp only [List.mem_cons, List.not_mem_nil, or_false] at hx
      rcases hx with rfl | rfl
      · exact int32 hm
      · exact int32 hv) rest
  simp only [List.flatMap_cons, List.flatMap_nil, List.append_nil, List.nil_append, List.length_nil,
    List.map_cons, List.map_nil] at hp
  have : loadFasttext (K := K) lossy ⟨sle 4 m ++ sle 4 v ++ rest, 0⟩ = .error .valueError := by
    unfold loadFasttext readFtHeader
    refine rd_bind_error ?_
    rw [rd_bind_ok hp]
    simp only
    by_cases h1 : m ≠ ftMagic
    · rw [if_pos h1]; rfl
    · rw [if_neg h1]
      have h1 : m = 793712314 := by unfold ftMagic at h1; omega
      have h2 : v ≠ 12 := by
        rcases h with h | h
        · exact absurd h1 h
        · exact h
      rw [if_pos h2]; rfl
  unfold Rd.run
  rw [this]

omit [NumOps K] [Codec K] in
theorem run_after {α : Type} {m : Rd α} {bs : Bytes} {e : PyErr} (h : m ⟨bs, 0⟩ = .error e) :
    Rd.run m bs = .error e := by unfold Rd.run; rw [h]

theorem load_after_cfg (lossy : Bool) {f : FtFile} (hf : f.OK) (rest : Bytes) {err : PyErr}
    (h : readFtVocab f.buckets f.minN f.maxN lossy
      ⟨FtFile.headerBytes ++ f.cfgBytes ++ rest, (FtFile.headerBytes ++ f.cfgBytes).length⟩ = .error err) :
    Rd.run (loadFasttext (K := K) lossy) (FtFile.headerBytes ++ f.cfgBytes ++ rest) = .error err := by
  apply run_after
  unfold loadFasttext
  have h1 := readFtHeader_parses [] (f.cfgBytes ++ rest)
  simp only [List.nil_append, List.length_nil] at h1
  have h2 := readFtCfg_parses hf FtFile.headerBytes rest
  rw [List.append_assoc] at h h2 ⊢
  rw [rd_bind_ok h1, rd_bind_ok h2]
  exact rd_bind_error h

/-- Labels -/
theorem C57_labels (lossy : Bool) (f : FtFile) (hf : f.OK) (l : Int) (hl : Int32Ok l) (h0 : l ≠ 0)
    (rest : Bytes) :
    Rd.run (loadFasttext (K := K) lossy) (FtFile.headerBytes ++ f.cfgBytes ++
      (sle 4 f.words.length ++ sle 4 f.nWords ++ sle 4 l ++ rest)) = .error .notImplementedError := by
  apply load_after_cfg lossy hf
  unfold readFtVocab
  have hp := readFtSizes_parses hf l hl (FtFile.headerBytes ++ f.cfgBytes) rest
  rw [← List.append_assoc, rd_bind_ok hp]
  simp only
  rw [if_pos h0]
  rfl

/-- A pruned dictionary -/
theorem C57_pruned (lossy : Bool) (f : FtFile) (hf : f.OK) (prune : Int) (hp : Int64Ok prune)
    (h0 : 0 ≤ prune) (rest : Bytes) :
    Rd.run (loadFasttext (K := K) lossy) (FtFile.headerBytes ++ f.cfgBytes ++
      (sle 4 f.words.length ++ sle 4 f.nWords ++ sle 4 0 ++ (sle 8 f.nTokens ++ (sle 8 prune ++ rest)))) =
      .error .notImplementedError := by
  apply load_after_cfg lossy hf
  unfold readFtVocab
  obtain ⟨_, _, _, _, _, _, _, _, d8, _⟩ := hf.ints
  have h1 := readFtSizes_parses hf 0 (by unfold Int32Ok; decide) (FtFile.headerBytes ++ f.cfgBytes)
    (sle 8 f.nTokens ++ (sle 8 prune ++ rest))
  rw [← List.append_assoc, rd_bind_ok h1]
  simp only
  rw [if_neg (by simp)]
  generalize FtFile.headerBytes ++ f.cfgBytes ++ (sle 4 f.words.length ++ sle 4 f.nWords ++ sle 4 0) = pre
  have h2 := readOne_parses 8 (sleNat 8 f.nTokens) pre (by decide) (by decide)
    (sleNat_lt (by decide) (int64 d8)) (sle 8 prune ++ rest)
  have h3 := readOne_parses 8 (sleNat 8 prune) (pre ++ sle 8 f.nTokens) (by decide) (by decide)
    (sleNat_lt (by decide) (int64 hp)) rest
  rw [← sle_eq] at h2 h3
  rw [← List.append_assoc]
  show (readOne 8 >>= _) _ = _
  rw [rd_bind_ok h2, ← List.append_assoc, rd_bind_ok h3, toSigned_sleNat (by decide) (int64 hp)]
  rw [if_pos h0]
  rfl

/-- An entry that is not a word, after any number of words -/
theorem C57_entry (lossy : Bool) (f : FtFile) (hf : f.OK) (ws more : List (PyStr × Int))
    (p : PyStr × Int) (hw : f.words = ws ++ p :: more) (t : UInt8) (ht : t ≠ 0) (rest : Bytes) :
    Rd.run (loadFasttext (K := K) lossy) (FtFile.headerBytes ++ f.cfgBytes ++
      (sle 4 f.words.length ++ sle 4 f.nWords ++ sle 4 0 ++ (sle 8 f.nTokens ++ (sle 8 f.prune ++
        (ws.flatMap ftWordBytes ++ (utf8 p.1 ++ [0] ++ sle 8 p.2 ++ [t] ++ rest)))))) =
      .error .valueError := by
  apply load_after_cfg lossy hf
  unfold readFtVocab
  obtain ⟨_, _, _, _, _, _, _, _, d8, d9, d10⟩ := hf.ints
  have h1 := readFtSizes_parses hf 0 (by unfold Int32Ok; decide) (FtFile.headerBytes ++ f.cfgBytes)
    (sle 8 f.nTokens ++ (sle 8 f.prune ++
        (ws.flatMap ftWordBytes ++ (utf8 p.1 ++ [0] ++ sle 8 p.2 ++ [t] ++ rest))))
  rw [← List.append_assoc, rd_bind_ok h1]
  simp only
  rw [if_neg (by simp)]
  generalize FtFile.headerBytes ++ f.cfgBytes ++ (sle 4 f.words.length ++ sle 4 f.nWords ++ sle 4 0) = pre
  have h2 := readOne_parses 8 (sleNat 8 f.nTokens) pre (by decide) (by decide)
    (sleNat_lt (by decide) (int64 d8)) (sle 8 f.prune ++
        (ws.flatMap ftWordBytes ++ (utf8 p.1 ++ [0] ++ sle 8 p.2 ++ [t] ++ rest)))
  have h3 := readOne_parses 8 (sleNat 8 f.prune) (pre ++ sle 8 f.nTokens) (by decide) (by decide)
    (sleNat_lt (by decide) (int64 d9))
    (ws.flatMap ftWordBytes ++ (utf8 p.1 ++ [0] ++ sle 8 p.2 ++ [t] ++ rest))
  rw [← sle_eq] at h2 h3
  rw [← List.append_assoc]
  show (readOne 8 >>= _) _ = _
  rw [rd_bind_ok h2, ← List.append_assoc, rd_bind_ok h3, toSigned_sleNat (by decide) (int64 d9)]
  rw [if_neg (by have := hf.prune; omega)]
  refine rd_bind_error ?_
  rw [Int.toNat_natCast, hw, List.length_append, List.length_cons]
  generalize pre ++ sle 8 f.nTokens ++ sle 8 f.prune = pre
  have hmem : ∀ q ∈ p :: ws, q ∈ f.words := by
    intro q hq
    rw [hw]
    rcases List.mem_cons.mp hq with rfl | hq
    · simp
    · simp [hq]
  have hn : ∀ q ∈ p :: ws, ∀ c ∈ q.1, c.val ≠ 0 := fun q hq => hf.nul q (hmem q hq)
  have htx : ∀ q ∈ p :: ws, ∀ c ∈ q.1, c.val < 0xD800 ∨ 0xDFFF < c.val := fun q hq => hf.text q (hmem q hq)
  have hi : ∀ q ∈ p :: ws, Int64Ok q.2 := fun q hq => d10 q (hmem q hq)
  clear hw h1 h2 h3 hmem
  induction ws generalizing pre with
  | nil =>
    rw [List.length_nil, Nat.zero_add, readFtWords]
    refine rd_bind_error ?_
    unfold readFtWord
    have g1 := readDelim_parses (no_nul_utf8 (hn p (by simp))) pre (sle 8 p.2 ++ ([t] ++ rest))
    have g2 := readOne_parses 8 (sleNat 8 p.2) (pre ++ (utf8 p.1 ++ [0])) (by decide) (by decide)
      (sleNat_lt (by decide) (int64 (hi p (by simp)))) ([t] ++ rest)
    have g3 := readOne_parses 1 t.toNat (pre ++ (utf8 p.1 ++ [0]) ++ sle 8 p.2) (by decide) (by decide)
      t.toNat_lt rest
    have hle : le 1 t.toNat = [t] := by simp [le]
    rw [← sle_eq] at g2
    rw [hle] at g3
    rw [List.flatMap_nil, List.nil_append]
    have e : pre ++ (utf8 p.1 ++ [0] ++ sle 8 p.2 ++ [t] ++ rest) =
        pre ++ (utf8 p.1 ++ [0]) ++ (sle 8 p.2 ++ ([t] ++ rest)) := by simp
    have e2 : pre ++ (utf8 p.1 ++ [0]) ++ (sle 8 p.2 ++ ([t] ++ rest)) =
        pre ++ (utf8 p.1 ++ [0]) ++ sle 8 p.2 ++ ([t] ++ rest) := by simp
    have e3 : pre ++ (utf8 p.1 ++ [0]) ++ sle 8 p.2 ++ ([t] ++ rest) =
        pre ++ (utf8 p.1 ++ [0]) ++ sle 8 p.2 ++ [t] ++ rest := by simp
    rw [e, rd_bind_ok g1, e2, rd_bind_ok g2, e3, rd_bind_ok g3]
    have : t.toNat ≠ 0 := by
      intro h
      apply ht
      exact UInt8.toNat_inj.mp h
    rw [if_pos this]
    rfl
  | cons w ws ih =>
    have hs : (w :: ws).length + (more.length + 1) = (ws.length + (more.length + 1)) + 1 := by
      simp; omega
    rw [hs, readFtWords]
    have g1 := readFtWord_parses lossy (hn w (by simp)) (htx w (by simp)) (hi w (by simp)) pre
      (ws.flatMap ftWordBytes ++ (utf8 p.1 ++ [0] ++ sle 8 p.2 ++ [t] ++ rest))
    rw [List.flatMap_cons, List.append_assoc (ftWordBytes w), ← List.append_assoc pre (ftWordBytes w)]
    rw [rd_bind_ok g1]
    refine rd_bind_error ?_
    exact ih (pre ++ ftWordBytes w)
      (fun q hq => hn q (by rcases List.mem_cons.mp hq with rfl | hq <;> simp [*]))
      (fun q hq => htx q (by rcases List.mem_cons.mp hq with rfl | hq <;> simp [*]))
      (fun q hq => hi q (by rcases List.mem_cons.mp hq with rfl | hq <;> simp [*]))

/-- A quantized matrix -/
theorem C57_quantized (lossy : Bool) (f : FtFile) (hf : f.OK) (q : UInt8) (hq : q ≠ 0) (rest : Bytes) :
    Rd.run (loadFasttext (K := K) lossy) (FtFile.headerBytes ++ f.cfgBytes ++ f.dictBytes ++ [q] ++ rest) =
      .error .notImplementedError := by
  apply run_after
  unfold loadFasttext
  have h1 := readFtHeader_parses [] (f.cfgBytes ++ (f.dictBytes ++ ([q] ++ rest)))
  have h2 := readFtCfg_parses hf FtFile.headerBytes (f.dictBytes ++ ([q] ++ rest))
  have h3 := readFtVocab_parses lossy hf (FtFile.headerBytes ++ f.cfgBytes) ([q] ++ rest)
  have h4 := readOne_parses 1 q.toNat (FtFile.headerBytes ++ f.cfgBytes ++ f.dictBytes) (by decide)
    (by decide) q.toNat_lt rest
  have hle : le 1 q.toNat = [q] := by simp [le]
  rw [hle] at h4
  simp only [List.nil_append, List.length_nil, List.append_assoc] at h1 h2 h3 h4 ⊢
  rw [rd_bind_ok h1, rd_bind_ok h2]
  refine (rd_bind_ok h3).trans (rd_bind_error ?_)
  unfold readFtStorage
  rw [rd_bind_ok h4]
  have : q.toNat ≠ 0 := by
    intro h
    apply hq
    exact UInt8.toNat_inj.mp h
  simp only
  rw [if_pos this]
  rfl

end

/-! ### Files that are accepted although they are malformed -/

namespace Sample

/-- The file of `ftFile2` with loss number `l` and model number `m`. -/
def ftNumbered (l m : Int) : Bytes :=
  ftFile2.bytes.take 32 ++ sle 4 l ++ sle 4 m ++ ftFile2.bytes.drop 40

/-- The file of `ftFile2` with negative numbers of rows, without output matrix. -/
def ftNegative : Bytes :=
  FtFile.headerBytes ++ ftFile2.cfgBytes ++ ftFile2.dictBytes ++ [0] ++ sle 8 (-7) ++ sle 8 2 ++
    f32sLE ftFile2.rows.flatten

def hasStr (k v : PyStr) : Meta → Bool
  | [] => false
  | (k', .str v') :: md => (k' == k && v' == v) || hasStr k v md
  | _ :: md => hasStr k v md

theorem mem_of_hasStr {k v : PyStr} {md : Meta} (h : hasStr k v md = true) : (k, .str v) ∈ md := by
  induction md using hasStr.induct with
  | case1 => cases h
  | case2 k' v' md ih =>
    simp only [hasStr, Bool.or_eq_true, Bool.and_eq_true, beq_iff_eq] at h
    rcases h with ⟨rfl, rfl⟩ | h
    · simp
    · exact List.mem_cons_of_mem _ (ih h)
  | case3 p md hne ih =>
    obtain ⟨k', x⟩ := p
    cases x with
    | str v' => exact absurd rfl (hne k' v')
    | _ => exact List.mem_cons_of_mem _ (ih (by simpa [hasStr] using h))

end Sample

/-- The numbers of loss and model are used as list indices after subtracting one: a file with the numbers 0
is accepted, as one of a supervised model with softmax; in the format these are 3. -/
theorem C57_numbers_refuted : ∃ (inst : NumOps F32) (e : Embeddings F32),
    Rd.run (@loadFasttext F32 inst _ false) (Sample.ftNumbered 0 0) = .ok e ∧
    ∃ md, e.metadata = some md ∧ (ascii "loss".toList, .str (ascii "Softmax".toList)) ∈ md ∧
      (ascii "model".toList, .str (ascii "Supervised".toList)) ∈ md := by
  obtain ⟨e, h⟩ := Sample.ok_of_errOf
    (r := Rd.run (@loadFasttext F32 Sample.f32Ops _ false) (Sample.ftNumbered 0 0)) (by decide +kernel)
  have hm : (match Rd.run (@loadFasttext F32 Sample.f32Ops _ false) (Sample.ftNumbered 0 0) with
    | .ok e => (match e.metadata with
      | some md => Sample.hasStr (ascii "loss".toList) (ascii "Softmax".toList) md &&
          Sample.hasStr (ascii "model".toList) (ascii "Supervised".toList) md
      | none => false)
    | .error _ => false) = true := by decide +kernel
  rw [h] at hm
  simp only at hm
  cases hmd : e.metadata with
  | none => rw [hmd] at hm; cases hm
  | some md =>
    rw [hmd] at hm
    simp only [Bool.and_eq_true] at hm
    exact ⟨Sample.f32Ops, e, h, md, hmd, Sample.mem_of_hasStr hm.1, Sample.mem_of_hasStr hm.2⟩

/-- A negative number of rows is accepted if the rest of the file is the matrix. -/
theorem C57_negative_refuted : ∃ (inst : NumOps F32) (e : Embeddings F32),
    Rd.run (@loadFasttext F32 inst _ false) Sample.ftNegative = .ok e :=
  let ⟨e, h⟩ := Sample.ok_of_errOf
    (r := Rd.run (@loadFasttext F32 Sample.f32Ops _ false) Sample.ftNegative) (by decide +kernel)
  ⟨Sample.f32Ops, e, h⟩

/-! ### The hypotheses can be met -/

/-- A regular file -/
example : ∃ e : Embeddings F32, Rd.run (@loadFasttext F32 Sample.f32Ops _ false) Sample.ftFile2.bytes = .ok e ∧
    Sample.ftFile2.bytes.length < 2 ^ 63 :=
  let ⟨e, h⟩ := Sample.ok_of_errOf
    (r := Rd.run (@loadFasttext F32 Sample.f32Ops _ false) Sample.ftFile2.bytes) (by decide +kernel)
  ⟨e, h, by decide +kernel⟩

/-- Truncated just before the end of the matrix -/
example : ∃ err, Rd.run (@loadFasttext F32 Sample.f32Ops _ false)
    (Sample.ftFile2.bytes.take (Sample.ftFile2.bytes.length - 5)) = .error err :=
  @C57_truncated F32 Sample.f32Ops _ Sample.ftFile2 Sample.ftFile2_ok false _ (by decide +kernel)

/-- The second word has type 1. -/
example (rest : Bytes) := @C57_entry F32 Sample.f32Ops _ true Sample.ftFile2 Sample.ftFile2_ok
  [([97, 98], 700)] [] ([0xDF], 300) rfl 1 (by decide) rest

example (rest : Bytes) := @C57_labels F32 Sample.f32Ops _ true Sample.ftFile2 Sample.ftFile2_ok 3
  (by unfold Int32Ok; decide) (by decide) rest

example (rest : Bytes) := @C57_pruned F32 Sample.f32Ops _ true Sample.ftFile2 Sample.ftFile2_ok 0
  (by unfold Int64Ok; decide) (by decide) rest

example (rest : Bytes) := @C57_quantized F32 Sample.f32Ops _ true Sample.ftFile2 Sample.ftFile2_ok 1
  (by decide) rest

/-- The version before -/
example (rest : Bytes) := @C57_magic F32 Sample.f32Ops _ true 793712314 11 (by unfold Int32Ok; decide)
  (by unfold Int32Ok; decide) (by decide) rest

end FF
