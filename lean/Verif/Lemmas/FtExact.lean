import Verif.Lemmas.FtLayout
import Verif.Lemmas.Utf8Lossy
import Verif.Lemmas.FfPrim
/-! Exactly which fastText files load. -/

namespace FF

/-! ### Numbers of losses and models -/

theorem ftNumber_iff {l : List PyStr} {name : Fin 3 → PyStr} (hl : l.length = 3)
    (hn : ∀ i : Fin 3, l[i.val]? = some (name i)) {n : Int} {x : PyStr} :
    npGet l (n - 1) = .ok x ↔ ∃ i, FtNumber n i ∧ x = name i := by
  rw [npGet_ok]
  unfold npIndex FtNumber
  rw [hl]
  constructor
  · rintro ⟨j, hj, hx⟩
    split at hj
    · cases hj
      have := hn ⟨(n - 1).toNat, by omega⟩
      rw [hx] at this
      exact ⟨⟨(n - 1).toNat, by omega⟩, Or.inl (by simp only; omega), Option.some.inj this⟩
    · split at hj
      · cases hj
        have := hn ⟨(n - 1 + (3 : Nat)).toNat, by omega⟩
        rw [hx] at this
        exact ⟨⟨(n - 1 + (3 : Nat)).toNat, by omega⟩, Or.inr (by simp only; omega), Option.some.inj this⟩
      · cases hj
  · rintro ⟨i, hi, rfl⟩
    have hlt := i.isLt
    refine ⟨i.val, ?_, hn i⟩
    rcases hi with rfl | rfl
    · rw [if_pos (by omega)]
      congr 1
      omega
    · rw [if_neg (by omega), if_pos (by omega)]
      congr 1
      omega

theorem ftLoss_iff {n : Int} {x : PyStr} :
    npGet ftLosses (n - 1) = .ok x ↔ ∃ i, FtNumber n i ∧ x = ftLossName i :=
  ftNumber_iff rfl (by intro i; match i with | 0 => rfl | 1 => rfl | 2 => rfl)

theorem ftModel_iff {n : Int} {x : PyStr} :
    npGet ftModels (n - 1) = .ok x ↔ ∃ i, FtNumber n i ∧ x = ftModelName i :=
  ftNumber_iff rfl (by intro i; match i with | 0 => rfl | 1 => rfl | 2 => rfl)

/-! ### Reading any layout -/

theorem readFtCfg_parses_of {args : List Int} {t : UInt64} {c : FtCfg} (ha : ∀ a ∈ args, Int32Ok a)
    (hc : c.Of args t) (pre : Bytes) :
    Parses readFtCfg pre (args.flatMap (sle 4) ++ le 8 t.toNat) c := by
  obtain ⟨a0, a1, a2, a3, a4, a5, a6, a7, a8, a9, a10, a11, rfl, g0, g1, g2, g3, g4, g5, g6, g7, g8, g9, g10,
    g11, g12⟩ := hc
  simp only [List.mem_cons, List.not_mem_nil, or_false, forall_eq_or_imp, forall_eq] at ha
  obtain ⟨b0, b1, b2, b3, b4, b5, b6, b7, b8, b9, b10, b11⟩ := ha
  have p4 : (0 : Nat) < 4 := by decide
  have hp := readRequired_parses [4, 4, 4, 4, 4, 4, 4, 4, 4, 4, 4, 4, 8]
    [(4, sleNat 4 a0), (4, sleNat 4 a1), (4, sleNat 4 a2), (4, sleNat 4 a3), (4, sleNat 4 a4),
      (4, sleNat 4 a5), (4, sleNat 4 a6), (4, sleNat 4 a7), (4, sleNat 4 a8), (4, sleNat 4 a9),
      (4, sleNat 4 a10), (4, sleNat 4 a11), (8, t.toNat)] pre rfl (by decide) (by decide)
    (by
      intro x hx
      simp only [List.mem_cons, List.not_mem_nil, or_false] at hx
      rcases hx with rfl | rfl | rfl | rfl | rfl | rfl | rfl | rfl | rfl | rfl | rfl | rfl | rfl
      · exact sleNat_lt p4 (int32 b0)
      · exact sleNat_lt p4 (int32 b1)
      · exact sleNat_lt p4 (int32 b2)
      · exact sleNat_lt p4 (int32 b3)
      · exact sleNat_lt p4 (int32 b4)
      · exact sleNat_lt p4 (int32 b5)
      · exact sleNat_lt p4 (int32 b6)
      · exact sleNat_lt p4 (int32 b7)
      · exact sleNat_lt p4 (int32 b8)
      · exact sleNat_lt p4 (int32 b9)
      · exact sleNat_lt p4 (int32 b10)
      · exact sleNat_lt p4 (int32 b11)
      · have := t.toNat_lt; exact this)
  unfold readFtCfg
  refine (Parses.bind_last hp ?_).congr (by
    simp only [packRaw, sle_eq, List.flatMap_cons, List.flatMap_nil, List.append_assoc, List.append_nil])
  simp only [List.map_cons, List.map_nil]
  rw [toSigned_sleNat p4 (int32 b0), toSigned_sleNat p4 (int32 b1), toSigned_sleNat p4 (int32 b2),
    toSigned_sleNat p4 (int32 b3), toSigned_sleNat p4 (int32 b4), toSigned_sleNat p4 (int32 b5),
    toSigned_sleNat p4 (int32 b6), toSigned_sleNat p4 (int32 b7), toSigned_sleNat p4 (int32 b8),
    toSigned_sleNat p4 (int32 b9), toSigned_sleNat p4 (int32 b10), toSigned_sleNat p4 (int32 b11)]
  refine Parses.bind_nil (Parses.lift _ g6) (Parses.bind_nil (Parses.lift _ g7) ?_)
  have e3 : UInt64.ofNat t.toNat = t := by simp
  rw [e3]
  have : (⟨a0, a1, a2, a3, a4, a5, c.loss, c.model, a8, a9, a10, a11, t⟩ : FtCfg) = c := by
    subst g0 g1 g2 g3 g4 g5 g8 g9 g10 g11 g12
    rfl
  rw [this]
  exact Parses.pure _ _

theorem readFtWord_parses_of {lossy : Bool} {p : Bytes × Int} {w : PyStr} (h0 : (0 : UInt8) ∉ p.1)
    (hi : Int64Ok p.2) (hd : decodeLossy lossy p.1 = .ok w) (pre : Bytes) :
    Parses (readFtWord lossy) pre (ftEntryBytes p) w := by
  unfold readFtWord ftEntryBytes
  have h1 := readDelim_parses h0 pre
  have h2 := readOne_parses 8 (sleNat 8 p.2) (pre ++ (p.1 ++ [0])) (by decide) (by decide)
    (sleNat_lt (by decide) (int64 hi))
  have h3 := readOne_parses 1 0 (pre ++ (p.1 ++ [0]) ++ le 8 (sleNat 8 p.2)) (by decide)
    (by decide) (by decide)
  have h4 : Parses (do
      if (0 : Nat) ≠ 0 then Rd.fail .valueError
      Rd.lift (decodeLossy lossy p.1))
      (pre ++ (p.1 ++ [0]) ++ le 8 (sleNat 8 p.2) ++ le 1 0) [] w :=
    Parses.lift _ hd
  refine (Parses.bind h1 (Parses.bind h2 (Parses.bind_last h3 h4))).congr ?_
  have : le 1 0 = [0] := rfl
  rw [this, sle_eq]
  simp only [List.append_assoc]

theorem readFtWords_parses_of {lossy : Bool} {ps : List (Bytes × Int)} {ws : List PyStr}
    (h0 : ∀ p ∈ ps, (0 : UInt8) ∉ p.1) (hi : ∀ p ∈ ps, Int64Ok p.2)
    (hd : List.Forall₂ (fun p w => decodeLossy lossy p.1 = .ok w) ps ws) (pre : Bytes) :
    Parses (readFtWords lossy ps.length) pre (ps.flatMap ftEntryBytes) ws := by
  induction hd generalizing pre with
  | nil => exact Parses.pure _ _
  | @cons p w ps ws hp _ ih =>
    rw [List.length_cons, readFtWords, List.flatMap_cons]
    exact Parses.bind (readFtWord_parses_of (h0 p (by simp)) (hi p (by simp)) hp pre)
      (Parses.bind_last (ih (fun q hq => h0 q (List.mem_cons_of_mem _ hq))
        (fun q hq => hi q (List.mem_cons_of_mem _ hq)) _) (Parses.pure _ _))

theorem readFtVocab_parses_of {lossy : Bool} {L : FtLayout} (hL : L.Fits) (hprune : L.prune < 0)
    {ws : List PyStr} (hd : List.Forall₂ (fun p w => decodeLossy lossy p.1 = .ok w) L.entries ws)
    {b mn mx : Int} {ix : FtIndexer} (hix : FtIndexer.new b mn mx = .ok ix) {v : Vocab}
    (hv : Vocab.new ws (some (.ft ix)) = .ok v) (pre : Bytes) :
    Parses (readFtVocab b mn mx lossy) pre (sle 4 L.nEntries ++ sle 4 L.nWords ++ sle 4 0 ++ sle 8 L.nTokens ++
      sle 8 L.prune ++ L.entries.flatMap ftEntryBytes) (v, ix) := by
  have hp := readSigned_parses [4, 4, 4] [(4, L.nEntries), (4, L.nWords), (4, 0)] pre rfl
    (by decide) (by decide) (by simp)
    (by
      intro x hx
      simp only [List.mem_cons, List.not_mem_nil, or_false] at hx
      rcases hx with rfl | rfl | rfl
      · exact int32 hL.sizes.1
      · exact int32 hL.sizes.2
      · decide)
  have h2 := fun pre => readOne_parses 8 (sleNat 8 L.nTokens) pre (by decide) (by decide)
    (sleNat_lt (by decide) (int64 hL.longs.1))
  have h3 := fun pre => readOne_parses 8 (sleNat 8 L.prune) pre (by decide) (by decide)
    (sleNat_lt (by decide) (int64 hL.longs.2.1))
  have hsg := toSigned_sleNat (w := 8) (by decide) (int64 hL.longs.2.1)
  unfold readFtVocab
  refine (Parses.bind hp (e2 := le 8 (sleNat 8 L.nTokens) ++ (le 8 (sleNat 8 L.prune) ++
    L.entries.flatMap ftEntryBytes)) ?_).congr ?_
  · simp only [List.map_cons, List.map_nil]
    show Parses (readOne 8 >>= _) _ _ _
    refine Parses.bind (h2 _) (Parses.bind (h3 _) ?_)
    have hneg : ¬ (toSigned 8 (sleNat 8 L.prune) ≥ 0) := by
      rw [hsg]; omega
    simp only [hneg, if_false]
    rw [← hL.entries]
    show Parses (readFtWords lossy L.entries.length >>= _) _ _ _
    refine Parses.bind_last (readFtWords_parses_of hL.nul hL.freqs hd _) ?_
    refine Parses.bind_nil (Parses.lift _ hix) (Parses.bind_nil (Parses.lift _ hv) ?_)
    exact Parses.pure _ _
  · simp only [List.flatMap_cons, List.flatMap_nil, List.append_nil, List.append_assoc, sle_eq]

section
variable {K : Type} [NumOps K] [Codec K]

omit [NumOps K] in
theorem reshape_rows {c : Nat} {m : List (List F32)} (hm : ∀ r ∈ m, r.length = c) (hf : ShapeOk m.length c) :
    reshape2 4 m.length c (m.flatten.map (Codec.ofBits : F32 → K)) =
      .ok ⟨c, m.map fun r => r.map Codec.ofBits⟩ := by
  have hlen : m.flatten.length = m.length * c := flatten_length_of hm
  unfold reshape2
  rw [if_pos ⟨by rw [List.length_map, hlen], arrayFits_mat hf⟩]
  congr 2
  have := splitRows_flatten c (m.map fun r => r.map (Codec.ofBits : F32 → K)) (by
    intro r hr
    obtain ⟨x, hx, rfl⟩ := List.mem_map.mp hr
    rw [List.length_map]; exact hm x hx)
  rw [List.length_map, ← List.map_flatten] at this
  exact this

omit [NumOps K] in
theorem reshape_rows_inv {r c : Nat} {xs : List F32} {m0 : Mat K}
    (h : reshape2 4 r c (xs.map (Codec.ofBits : F32 → K)) = .ok m0) :
    ∃ m : List (List F32), m.length = r ∧ m.flatten = xs ∧ ((∀ x ∈ m, x.length = c) ∧ ShapeOk m.length c) ∧
      m0 = ⟨c, m.map fun r => r.map Codec.ofBits⟩ := by
  obtain ⟨h1, _⟩ := reshape2_inv h
  rw [List.length_map] at h1
  obtain ⟨h2, h3⟩ := splitRows_flat r c xs h1
  have h5 : ShapeOk (splitRows r c xs).length c := by
    rw [length_splitRows]; exact arrayFits_iff.mp (reshape2_fits h)
  have h4 := reshape_rows (K := K) h3 h5
  rw [h2, length_splitRows, h] at h4
  exact ⟨_, length_splitRows r c xs, h2, ⟨h3, h5⟩, Except.ok.inj h4⟩

/-- Reading the values of the matrix. -/
theorem ftMatrix_iff {r c : Int} (hr : Int64Ok r) (hc : Int64Ok c) {s : RFile}
    (hs : (s.data.drop s.pos).length < 2 ^ 63) {m0 : Mat K} :
    (∃ xs s', fromFileInt (r * c) s = .ok (xs, s') ∧
        reshapeInt r c (xs.map (Codec.ofBits (K := K))) = .ok m0) ↔
      ∃ (cols : Nat) (m : List (List F32)) (more : Bytes), FtMatrix r c (s.data.drop s.pos) cols m more ∧
        ((∀ x ∈ m, x.length = cols) ∧ ShapeOk m.length cols) ∧ m0 = ⟨cols, m.map fun r => r.map Codec.ofBits⟩ := by
  have hpad : ∀ bs : Bytes, ∃ more : Bytes, more.length < 4 ∧ bs = f32sLE (f32sOf bs) ++ more := by
    intro bs
    refine ⟨bs.drop (4 * (bs.length / 4)), by rw [List.length_drop]; omega, ?_⟩
    have h1 : f32sOf (bs.take (4 * (bs.length / 4))) = f32sOf bs := by
      have := f32sOf_append (f32sOf (bs.take (4 * (bs.length / 4)))) (bs.drop (4 * (bs.length / 4)))
      rw [f32sLE_f32sOf _ (by rw [List.length_take]; omega), List.take_append_drop] at this
      have hd : f32sOf (bs.drop (4 * (bs.length / 4))) = [] :=
        List.eq_nil_of_length_eq_zero (by rw [length_f32sOf, List.length_drop]; omega)
      rw [hd, List.append_nil] at this
      exact this.symm
    rw [← h1, f32sLE_f32sOf _ (by rw [List.length_take]; omega), List.take_append_drop]
  have hnopad : ∀ (m : List (List F32)) (more : Bytes), more.length < 4 →
      f32sOf (f32sLE m.flatten ++ more) = m.flatten := by
    intro m more hm
    rw [f32sOf_append, List.eq_nil_of_length_eq_zero (l := f32sOf more) (by rw [length_f32sOf]; omega),
      List.append_nil]
  generalize hrest : s.data.drop s.pos = rest at hs
  unfold FtMatrix
  constructor
  · rintro ⟨xs, s', h1, h2⟩
    unfold reshapeInt at h2
    unfold fromFileInt at h1
    rw [hrest] at h1
    by_cases hr0 : r < 0
    · rw [if_pos hr0] at h2
      split at h2
      · cases h2
      rename_i hcond
      rw [not_or] at hcond
      have hcpos : 0 < c := by omega
      obtain ⟨m, e1, e2, e3, e4⟩ := reshape_rows_inv h2
      have hneg : r * c < 0 := mul_neg_of_neg_of_pos hr0 hcpos
      rw [if_neg (by omega)] at h1
      split at h1
      · rename_i hb
        cases h1
        obtain ⟨more, hm1, hm2⟩ := hpad rest
        refine ⟨c.toNat, m, more, ⟨by rw [e2]; exact hm2, Or.inr ⟨hm1, hb,
          Or.inl ⟨hr0, by omega, by omega⟩⟩⟩, e3, e4⟩
      · cases h1
    · rw [if_neg hr0] at h2
      by_cases hc0 : c < 0
      · rw [if_pos hc0] at h2
        split at h2
        · cases h2
        rename_i hcond
        rw [not_or] at hcond
        have hrpos : 0 < r := by omega
        obtain ⟨m, e1, e2, e3, e4⟩ := reshape_rows_inv h2
        have hneg : r * c < 0 := mul_neg_of_pos_of_neg hrpos hc0
        rw [if_neg (by omega)] at h1
        split at h1
        · rename_i hb
          cases h1
          obtain ⟨more, hm1, hm2⟩ := hpad rest
          refine ⟨_, m, more, ⟨by rw [e2]; exact hm2, Or.inr ⟨hm1, hb,
            Or.inr ⟨hc0, ?_, by omega⟩⟩⟩, e3, e4⟩
          rintro rfl
          simp at e1; omega
        · cases h1
      · rw [if_neg hc0] at h2
        obtain ⟨m, e1, e2, e3, e4⟩ := reshape_rows_inv h2
        rw [if_pos (mul_nonneg (by omega) (by omega))] at h1
        obtain ⟨f1, _⟩ := fromFileF32_inv h1
        rw [hrest] at f1
        have hlen : xs.length = (r * c).toNat := by
          rw [← e2, flatten_length_of e3.1, e1, Int.toNat_mul (by omega) (by omega)]
        have hle : 4 * (r * c).toNat ≤ rest.length := by
          have := hlen
          rw [f1, length_f32sOf, List.length_take] at this
          omega
        refine ⟨c.toNat, m, rest.drop (4 * (r * c).toNat), ⟨?_, Or.inl ⟨by omega, by omega⟩⟩, e3, e4⟩
        rw [e2, f1, f32sLE_f32sOf _ (by rw [List.length_take]; omega), List.take_append_drop]
  · rintro ⟨cols, m, more, ⟨rfl, hdims⟩, hm, rfl⟩
    have hlen : m.flatten.length = m.length * cols := flatten_length_of hm.1
    rcases hdims with ⟨rfl, rfl⟩ | ⟨hmore, hb, ⟨hr0, hc0, rfl⟩ | ⟨hc0, hne, rfl⟩⟩
    · refine ⟨m.flatten, ⟨s.data, s.pos + 4 * (m.length * cols)⟩, ?_, ?_⟩
      · unfold fromFileInt fromFileF32
        have e : (m.length : Int) * (cols : Int) = ((m.length * cols : Nat) : Int) := by push_cast; rfl
        rw [e, if_pos (by omega), Int.toNat_natCast]
        rw [List.length_append, length_f32sLE, hlen] at hs
        rw [if_pos (by unfold maxSize; omega)]
        simp only
        rw [hrest, if_pos (by rw [List.length_append, length_f32sLE, hlen]; omega),
          List.take_left' (by rw [length_f32sLE, hlen]), f32sOf_f32sLE]
      · unfold reshapeInt
        rw [if_neg (by omega), if_neg (by omega), Int.toNat_natCast, Int.toNat_natCast]
        exact reshape_rows hm.1 hm.2
    · refine ⟨m.flatten, ⟨s.data, max s.pos s.data.length⟩, ?_, ?_⟩
      · unfold fromFileInt
        have hneg : r * (cols : Int) < 0 := mul_neg_of_neg_of_pos hr0 (by omega)
        rw [if_neg (by omega), if_pos (by unfold maxSize; exact hb), hrest, hnopad m more hmore]
      · unfold reshapeInt
        rw [if_pos hr0, List.length_map, hlen, Int.toNat_natCast, if_neg (by
          rw [not_or]
          refine ⟨by omega, ?_⟩
          rw [Nat.mul_mod_left]; simp), Nat.mul_div_cancel _ hc0]
        exact reshape_rows hm.1 hm.2
    · have hpos : 0 < m.length := List.length_pos_iff.mpr hne
      refine ⟨m.flatten, ⟨s.data, max s.pos s.data.length⟩, ?_, ?_⟩
      · unfold fromFileInt
        have hneg : (m.length : Int) * c < 0 := mul_neg_of_pos_of_neg (by omega) hc0
        rw [if_neg (by omega), if_pos (by unfold maxSize; exact hb), hrest, hnopad m more hmore]
      · unfold reshapeInt
        rw [if_neg (by omega), if_pos hc0, List.length_map, hlen, Int.toNat_natCast, if_neg (by
          rw [not_or]
          refine ⟨by omega, ?_⟩
          rw [Nat.mul_mod_right]; simp), Nat.mul_div_cancel_left _ hpos]
        exact reshape_rows hm.1 hm.2

theorem FtLayout.Reads.cfg {L : FtLayout} {lossy : Bool} {f : FtFile} (h : L.Reads lossy f) :
    f.cfg.Of L.args L.threshold := by
  obtain ⟨loss, model, h1, h2, h3⟩ := h.args
  have key6 : npGet ftLosses (loss - 1) = .ok f.cfg.loss := by
    refine ftLoss_iff.mpr ⟨f.loss, h2, ?_⟩
    show ftLosses[f.loss.val]'f.loss.isLt = _
    exact (show ∀ l : Fin 3, ftLosses[l.val]'l.isLt = ftLossName l by
      intro l; match l with | 0 => rfl | 1 => rfl | 2 => rfl) _
  have key7 : npGet ftModels (model - 1) = .ok f.cfg.model := by
    refine ftModel_iff.mpr ⟨f.model, h3, ?_⟩
    show ftModels[f.model.val]'f.model.isLt = _
    exact (show ∀ l : Fin 3, ftModels[l.val]'l.isLt = ftModelName l by
      intro l; match l with | 0 => rfl | 1 => rfl | 2 => rfl) _
  exact ⟨_, _, _, _, _, _, _, _, _, _, _, _, h1, rfl, rfl, rfl, rfl, rfl, rfl, key6, key7, rfl, rfl, rfl, rfl,
    h.threshold.symm⟩

theorem forall₂_fst {lossy : Bool} {ps : List (Bytes × Int)} {qs : List (PyStr × Int)}
    (h : List.Forall₂ (fun p q => DecodesTo lossy p.1 q.1 ∧ p.2 = q.2) ps qs) :
    List.Forall₂ (fun p w => decodeLossy lossy p.1 = .ok w) ps (qs.map Prod.fst) := by
  rw [List.forall₂_map_right_iff]
  exact h.imp fun _ _ h => decodeLossy_iff.mpr h.1

/-- A file of the layout of a model is loaded as this model. -/
theorem load_of_reads {L : FtLayout} {lossy : Bool} {f : FtFile} (hL : L.Fits) (hlen : L.bytes.length < 2 ^ 63)
    (h : L.Reads lossy f) (hf : f.OK) :
    ∃ e : Embeddings K, Rd.run (loadFasttext lossy) L.bytes = .ok e ∧ FtLoaded f f.raw e := by
  obtain ⟨out, e, h1, h2, h3⟩ := hf.finish (K := K)
  refine ⟨e, ?_, h3⟩
  obtain ⟨hs1, hs2, hs3⟩ := h.sizes
  have hhead : Parses (do
      readFtHeader
      let cfg ← readFtCfg
      let p ← readFtVocab cfg.buckets cfg.minN cfg.maxN lossy
      let q ← readOne 1
      let rc ← readSigned [8, 8]
      return (cfg, p, q, rc) : Rd _) []
      (FtFile.headerBytes ++ ((L.args.flatMap (sle 4) ++ le 8 L.threshold.toNat) ++
        ((sle 4 L.nEntries ++ sle 4 L.nWords ++ sle 4 0 ++ sle 8 L.nTokens ++ sle 8 L.prune ++
          L.entries.flatMap ftEntryBytes) ++ (le 1 0 ++
          ([(8, L.rows), (8, L.cols)] : List (Nat × Int)).flatMap fun f => sle f.1 f.2))))
      (f.cfg, (f.vocab, f.ix), 0, [L.rows, L.cols]) := by
    refine Parses.bind (readFtHeader_parses _) (Parses.bind (readFtCfg_parses_of hL.args h.cfg _)
      (Parses.bind (readFtVocab_parses_of hL (by rw [hs3]; exact hf.prune) (forall₂_fst h.words) hf.new_ix
        hf.new_vocab _) (Parses.bind (readOne_parses 1 0 _ (by decide) (by decide) (by decide))
        (Parses.bind_last (readSigned_parses [8, 8] [(8, L.rows), (8, L.cols)] _ rfl (by decide) (by decide)
          (by simp) ?_) (Parses.pure _ _)))))
    intro x hx
    simp only [List.mem_cons, List.not_mem_nil, or_false] at hx
    rcases hx with rfl | rfl
    · exact int64 hL.longs.2.2.1
    · exact int64 hL.longs.2.2.2
  have hrun := hhead L.rest
  generalize hE : (FtFile.headerBytes ++ ((L.args.flatMap (sle 4) ++ le 8 L.threshold.toNat) ++
        ((sle 4 L.nEntries ++ sle 4 L.nWords ++ sle 4 0 ++ sle 8 L.nTokens ++ sle 8 L.prune ++
          L.entries.flatMap ftEntryBytes) ++ (le 1 0 ++
          ([(8, L.rows), (8, L.cols)] : List (Nat × Int)).flatMap fun f => sle f.1 f.2)))) = E at hrun
  have hbytes : L.bytes = E ++ L.rest := by
    rw [← hE]
    unfold FtLayout.bytes FtFile.headerBytes
    have : le 1 0 = [0] := rfl
    rw [this]
    simp only [List.flatMap_cons, List.flatMap_nil, List.append_assoc, List.append_nil]
  rw [hbytes] at hlen ⊢
  simp only [List.nil_append, List.length_nil] at hrun
  have hmat := (ftMatrix_iff (K := K) hL.longs.2.2.1 hL.longs.2.2.2 (s := ⟨E ++ L.rest, E.length⟩)
    (m0 := ⟨f.cols, f.raw⟩) (by
      show ((E ++ L.rest).drop E.length).length < _
      rw [List.drop_left]
      rw [List.length_append] at hlen
      omega)).mpr ⟨f.cols, f.rows, f.output, by
        show FtMatrix _ _ ((E ++ L.rest).drop E.length) _ _ _
        rw [List.drop_left]; exact h.matrix, ⟨hf.cols, hf.size⟩, rfl⟩
  obtain ⟨xs, s', hx1, hx2⟩ := hmat
  refine rd_run_of (s' := s') ?_
  obtain ⟨u, s1, r1, hrun⟩ := rd_bind_inv hrun
  obtain ⟨cfg, s2, r2, hrun⟩ := rd_bind_inv hrun
  obtain ⟨p, s3, r3, hrun⟩ := rd_bind_inv hrun
  obtain ⟨q, s4, r4, hrun⟩ := rd_bind_inv hrun
  obtain ⟨rc, s5, r5, hrun⟩ := rd_bind_inv hrun
  cases hrun
  unfold loadFasttext
  rw [rd_bind_ok r1, rd_bind_ok r2, rd_bind_ok r3]
  dsimp only
  have hst : readFtStorage f.vocab f.ix s3 = .ok ((⟨f.cols, out⟩ : Mat K), s') := by
    unfold readFtStorage
    rw [rd_bind_ok r4]
    dsimp only
    rw [if_neg (by simp), rd_bind_ok r5]
    dsimp only
    rw [rd_bind_ok hx1, hx2, rd_bind_ok (rd_lift_ok _ _)]
    dsimp only
    rw [h1, rd_bind_ok (rd_lift_ok _ _)]
    rfl
  rw [rd_bind_ok hst]
  exact rd_lift_iff.mpr ⟨h2, rfl⟩

omit [Codec K] in
theorem ftLoaded_unique {f : FtFile} {raw : List (List K)} {e e' : Embeddings K} (h : FtLoaded f raw e)
    (h' : FtLoaded f raw e') : e = e' := by
  obtain ⟨w, s, b, m, rows, norms, h1, h2, h3, h4, h5, h6⟩ := h
  obtain ⟨w', s', b', m', rows', norms', h1', h2', h3', h4', h5', h6'⟩ := h'
  have hv : e.vocab = e'.vocab := by
    have g := b.vocab.2
    have g' := b'.vocab.2
    rw [w, s] at g
    rw [w', s', g] at g'
    exact Except.ok.inj g'
  have hlow : ∀ i, i < f.words.length → rows[i]? = rows'[i]? ∧ norms[i]? = norms'[i]? := by
    intro i hi
    have hw := List.getElem?_eq_getElem (l := f.words.map Prod.fst) (i := i) (by simpa using hi)
    obtain ⟨is, sel, mean, a1, a2, ⟨t, a3, a3'⟩, a4, a5⟩ := h6 i _ hw
    obtain ⟨is', sel', mean', b1, b2, ⟨t', b3, b3'⟩, b4, b5⟩ := h6' i _ hw
    have := ftSubwords_unique a1 b1
    subst this
    have := forall₂_get_unique a2 b2
    subst this
    have := isSum_unique a3 b3
    subst this
    subst a3' b3'
    exact ⟨a5.trans b5.symm, a4.trans b4.symm⟩
  have hr : rows = rows' := by
    apply List.ext_getElem?
    intro i
    by_cases hi : i < f.words.length
    · exact (hlow i hi).1
    · rw [h5 i (by omega), h5' i (by omega)]
  have hn : norms = norms' := by
    apply List.ext_getElem?
    intro i
    by_cases hi : i < f.words.length
    · exact (hlow i hi).2
    · rw [List.getElem?_eq_none (by omega), List.getElem?_eq_none (by omega)]
  obtain ⟨st, v, n, md⟩ := e
  obtain ⟨st', v', n', md'⟩ := e'
  simp only at hv h1 h1' h2 h2' m m'
  subst hv h1 h1' h2 h2' m m' hr hn
  rfl

/-- Whatever is loaded is the file of a model. -/
theorem reads_of_load {lossy : Bool} {bs : Bytes} (hbs : bs.length < 2 ^ 63) {e : Embeddings K}
    (h : Rd.run (loadFasttext lossy) bs = .ok e) :
    ∃ (L : FtLayout) (f : FtFile), L.Fits ∧ L.bytes = bs ∧ L.Reads lossy f ∧ f.OK := by
  obtain ⟨s', h⟩ := rd_run_ok h
  unfold loadFasttext at h
  obtain ⟨_, s1, h1, k1⟩ := rd_bind_inv h
  obtain ⟨cfg, s2, h2, k2⟩ := rd_bind_inv k1
  obtain ⟨p, s3, h3, k3⟩ := rd_bind_inv k2
  obtain ⟨m, s4, h4, k4⟩ := rd_bind_inv k3
  have hnew := (rd_lift_inv k4).1
  clear h k1 k2 k3 k4
  obtain ⟨hb, hsub⟩ := readFtVocab_built h3
  have a1 := readFtHeader_ate h1
  obtain ⟨args, t, hal, hargs, hof, a2⟩ := readFtCfg_ate h2
  obtain ⟨n, nw, nt, prune, ps, b1, b2, b3, b4, b5, b6, b7, b8, b9, b10, a3⟩ := readFtVocab_ate h3
  obtain ⟨r, c, s5, xs, m0, c1, c2, a4, hff, hre, hcols, hpre⟩ := readFtStorage_ate h4
  have ha := ((a1.trans a2).trans a3).trans a4
  obtain ⟨hst, hub, _⟩ := embNew_iff.mp hnew
  obtain ⟨x0, x1, x2, x3, x4, x5, x6, x7, x8, x9, x10, x11, rfl, _, _, _, _, _, _, g6, g7, g8, g9, g10,
    g11, g12⟩ := hof
  obtain ⟨i1, i2, i3, i4, i5, i6, i7, i8⟩ := ftNew_ok.mp b10
  obtain ⟨loss, hl1, _⟩ := ftLoss_iff.mp g6
  obtain ⟨model, hm1, _⟩ := ftModel_iff.mp g7
  obtain ⟨d1, d2⟩ := ha
  simp only [List.drop_zero] at d1 d2
  have hrest : (s5.data.drop s5.pos).length < 2 ^ 63 := by
    rw [d1]
    have := congrArg List.length d2
    rw [List.length_append] at this
    omega
  obtain ⟨cc, mm, more, hmat, ⟨hmc, hmfit⟩, hm0⟩ := (ftMatrix_iff c1 c2 hrest).mp ⟨xs, _, hff, hre⟩
  have hwl : p.1.words.length = ps.length := b9.length_eq.symm
  obtain ⟨qs, hqs⟩ : ∃ qs : List (PyStr × Int), qs = p.1.words.zip (ps.map Prod.snd) := ⟨_, rfl⟩
  have hql : qs.length = ps.length := by rw [hqs]; simp [hwl]
  have hqf : qs.map Prod.fst = p.1.words := by
    rw [hqs]; exact List.map_fst_zip (by simp [hwl])
  have hent : List.Forall₂ (fun p q => DecodesTo lossy p.1 q.1 ∧ p.2 = q.2) ps qs := by
    rw [List.forall₂_iff_get]
    refine ⟨hql.symm, ?_⟩
    intro i h1 h2
    have h3 := (List.forall₂_iff_get.mp b9).2 i h1 (by omega)
    subst hqs
    simp only [List.get_eq_getElem, List.getElem_zip, List.getElem_map] at h3 ⊢
    exact ⟨decodeLossy_iff.mp h3, trivial⟩
  have hmem : ∀ q ∈ qs, ∃ p ∈ ps, DecodesTo lossy p.1 q.1 ∧ p.2 = q.2 := by
    intro q hq
    obtain ⟨i, hi, rfl⟩ := List.getElem_of_mem hq
    exact ⟨ps[i]'(by omega), List.getElem_mem _, (List.forall₂_iff_get.mp hent).2 i (by omega) hi⟩
  have hrl : m.rows.length = mm.length := by
    have := (precomputeWords_wf hpre (by
      rw [hm0]
      intro x hx
      obtain ⟨y, hy, rfl⟩ := List.mem_map.mp hx
      rw [List.length_map]
      exact hmc y hy)).1
    rw [this, hm0, List.length_map]
  have hshape : mm.length = qs.length + p.2.nBuckets := by
    unfold Vocab.upperBound Indexer.upperBound FtIndexer.upperBound at hub
    rw [hsub, hb.len, hwl] at hub
    have : ∀ k, ((m.rows.take k).map (fun r => vdiv r (NumOps.normAxis r)) ++ m.rows.drop k).length =
        mm.length := by
      intro k
      rw [List.length_append, List.length_map, List.length_take, List.length_drop]
      omega
    unfold Storage.nRows at hub
    simp only at hub
    rw [this] at hub
    omega
  refine ⟨⟨[x0, x1, x2, x3, x4, x5, x6, x7, x8, x9, x10, x11], t, n, nw, nt, prune, ps, r, c,
    s5.data.drop s5.pos⟩,
    { dims := x0, windowSize := x1, epoch := x2, minCount := x3, ns := x4, wordNgrams := x5, loss := loss,
      model := model, buckets := p.2.nBuckets, minN := p.2.minN, maxN := p.2.maxN, lrUpdateRate := x11,
      samplingThreshold := t, nWords := nw, nTokens := nt, prune := prune, words := qs, cols := cc,
      rows := mm, output := more },
    ⟨rfl, hargs, ⟨b1, b2⟩, ⟨b3, b4, c1, c2⟩, b7, b8, b6⟩, ?_,
    ⟨⟨x6, x7, ?_, hl1, hm1⟩, rfl, ⟨rfl, rfl, rfl⟩, hent, hmat⟩, ?_⟩
  · rw [d2]
    unfold FtLayout.bytes
    rw [d1]
    simp only [List.append_assoc]
  · simp only [List.cons.injEq, and_true, true_and]
    exact ⟨by rw [← g8, i1], by rw [← g9, i2], by rw [← g10, i3]⟩
  · simp only [List.mem_cons, List.not_mem_nil, or_false, forall_eq_or_imp, forall_eq] at hargs
    obtain ⟨y0, y1, y2, y3, y4, y5, y6, y7, y8, y9, y10, y11⟩ := hargs
    refine ⟨⟨y0, y1, y2, y3, y4, y5, y11, b2, b3, b4, ?_⟩, ⟨i7, ?_⟩, ⟨i4, i5, ?_⟩, b5, ?_, ?_, ?_, ?_, hshape,
      hmc, ?_⟩
    · intro q hq
      obtain ⟨p', hp', _, e2⟩ := hmem q hq
      rw [← e2]; exact b7 p' hp'
    · have := y8.2; show p.2.nBuckets < _; rw [← g8] at this; omega
    · have := y10.2; show p.2.maxN < _; rw [← g10] at this; omega
    · have := b1.2; show qs.length < _; rw [hql, b6]; omega
    · intro q hq
      obtain ⟨p', hp', e1, _⟩ := hmem q hq
      exact decodesTo_nul e1 (b8 p' hp')
    · intro q hq
      obtain ⟨p', _, e1, _⟩ := hmem q hq
      exact any_surrogate.mp (decodesTo_scalar e1)
    · show (qs.map Prod.fst).Nodup
      rw [hqf]; exact hb.nodup
    · show ShapeOk mm.length cc
      exact hmfit

end

end FF
