import Verif.Spec.FastText
import Verif.Lemmas.Word2Vec
/-! Reading and writing the fastText format. -/

namespace FF

/-! ### Signed fields -/

theorem pow256 (w : Nat) : (256 : Int) ^ w = 2 ^ (8 * w) := by
  rw [pow_mul]; norm_num

/-- The unsigned number of `sle`. -/
def sleNat (w : Nat) (i : Int) : Nat := if 0 ≤ i then i.toNat else (i + 256 ^ w).toNat

theorem sle_eq (w : Nat) (i : Int) : sle w i = le w (sleNat w i) := rfl

theorem signed_two {w : Nat} (hw : 0 < w) : (256 : Int) ^ w = 2 * 2 ^ (8 * w - 1) := by
  rw [pow256]
  obtain ⟨v, rfl⟩ : ∃ v, w = v + 1 := ⟨w - 1, by omega⟩
  have : 8 * (v + 1) = (8 * (v + 1) - 1) + 1 := by omega
  conv => lhs; rw [this, pow_succ]
  ring

theorem signedOk_iff {w : Nat} {i : Int} :
    signedOk w i = true ↔ -(2 ^ (8 * w - 1) : Int) ≤ i ∧ i < 2 ^ (8 * w - 1) := by
  unfold signedOk
  simp

theorem ofSigned_eq {w : Nat} (hw : 0 < w) {i : Int} (h : signedOk w i = true) :
    ofSigned w i = sleNat w i := by
  obtain ⟨h1, h2⟩ := signedOk_iff.mp h
  have h3 := signed_two hw
  unfold ofSigned sleNat
  rw [← pow256, h3]
  generalize (2 : Int) ^ (8 * w - 1) = p at *
  by_cases h0 : 0 ≤ i
  · rw [if_pos h0, Int.emod_eq_of_lt h0 (by omega)]
  · rw [if_neg h0]
    congr 1
    have : i % (2 * p) = (i + 2 * p) % (2 * p) := by simp
    rw [this, Int.emod_eq_of_lt (by omega) (by omega)]

theorem sleNat_lt {w : Nat} (hw : 0 < w) {i : Int} (h : signedOk w i = true) :
    sleNat w i < 256 ^ w := by
  obtain ⟨h1, h2⟩ := signedOk_iff.mp h
  have h3 := signed_two hw
  have : ((sleNat w i : Nat) : Int) < ((256 ^ w : Nat) : Int) := by
    push_cast
    unfold sleNat
    rw [h3]
    generalize (2 : Int) ^ (8 * w - 1) = p at *
    split <;> omega
  exact_mod_cast this

theorem toSigned_sleNat {w : Nat} (hw : 0 < w) {i : Int} (h : signedOk w i = true) :
    toSigned w (sleNat w i) = i := by
  obtain ⟨h1, h2⟩ := signedOk_iff.mp h
  have h3 := signed_two hw
  unfold toSigned
  have h4 : (sleNat w i < 2 ^ (8 * w - 1)) ↔ ((sleNat w i : Nat) : Int) < 2 ^ (8 * w - 1) := by
    constructor
    · intro h; exact_mod_cast h
    · intro h; exact_mod_cast h
  rw [← pow256, h3]
  simp only [h4]
  unfold sleNat
  rw [h3]
  generalize (2 : Int) ^ (8 * w - 1) = p at *
  split <;> split <;> omega

theorem packRaw_sle (fs : List (Nat × Int)) :
    packRaw (fs.map fun f => (f.1, sleNat f.1 f.2)) = fs.flatMap fun f => sle f.1 f.2 := by
  induction fs with
  | nil => rfl
  | cons f fs ih => rw [List.map_cons, packRaw, ih]; rfl

theorem packS_ok {fs : List (Nat × Int)} (hw : ∀ f ∈ fs, 0 < f.1) {bs : Bytes} :
    packS fs = .ok bs ↔
      (∀ f ∈ fs, signedOk f.1 f.2 = true) ∧ bs = fs.flatMap fun f => sle f.1 f.2 := by
  have key : (∀ f ∈ fs, signedOk f.1 f.2 = true) →
      packRaw (fs.map fun f => (f.1, ofSigned f.1 f.2)) = fs.flatMap fun f => sle f.1 f.2 := by
    intro h
    rw [← packRaw_sle]
    congr 1
    apply List.map_congr_left
    intro f hf
    rw [ofSigned_eq (hw f hf) (h f hf)]
  unfold packS
  constructor
  · intro h
    split at h
    · rename_i ha
      rw [List.all_eq_true] at ha
      exact ⟨ha, by rw [← key ha]; exact (Except.ok.inj h).symm⟩
    · cases h
  · rintro ⟨h, rfl⟩
    rw [if_pos (List.all_eq_true.mpr h), key h]

theorem writeSigned_inv {fs : List (Nat × Int)} (hw : ∀ f ∈ fs, 0 < f.1) {rest s s' : Bytes}
    {u : Unit} (h : writeSigned fs rest s = (.ok u, s')) :
    (∀ f ∈ fs, signedOk f.1 f.2 = true) ∧ s' = s ++ ((fs.flatMap fun f => sle f.1 f.2) ++ rest) := by
  obtain ⟨d, s1, k1, k2⟩ := wr_bind_inv h
  obtain ⟨k3, rfl⟩ := wr_lift_inv k1
  obtain ⟨k4, rfl⟩ := (packS_ok hw).mp k3
  exact ⟨k4, (wr_bytes_inv k2).1⟩

theorem writeSigned_ok {fs : List (Nat × Int)} (hw : ∀ f ∈ fs, 0 < f.1) {rest s : Bytes}
    (h : ∀ f ∈ fs, signedOk f.1 f.2 = true)
    (hs : (s ++ ((fs.flatMap fun f => sle f.1 f.2) ++ rest)).length < maxSize) :
    writeSigned fs rest s = (.ok (), s ++ ((fs.flatMap fun f => sle f.1 f.2) ++ rest)) := by
  unfold writeSigned
  rw [(packS_ok hw).mpr ⟨h, rfl⟩]
  rw [wr_bind_ok (wr_lift_ok _ _)]
  exact wr_bytes_ok hs

theorem readSigned_parses (ws : List Nat) (fs : List (Nat × Int)) (pre : Bytes)
    (hws : fs.map Prod.fst = ws) (h0 : 0 < calcsize ws) (h : calcsize ws < maxSize)
    (hw : ∀ f ∈ fs, 0 < f.1) (hr : ∀ f ∈ fs, signedOk f.1 f.2 = true) :
    Parses (readSigned ws) pre (fs.flatMap fun f => sle f.1 f.2) (fs.map Prod.snd) := by
  have hp := readRequired_parses ws (fs.map fun f => (f.1, sleNat f.1 f.2)) pre
    (by rw [List.map_map]; exact hws) h0 h
    (by
      intro f hf
      obtain ⟨g, hg, rfl⟩ := List.mem_map.mp hf
      exact sleNat_lt (hw g hg) (hr g hg))
  rw [packRaw_sle] at hp
  unfold readSigned
  refine Parses.bind_last hp ?_
  have e : List.zipWith toSigned ws ((fs.map fun f => (f.1, sleNat f.1 f.2)).map Prod.snd) =
      fs.map Prod.snd := by
    subst hws
    rw [List.map_map]
    clear hp h0 h
    induction fs with
    | nil => rfl
    | cons f fs ih =>
      simp only [List.map_cons, List.zipWith_cons_cons, Function.comp]
      rw [toSigned_sleNat (hw f (by simp)) (hr f (by simp))]
      congr 1
      exact ih (fun g hg => hw g (List.mem_cons_of_mem _ hg))
        (fun g hg => hr g (List.mem_cons_of_mem _ hg))
  rw [e]
  exact Parses.pure _ _

theorem int32 {i : Int} (h : Int32Ok i) : signedOk 4 i = true := signedOk_iff.mpr h
theorem int64 {i : Int} (h : Int64Ok i) : signedOk 8 i = true := signedOk_iff.mpr h
theorem int32_nat {n : Nat} (h : n < 2 ^ 31) : signedOk 4 (n : Int) = true :=
  signedOk_iff.mpr ⟨by omega, by omega⟩

/-! ### Header and configuration -/

theorem readFtHeader_parses (pre : Bytes) : Parses readFtHeader pre FtFile.headerBytes () := by
  have := readSigned_parses [4, 4] [(4, 793712314), (4, 12)] pre rfl (by decide) (by decide)
    (by decide) (by decide)
  unfold readFtHeader
  refine (Parses.bind_last this ?_).congr (by simp [FtFile.headerBytes])
  exact Parses.pure _ _

def FtFile.cfg (f : FtFile) : FtCfg where
  dims := f.dims
  windowSize := f.windowSize
  epoch := f.epoch
  minCount := f.minCount
  ns := f.ns
  wordNgrams := f.wordNgrams
  loss := ftLosses[f.loss.val]'f.loss.isLt
  model := ftModels[f.model.val]'f.model.isLt
  buckets := f.buckets
  minN := f.minN
  maxN := f.maxN
  lrUpdateRate := f.lrUpdateRate
  samplingThreshold := f.samplingThreshold

theorem cfg_meta (f : FtFile) : f.cfg.toMeta = f.meta := by
  have hl : ∀ l : Fin 3, ftLosses[l.val]'l.isLt = ftLossName l := by
    intro l
    match l with
    | 0 => rfl
    | 1 => rfl
    | 2 => rfl
  have hm : ∀ l : Fin 3, ftModels[l.val]'l.isLt = ftModelName l := by
    intro l
    match l with
    | 0 => rfl
    | 1 => rfl
    | 2 => rfl
  unfold FtFile.meta
  rw [← hl f.loss, ← hm f.model]
  rfl

theorem readFtCfg_parses {f : FtFile} (hf : f.OK) (pre : Bytes) :
    Parses readFtCfg pre f.cfgBytes f.cfg := by
  obtain ⟨d0, d1, d2, d3, d4, d5, d6, _⟩ := hf.ints
  have hl : f.loss.val + 1 < 2 ^ 31 := by have := f.loss.isLt; omega
  have hm : f.model.val + 1 < 2 ^ 31 := by have := f.model.isLt; omega
  have hb := hf.buckets.2
  obtain ⟨_, hmm, hM⟩ := hf.range
  have hmn : f.minN < 2 ^ 31 := lt_of_le_of_lt hmm hM
  have b0 := int32 d0
  have b1 := int32 d1
  have b2 := int32 d2
  have b3 := int32 d3
  have b4 := int32 d4
  have b5 := int32 d5
  have b6 := int32_nat hl
  have b7 := int32_nat hm
  have b8 := int32_nat hb
  have b9 := int32_nat hmn
  have b10 := int32_nat hM
  have b11 := int32 d6
  have p4 : (0 : Nat) < 4 := by decide
  have hp := readRequired_parses [4, 4, 4, 4, 4, 4, 4, 4, 4, 4, 4, 4, 8]
    [(4, sleNat 4 f.dims), (4, sleNat 4 f.windowSize), (4, sleNat 4 f.epoch),
      (4, sleNat 4 f.minCount), (4, sleNat 4 f.ns), (4, sleNat 4 f.wordNgrams),
      (4, sleNat 4 (f.loss.val + 1 : Nat)), (4, sleNat 4 (f.model.val + 1 : Nat)),
      (4, sleNat 4 f.buckets), (4, sleNat 4 f.minN), (4, sleNat 4 f.maxN),
      (4, sleNat 4 f.lrUpdateRate), (8, f.samplingThreshold.toNat)] pre rfl (by decide) (by decide)
    (by
      intro x hx
      simp only [List.mem_cons, List.not_mem_nil, or_false] at hx
      rcases hx with rfl | rfl | rfl | rfl | rfl | rfl | rfl | rfl | rfl | rfl | rfl | rfl | rfl
      · exact sleNat_lt p4 b0
      · exact sleNat_lt p4 b1
      · exact sleNat_lt p4 b2
      · exact sleNat_lt p4 b3
      · exact sleNat_lt p4 b4
      · exact sleNat_lt p4 b5
      · exact sleNat_lt p4 b6
      · exact sleNat_lt p4 b7
      · exact sleNat_lt p4 b8
      · exact sleNat_lt p4 b9
      · exact sleNat_lt p4 b10
      · exact sleNat_lt p4 b11
      · have := f.samplingThreshold.toNat_lt; exact this)
  unfold readFtCfg
  refine (Parses.bind_last hp ?_).congr (by
    unfold FtFile.cfgBytes
    simp only [packRaw, sle_eq, List.append_assoc, List.append_nil])
  simp only [List.map_cons, List.map_nil]
  rw [toSigned_sleNat p4 b0, toSigned_sleNat p4 b1, toSigned_sleNat p4 b2, toSigned_sleNat p4 b3,
    toSigned_sleNat p4 b4, toSigned_sleNat p4 b5, toSigned_sleNat p4 b6, toSigned_sleNat p4 b7,
    toSigned_sleNat p4 b8, toSigned_sleNat p4 b9, toSigned_sleNat p4 b10, toSigned_sleNat p4 b11]
  have e1 : npGet ftLosses (((f.loss.val + 1 : Nat) : Int) - 1) = .ok (ftLosses[f.loss.val]'f.loss.isLt) := by
    have : ((f.loss.val + 1 : Nat) : Int) - 1 = (f.loss.val : Int) := by omega
    rw [this]
    exact npGet_nat.mpr (List.getElem?_eq_getElem _)
  have e2 : npGet ftModels (((f.model.val + 1 : Nat) : Int) - 1) = .ok (ftModels[f.model.val]'f.model.isLt) := by
    have : ((f.model.val + 1 : Nat) : Int) - 1 = (f.model.val : Int) := by omega
    rw [this]
    exact npGet_nat.mpr (List.getElem?_eq_getElem _)
  refine Parses.bind_nil (Parses.lift _ e1) (Parses.bind_nil (Parses.lift _ e2) ?_)
  have e3 : UInt64.ofNat f.samplingThreshold.toNat = f.samplingThreshold := by simp
  rw [e3]
  exact Parses.pure _ _

/-! ### Dictionary -/

theorem no_nul_utf8 {s : PyStr} (h : ∀ c ∈ s, c.val ≠ 0) : (0 : UInt8) ∉ utf8 s := by
  intro hm
  obtain ⟨x, hx, hv⟩ := mem_utf8 hm (by decide)
  exact h x hx hv

theorem readFtWord_parses (lossy : Bool) {p : PyStr × Int} (h0 : ∀ c ∈ p.1, c.val ≠ 0)
    (hs : ∀ c ∈ p.1, c.val < 0xD800 ∨ 0xDFFF < c.val) (hi : Int64Ok p.2) (pre : Bytes) :
    Parses (readFtWord lossy) pre (ftWordBytes p) p.1 := by
  unfold readFtWord ftWordBytes
  have h1 := readDelim_parses (no_nul_utf8 h0) pre
  have h2 := readOne_parses 8 (sleNat 8 p.2) (pre ++ (utf8 p.1 ++ [0])) (by decide) (by decide)
    (sleNat_lt (by decide) (int64 hi))
  have h3 := readOne_parses 1 0 (pre ++ (utf8 p.1 ++ [0]) ++ le 8 (sleNat 8 p.2)) (by decide)
    (by decide) (by decide)
  have h4 : Parses (do
      if (0 : Nat) ≠ 0 then Rd.fail .valueError
      Rd.lift (decodeLossy lossy (utf8 p.1)))
      (pre ++ (utf8 p.1 ++ [0]) ++ le 8 (sleNat 8 p.2) ++ le 1 0) [] p.1 :=
    Parses.lift _ (decodeLossy_utf8 lossy (any_surrogate.mpr hs))
  refine (Parses.bind h1 (Parses.bind h2 (Parses.bind_last h3 h4))).congr ?_
  have : le 1 0 = [0] := rfl
  rw [this, sle_eq]
  simp only [List.append_assoc]

theorem readFtWords_parses (lossy : Bool) {ps : List (PyStr × Int)}
    (h0 : ∀ p ∈ ps, ∀ c ∈ p.1, c.val ≠ 0)
    (hs : ∀ p ∈ ps, ∀ c ∈ p.1, c.val < 0xD800 ∨ 0xDFFF < c.val)
    (hi : ∀ p ∈ ps, Int64Ok p.2) (pre : Bytes) :
    Parses (readFtWords lossy ps.length) pre (ps.flatMap ftWordBytes) (ps.map Prod.fst) := by
  induction ps generalizing pre with
  | nil => exact Parses.pure _ _
  | cons p ps ih =>
    rw [List.length_cons, readFtWords, List.flatMap_cons]
    exact Parses.bind (readFtWord_parses lossy (h0 p (by simp)) (hs p (by simp)) (hi p (by simp)) pre)
      (Parses.bind_last (ih (fun q hq => h0 q (List.mem_cons_of_mem _ hq))
        (fun q hq => hs q (List.mem_cons_of_mem _ hq))
        (fun q hq => hi q (List.mem_cons_of_mem _ hq)) _) (Parses.pure _ _))

def FtFile.ix (f : FtFile) : FtIndexer := ⟨f.buckets, f.minN, f.maxN⟩

def FtFile.vocab (f : FtFile) : Vocab :=
  ⟨f.words.map Prod.fst, enumItems (f.words.map Prod.fst), some (.ft f.ix)⟩

theorem FtFile.OK.new_ix {f : FtFile} (hf : f.OK) :
    FtIndexer.new f.buckets f.minN f.maxN = .ok f.ix := by
  obtain ⟨h1, h2⟩ := hf.buckets
  obtain ⟨h3, h4, h5⟩ := hf.range
  refine ftNew_ok.mpr ⟨rfl, rfl, rfl, h3, h4, ?_, h1, ?_⟩
  · show f.maxN < 2 ^ 32; omega
  · show f.buckets < 2 ^ 32; omega

theorem FtFile.OK.new_vocab {f : FtFile} (hf : f.OK) :
    Vocab.new (f.words.map Prod.fst) (some (.ft f.ix)) = .ok f.vocab :=
  Vocab.new_ok.mpr ⟨hf.nodup, rfl⟩

theorem FtFile.OK.built {f : FtFile} (hf : f.OK) : BuiltVocab f.vocab := by
  refine ⟨fun ix hix => ?_, hf.new_vocab⟩
  cases hix
  exact .ft hf.new_ix

theorem readFtVocab_parses (lossy : Bool) {f : FtFile} (hf : f.OK) (pre : Bytes) :
    Parses (readFtVocab f.buckets f.minN f.maxN lossy) pre f.dictBytes (f.vocab, f.ix) := by
  obtain ⟨_, _, _, _, _, _, _, d7, d8, d9, d10⟩ := hf.ints
  have hp := readSigned_parses [4, 4, 4] [(4, (f.words.length : Int)), (4, f.nWords), (4, 0)] pre rfl
    (by decide) (by decide) (by simp)
    (by
      intro x hx
      simp only [List.mem_cons, List.not_mem_nil, or_false] at hx
      rcases hx with rfl | rfl | rfl
      · exact int32_nat hf.count
      · exact int32 d7
      · decide)
  have h2 := fun pre => readOne_parses 8 (sleNat 8 f.nTokens) pre (by decide) (by decide)
    (sleNat_lt (by decide) (int64 d8))
  have h3 := fun pre => readOne_parses 8 (sleNat 8 f.prune) pre (by decide) (by decide)
    (sleNat_lt (by decide) (int64 d9))
  have hsg := toSigned_sleNat (w := 8) (by decide) (int64 d9)
  unfold readFtVocab
  refine (Parses.bind hp (e2 := le 8 (sleNat 8 f.nTokens) ++ (le 8 (sleNat 8 f.prune) ++
    f.words.flatMap ftWordBytes)) ?_).congr ?_
  · simp only [List.map_cons, List.map_nil]
    show Parses (readOne 8 >>= _) _ _ _
    refine Parses.bind (h2 _) (Parses.bind (h3 _) ?_)
    have hneg : ¬ (toSigned 8 (sleNat 8 f.prune) ≥ 0) := by
      rw [hsg]; have := hf.prune; omega
    simp only [hneg, if_false]
    show Parses (readFtWords lossy f.words.length >>= _) _ _ _
    refine Parses.bind_last (readFtWords_parses lossy hf.nul hf.text d10 _) ?_
    refine Parses.bind_nil (Parses.lift _ hf.new_ix) (Parses.bind_nil (Parses.lift _ hf.new_vocab) ?_)
    exact Parses.pure _ _
  · unfold FtFile.dictBytes
    simp only [List.flatMap_cons, List.flatMap_nil, List.append_nil, List.append_assoc, sle_eq]

end FF
