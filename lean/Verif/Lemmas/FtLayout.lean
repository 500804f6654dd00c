import Verif.Lemmas.FastTextLoad
import Verif.Lemmas.Consistent
import Verif.Spec.FtLayout
/-! What the fastText loader has read when it succeeds. -/

namespace FF

theorem f32sLE_f32sOf (bs : Bytes) (h : bs.length % 4 = 0) : f32sLE (f32sOf bs) = bs := by
  induction bs using f32sOf.induct with
  | case1 b0 b1 b2 b3 bs ih =>
    have hl : unle [b0, b1, b2, b3] < 2 ^ 32 := lt_of_lt_of_eq (unle_lt [b0, b1, b2, b3]) (by norm_num)
    have he : le 4 (unle [b0, b1, b2, b3]) = [b0, b1, b2, b3] := le_unle [b0, b1, b2, b3]
    have hm : bs.length % 4 = 0 := by simp at h; omega
    simp only [f32sOf, f32sLE, ih hm, f32le]
    rw [UInt32.toNat_ofNat', Nat.mod_eq_of_lt hl, he]
    rfl
  | case2 bs hne =>
    match bs, hne, h with
    | [], _, _ => rfl
    | [_], _, h => simp at h
    | [_, _], _, h => simp at h
    | [_, _, _], _, h => simp at h
    | a :: b :: c :: d :: tl, hne, _ => exact absurd rfl (hne a b c d tl)

/-- Between `s` and `s'` exactly `enc` was consumed. -/
def Ate (s s' : RFile) (enc : Bytes) : Prop :=
  s'.data = s.data ∧ s.data.drop s.pos = enc ++ s.data.drop s'.pos

theorem Ate.trans {s s1 s2 : RFile} {e1 e2 : Bytes} (h1 : Ate s s1 e1) (h2 : Ate s1 s2 e2) :
    Ate s s2 (e1 ++ e2) := by
  obtain ⟨a1, a2⟩ := h1
  obtain ⟨b1, b2⟩ := h2
  refine ⟨b1.trans a1, ?_⟩
  rw [a1] at b2
  rw [a2, b2, List.append_assoc]

theorem Ate.refl (s : RFile) : Ate s s [] := ⟨rfl, rfl⟩

theorem readRequired_ate {ws : List Nat} {s s' : RFile} {vs : List Nat} (hc : calcsize ws < maxSize)
    (h : readRequired ws s = .ok (vs, s')) :
    vs.length = ws.length ∧ ∃ enc, Ate s s' enc ∧ enc.length = calcsize ws ∧ vs = unpack ws enc ∧
      packRaw (ws.zip vs) = enc := by
  rw [readRequired_eq ws s hc] at h
  split at h
  · rename_i hl
    cases h
    have hlen : ((s.data.drop s.pos).take (calcsize ws)).length = calcsize ws := by simp; omega
    refine ⟨?_, _, ⟨rfl, ?_⟩, hlen, rfl, packRaw_unpack ws _ hlen⟩
    · generalize (s.data.drop s.pos).take (calcsize ws) = b
      clear hl hlen hc
      induction ws generalizing b with
      | nil => rfl
      | cons w ws ih => simp only [unpack, List.length_cons, ih]
    · rw [← List.drop_drop, List.take_append_drop]
  · cases h

theorem toSigned_ok {w n : Nat} (hw : 0 < w) (h : n < 256 ^ w) : signedOk w (toSigned w n) = true := by
  rw [signedOk_iff]
  have h3 := signed_two hw
  have h4 : ((n : Nat) : Int) < 256 ^ w := by exact_mod_cast h
  unfold toSigned
  rw [← pow256]
  have h5 : (n < 2 ^ (8 * w - 1)) ↔ ((n : Nat) : Int) < 2 ^ (8 * w - 1) := by
    constructor
    · intro h; exact_mod_cast h
    · intro h; exact_mod_cast h
  simp only [h5]
  rw [h3] at h4 ⊢
  generalize (2 : Int) ^ (8 * w - 1) = p at *
  split <;> omega

theorem sleNat_toSigned {w n : Nat} (hw : 0 < w) (h : n < 256 ^ w) : sleNat w (toSigned w n) = n := by
  have h3 := signed_two hw
  have h4 : ((n : Nat) : Int) < 256 ^ w := by exact_mod_cast h
  unfold toSigned sleNat
  rw [← pow256]
  have h5 : (n < 2 ^ (8 * w - 1)) ↔ ((n : Nat) : Int) < 2 ^ (8 * w - 1) := by
    constructor
    · intro h; exact_mod_cast h
    · intro h; exact_mod_cast h
  simp only [h5]
  rw [h3] at h4 ⊢
  generalize (2 : Int) ^ (8 * w - 1) = p at *
  split <;> split <;> omega

theorem sle_toSigned {w n : Nat} (hw : 0 < w) (h : n < 256 ^ w) : sle w (toSigned w n) = le w n := by
  rw [sle_eq, sleNat_toSigned hw h]

theorem unpack_lt (ws : List Nat) (bs : Bytes) : ∀ p ∈ ws.zip (unpack ws bs), p.2 < 256 ^ p.1 := by
  induction ws generalizing bs with
  | nil => simp
  | cons w ws ih =>
    intro p hp
    simp only [unpack, List.zip_cons_cons, List.mem_cons] at hp
    rcases hp with rfl | hp
    · refine lt_of_lt_of_le (unle_lt _) ?_
      exact Nat.pow_le_pow_right (by decide) (by simp)
    · exact ih _ p hp

theorem packRaw_signed (fs : List (Nat × Nat)) (hw : ∀ f ∈ fs, 0 < f.1)
    (h : ∀ f ∈ fs, f.2 < 256 ^ f.1) :
    packRaw fs = fs.flatMap fun f => sle f.1 (toSigned f.1 f.2) := by
  induction fs with
  | nil => rfl
  | cons f fs ih =>
    rw [packRaw, List.flatMap_cons, sle_toSigned (hw f (by simp)) (h f (by simp)),
      ih (fun g hg => hw g (List.mem_cons_of_mem _ hg)) (fun g hg => h g (List.mem_cons_of_mem _ hg))]

/-- What is read as signed fields is stored as signed fields. -/
theorem readSigned_ate {ws : List Nat} {s s' : RFile} {is : List Int} (hc : calcsize ws < maxSize)
    (hw : ∀ w ∈ ws, 0 < w) (h : readSigned ws s = .ok (is, s')) :
    is.length = ws.length ∧ Ate s s' ((ws.zip is).flatMap fun f => sle f.1 f.2) ∧
      ∀ f ∈ ws.zip is, signedOk f.1 f.2 = true := by
  unfold readSigned at h
  obtain ⟨vs, s1, h1, h⟩ := rd_bind_inv h
  cases h
  obtain ⟨hl, enc, ha, he, hv, hp⟩ := readRequired_ate hc h1
  have hlt : ∀ p ∈ ws.zip vs, p.2 < 256 ^ p.1 := by rw [hv]; exact unpack_lt ws enc
  have hpos : ∀ p ∈ ws.zip vs, 0 < p.1 := fun p hp' => hw _ (List.of_mem_zip hp').1
  have hz : ws.zip (List.zipWith toSigned ws vs) = (ws.zip vs).map fun p => (p.1, toSigned p.1 p.2) := by
    clear ha he hv hp hlt hpos h1 hc hw h
    induction ws generalizing vs with
    | nil => simp
    | cons w ws ih =>
      cases vs with
      | nil => simp
      | cons v vs => simp [ih (vs := vs) (by simpa using hl)]
  rw [hz]
  refine ⟨by simp [hl], ?_, ?_⟩
  · rw [← hp, packRaw_signed _ hpos hlt] at ha
    rw [List.flatMap_map]
    exact ha
  · intro f hf
    obtain ⟨p, hp', rfl⟩ := List.mem_map.mp hf
    exact toSigned_ok (hpos p hp') (hlt p hp')

theorem readOne_ate {w n : Nat} {s s' : RFile} (h0 : 0 < w) (hw : w < maxSize)
    (h : readOne w s = .ok (n, s')) : n < 256 ^ w ∧ Ate s s' (le w n) := by
  rw [readOne_eq w s h0 hw] at h
  split at h
  · rename_i hl
    cases h
    have hlen : ((s.data.drop s.pos).take w).length = w := by simp; omega
    have hlt := unle_lt ((s.data.drop s.pos).take w)
    have hle := le_unle ((s.data.drop s.pos).take w)
    rw [hlen] at hlt hle
    refine ⟨hlt, rfl, ?_⟩
    rw [hle, ← List.drop_drop, List.take_append_drop]
  · cases h

theorem takeUntil_inv {d : UInt8} {bs w : Bytes} (h : takeUntil d bs = some w) :
    d ∉ w ∧ bs = w ++ d :: bs.drop (w.length + 1) := by
  induction bs generalizing w with
  | nil => cases h
  | cons b bs ih =>
    unfold takeUntil at h
    split at h
    · rename_i hb
      cases h
      exact ⟨by simp, by simp [hb]⟩
    · rename_i hb
      obtain ⟨w', hw', rfl⟩ := Option.map_eq_some_iff.mp h
      obtain ⟨h1, h2⟩ := ih hw'
      refine ⟨by simp [h1, Ne.symm hb], ?_⟩
      simp only [List.length_cons, List.drop_succ_cons, List.cons_append]
      rw [← h2]

theorem readDelim_ate {d : UInt8} {s s' : RFile} {w : Bytes} (h : readDelim d s = .ok (w, s')) :
    d ∉ w ∧ Ate s s' (w ++ [d]) := by
  unfold readDelim at h
  cases ht : takeUntil d (s.data.drop s.pos) with
  | none => rw [ht] at h; cases h
  | some w' =>
    rw [ht] at h
    cases h
    obtain ⟨h1, h2⟩ := takeUntil_inv ht
    refine ⟨h1, rfl, ?_⟩
    show _ = w ++ [d] ++ s.data.drop (s.pos + w.length + 1)
    rw [List.append_assoc, List.singleton_append, Nat.add_assoc, ← List.drop_drop]
    exact h2

theorem readFtWord_ate {lossy : Bool} {s s' : RFile} {w : PyStr} (h : readFtWord lossy s = .ok (w, s')) :
    ∃ p : Bytes × Int, Ate s s' (ftEntryBytes p) ∧ Int64Ok p.2 ∧ (0 : UInt8) ∉ p.1 ∧
      decodeLossy lossy p.1 = .ok w := by
  unfold readFtWord at h
  obtain ⟨b, s1, h1, h⟩ := rd_bind_inv h
  obtain ⟨n, s2, h2, h⟩ := rd_bind_inv h
  obtain ⟨t, s3, h3, h⟩ := rd_bind_inv h
  by_cases ht : t ≠ 0
  · rw [if_pos ht] at h
    obtain ⟨_, _, h4, _⟩ := rd_bind_inv h
    cases h4
  rw [if_neg ht] at h
  have ht : t = 0 := by simpa using ht
  obtain ⟨hd, rfl⟩ := rd_lift_inv h
  obtain ⟨a1, a2⟩ := readDelim_ate h1
  obtain ⟨b1, b2⟩ := readOne_ate (by decide) (by decide) h2
  obtain ⟨c1, c2⟩ := readOne_ate (by decide) (by decide) h3
  refine ⟨(b, toSigned 8 n), ?_, signedOk_iff.mp (toSigned_ok (by decide) b1), a1, hd⟩
  unfold ftEntryBytes
  rw [sle_toSigned (by decide) b1]
  have := (a2.trans b2).trans c2
  rw [ht] at this
  exact this

theorem readFtWords_ate {lossy : Bool} {n : Nat} {s s' : RFile} {ws : List PyStr}
    (h : readFtWords lossy n s = .ok (ws, s')) :
    ∃ ps : List (Bytes × Int), ps.length = n ∧ Ate s s' (ps.flatMap ftEntryBytes) ∧
      (∀ p ∈ ps, Int64Ok p.2) ∧ (∀ p ∈ ps, (0 : UInt8) ∉ p.1) ∧
      List.Forall₂ (fun p w => decodeLossy lossy p.1 = .ok w) ps ws := by
  induction n generalizing s ws with
  | zero => cases h; exact ⟨[], rfl, Ate.refl _, by simp, by simp, .nil⟩
  | succ n ih =>
    unfold readFtWords at h
    obtain ⟨w, s1, h1, h⟩ := rd_bind_inv h
    obtain ⟨ws', s2, h2, h⟩ := rd_bind_inv h
    cases h
    obtain ⟨p, p1, p2, p3, p4⟩ := readFtWord_ate h1
    obtain ⟨ps, q0, q1, q2, q3, q4⟩ := ih h2
    refine ⟨p :: ps, by simp [q0], by rw [List.flatMap_cons]; exact p1.trans q1, ?_, ?_, .cons p4 q4⟩
    · exact List.forall_mem_cons.mpr ⟨p2, q2⟩
    · exact List.forall_mem_cons.mpr ⟨p3, q3⟩

theorem readFtHeader_ate {s s' : RFile} {u : Unit} (h : readFtHeader s = .ok (u, s')) :
    Ate s s' (sle 4 793712314 ++ sle 4 12) := by
  unfold readFtHeader at h
  obtain ⟨is, s1, h1, h⟩ := rd_bind_inv h
  obtain ⟨hl, ha, _⟩ := readSigned_ate (by decide) (by decide) h1
  match is, hl with
  | [m, v], _ =>
    simp only at h
    by_cases hm : m ≠ ftMagic
    · rw [if_pos hm] at h
      obtain ⟨_, _, h4, _⟩ := rd_bind_inv h
      cases h4
    rw [if_neg hm] at h
    by_cases hv : v ≠ 12
    · rw [if_pos hv] at h
      cases h
    rw [if_neg hv] at h
    have hm : m = ftMagic := by simpa using hm
    have hv : v = 12 := by simpa using hv
    cases h
    subst hm hv
    simpa [ftMagic] using ha

/-- The configuration that belongs to twelve integers. -/
def FtCfg.Of (c : FtCfg) (args : List Int) (t : UInt64) : Prop :=
  ∃ a0 a1 a2 a3 a4 a5 a6 a7 a8 a9 a10 a11, args = [a0, a1, a2, a3, a4, a5, a6, a7, a8, a9, a10, a11] ∧
    c.dims = a0 ∧ c.windowSize = a1 ∧ c.epoch = a2 ∧ c.minCount = a3 ∧ c.ns = a4 ∧ c.wordNgrams = a5 ∧
    npGet ftLosses (a6 - 1) = .ok c.loss ∧ npGet ftModels (a7 - 1) = .ok c.model ∧
    c.buckets = a8 ∧ c.minN = a9 ∧ c.maxN = a10 ∧ c.lrUpdateRate = a11 ∧ c.samplingThreshold = t

theorem readFtCfg_ate {s s' : RFile} {c : FtCfg} (h : readFtCfg s = .ok (c, s')) :
    ∃ args t, args.length = 12 ∧ (∀ a ∈ args, Int32Ok a) ∧ c.Of args t ∧
      Ate s s' (args.flatMap (sle 4) ++ le 8 t.toNat) := by
  unfold readFtCfg at h
  obtain ⟨vs, s1, h1, h⟩ := rd_bind_inv h
  obtain ⟨hl, enc, ha, he, hv, hp⟩ := readRequired_ate (by decide) h1
  have hlt : ∀ p ∈ [4, 4, 4, 4, 4, 4, 4, 4, 4, 4, 4, 4, 8].zip vs, p.2 < 256 ^ p.1 := by
    rw [hv]; exact unpack_lt _ enc
  match vs, hl with
  | [a0, a1, a2, a3, a4, a5, a6, a7, a8, a9, a10, a11, a12], _ =>
    simp only at h
    obtain ⟨loss, s2, h2, k⟩ := rd_bind_inv h
    obtain ⟨model, s3, h3, k'⟩ := rd_bind_inv k
    obtain ⟨h2', rfl⟩ := rd_lift_inv h2
    obtain ⟨h3', rfl⟩ := rd_lift_inv h3
    clear h k
    cases k'
    simp only [List.zip_cons_cons, List.zip_nil_left, List.mem_cons, List.not_mem_nil, or_false,
      forall_eq_or_imp, forall_eq] at hlt
    obtain ⟨l0, l1, l2, l3, l4, l5, l6, l7, l8, l9, l10, l11, l12⟩ := hlt
    have h12 : (UInt64.ofNat a12).toNat = a12 := by
      rw [UInt64.toNat_ofNat']; exact Nat.mod_eq_of_lt l12
    refine ⟨[toSigned 4 a0, toSigned 4 a1, toSigned 4 a2, toSigned 4 a3, toSigned 4 a4, toSigned 4 a5,
      toSigned 4 a6, toSigned 4 a7, toSigned 4 a8, toSigned 4 a9, toSigned 4 a10, toSigned 4 a11],
      UInt64.ofNat a12, rfl, ?_, ?_, ?_⟩
    · have key : ∀ n, n < 256 ^ 4 → Int32Ok (toSigned 4 n) := fun n hn =>
        signedOk_iff.mp (toSigned_ok (by decide) hn)
      simp only [List.mem_cons, List.not_mem_nil, or_false, forall_eq_or_imp, forall_eq]
      exact ⟨key _ l0, key _ l1, key _ l2, key _ l3, key _ l4, key _ l5, key _ l6, key _ l7, key _ l8,
        key _ l9, key _ l10, key _ l11⟩
    · exact ⟨_, _, _, _, _, _, _, _, _, _, _, _, rfl, rfl, rfl, rfl, rfl, rfl, rfl, h2', h3', rfl, rfl, rfl,
        rfl, rfl⟩
    · have p4 : (0 : Nat) < 4 := by decide
      simp only [List.flatMap_cons, List.flatMap_nil, sle_toSigned p4 l0, sle_toSigned p4 l1,
        sle_toSigned p4 l2, sle_toSigned p4 l3, sle_toSigned p4 l4, sle_toSigned p4 l5,
        sle_toSigned p4 l6, sle_toSigned p4 l7, sle_toSigned p4 l8, sle_toSigned p4 l9,
        sle_toSigned p4 l10, sle_toSigned p4 l11, h12]
      simp only [List.zip_cons_cons, List.zip_nil_left, packRaw, List.append_nil] at hp
      rw [← hp] at ha
      simpa only [List.append_assoc, List.append_nil] using ha

theorem readFtVocab_ate {b mn mx : Int} {lossy : Bool} {s s' : RFile} {p : Vocab × FtIndexer}
    (h1 : readFtVocab b mn mx lossy s = .ok (p, s')) :
    ∃ (n nw nt prune : Int) (ps : List (Bytes × Int)), Int32Ok n ∧ Int32Ok nw ∧ Int64Ok nt ∧ Int64Ok prune ∧
      prune < 0 ∧ ps.length = n.toNat ∧ (∀ p ∈ ps, Int64Ok p.2) ∧ (∀ p ∈ ps, (0 : UInt8) ∉ p.1) ∧
      List.Forall₂ (fun p w => decodeLossy lossy p.1 = .ok w) ps p.1.words ∧
      FtIndexer.new b mn mx = .ok p.2 ∧
      Ate s s' (sle 4 n ++ sle 4 nw ++ sle 4 0 ++ sle 8 nt ++ sle 8 prune ++ ps.flatMap ftEntryBytes) := by
  unfold readFtVocab at h1
  obtain ⟨vs, _, h0, h1⟩ := rd_bind_inv h1
  obtain ⟨hl, ha, hok⟩ := readSigned_ate (by decide) (by decide) h0
  match vs, hl with
  | [n, nw, l], _ =>
    dsimp only at h1
    by_cases hl : l ≠ 0
    · rw [if_pos hl] at h1
      obtain ⟨_, _, h1, _⟩ := rd_bind_inv h1
      cases h1
    rw [if_neg hl] at h1
    obtain ⟨nt, _, h2, h1⟩ := rd_bind_inv h1
    obtain ⟨prune, _, h3, h1⟩ := rd_bind_inv h1
    by_cases hp : toSigned 8 prune ≥ 0
    · rw [if_pos hp] at h1
      obtain ⟨_, _, h1, _⟩ := rd_bind_inv h1
      cases h1
    rw [if_neg hp] at h1
    obtain ⟨ws, _, h4, h1⟩ := rd_bind_inv h1
    obtain ⟨ix, _, h5, h1⟩ := rd_bind_inv h1
    obtain ⟨v, _, h6, h1⟩ := rd_bind_inv h1
    cases h1
    obtain ⟨hix, rfl⟩ := rd_lift_inv h5
    obtain ⟨hv, rfl⟩ := rd_lift_inv h6
    obtain ⟨_, hws, _⟩ := vocabNew_built hv (by intro ix' h; cases h; exact .ft hix)
    obtain ⟨ps, q0, q1, q2, q3, q4⟩ := readFtWords_ate h4
    obtain ⟨b1, b2⟩ := readOne_ate (by decide) (by decide) h2
    obtain ⟨c1, c2⟩ := readOne_ate (by decide) (by decide) h3
    simp only [List.zip_cons_cons, List.zip_nil_left, List.mem_cons, List.not_mem_nil, or_false,
      forall_eq_or_imp, forall_eq] at hok
    obtain ⟨o1, o2, _⟩ := hok
    have hl : l = 0 := by simpa using hl
    subst hl
    refine ⟨n, nw, toSigned 8 nt, toSigned 8 prune, ps, signedOk_iff.mp o1, signedOk_iff.mp o2,
      signedOk_iff.mp (toSigned_ok (by decide) b1), signedOk_iff.mp (toSigned_ok (by decide) c1),
      by omega, q0, q2, q3, ?_, hix, ?_⟩
    · show List.Forall₂ _ ps v.words
      rw [hws]; exact q4
    · rw [sle_toSigned (by decide) b1, sle_toSigned (by decide) c1]
      have := ((ha.trans b2).trans c2).trans q1
      simpa only [List.zip_cons_cons, List.zip_nil_left, List.flatMap_cons, List.flatMap_nil,
        List.append_assoc, List.append_nil, List.nil_append] using this

section
variable {K : Type} [NumOps K] [Codec K]

theorem readFtStorage_ate {v : Vocab} {ix : FtIndexer} {s s' : RFile} {m : Mat K}
    (h : readFtStorage v ix s = .ok (m, s')) :
    ∃ r c s1 xs m0, Int64Ok r ∧ Int64Ok c ∧ Ate s s1 ([0] ++ sle 8 r ++ sle 8 c) ∧
      fromFileInt (r * c) s1 = .ok (xs, s') ∧
      reshapeInt r c (xs.map (Codec.ofBits (K := K))) = .ok m0 ∧ m.cols = m0.cols ∧
      precomputeWords v (.ft ix) m0.cols 0 v.words m0.rows = .ok m.rows := by
  unfold readFtStorage at h
  obtain ⟨q, _, h0, h⟩ := rd_bind_inv h
  dsimp only at h
  by_cases hq : q ≠ 0
  · rw [if_pos hq] at h
    obtain ⟨_, _, h1, _⟩ := rd_bind_inv h
    cases h1
  rw [if_neg hq] at h
  obtain ⟨rc, s1, h1, h⟩ := rd_bind_inv h
  obtain ⟨hl, ha, hok⟩ := readSigned_ate (by decide) (by decide) h1
  match rc, hl with
  | [r, c], _ =>
    dsimp only at h
    obtain ⟨xs, s2, h2, h⟩ := rd_bind_inv h
    obtain ⟨m1, s3, h3, h⟩ := rd_bind_inv h
    obtain ⟨rs, s4, h4, h⟩ := rd_bind_inv h
    cases h
    obtain ⟨h3', rfl⟩ := rd_lift_inv h3
    obtain ⟨h4', rfl⟩ := rd_lift_inv h4
    obtain ⟨_, b2⟩ := readOne_ate (by decide) (by decide) h0
    have hq : q = 0 := by simpa using hq
    subst hq
    simp only [List.zip_cons_cons, List.zip_nil_left, List.mem_cons, List.not_mem_nil, or_false,
      forall_eq_or_imp, forall_eq] at hok
    refine ⟨r, c, s1, xs, m1, signedOk_iff.mp hok.1, signedOk_iff.mp hok.2, ?_, h2, h3', rfl, h4'⟩
    have hz : le 1 0 = [0] := rfl
    rw [hz] at b2
    have := b2.trans ha
    simpa only [List.zip_cons_cons, List.zip_nil_left, List.flatMap_cons, List.flatMap_nil,
      List.append_assoc, List.append_nil, List.nil_append] using this

end

end FF
