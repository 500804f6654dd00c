import Verif.Lemmas.Standalone
import Verif.Lemmas.LoadInv
import Verif.Lemmas.VocabLookup
/-! Exactly which cut-off files load, and with which result. -/

namespace FF

variable {α β : Type}

/-- A file with a header and the complete head of one chunk: the loader goes on to read the
body. -/
theorem find_run {ids : List ChunkId} {c : ChunkId} {n : Nat} {m : Rd α}
    {f : Option ChunkId → Rd α} (hc : c ∈ ids) (hn : n < 256 ^ 8) (hf : f (some c) = m) (r : Bytes) :
    (findChunk ids >>= f) ⟨headerEnc [c.toNat] ++ (chunkHead c n ++ r), 0⟩ =
      m ⟨(headerEnc [c.toNat] ++ chunkHead c n) ++ r,
        (headerEnc [c.toNat] ++ chunkHead c n).length⟩ := by
  have hid : ∀ i ∈ [c.toNat], i < 256 ^ 4 := by
    intro i hi; rw [List.mem_singleton] at hi; rw [hi]; exact chunkId_toNat_lt c
  have hl : (headerEnc [c.toNat]).length = 16 := by
    simp [headerEnc, magic, packRaw]
  have h := findChunk_at ids [c.toNat] [] c n r 0 (by simp) (by simp) hid (by simp)
    hc hn (by simp [chunksBytes, hl, maxSize])
  simp only [chunksBytes, List.nil_append, List.append_nil] at h
  unfold chunkHead
  rw [rd_bind_ok h, hf]
  simp only [List.append_assoc]

theorem load_run {ids : List ChunkId} {c : ChunkId} {n : Nat} {m load : Rd α}
    {f : Option ChunkId → Rd α} (hld : load = (findChunk ids >>= f)) (hc : c ∈ ids)
    (hn : n < 256 ^ 8) (hf : f (some c) = m) (r : Bytes) {a : α} {s' : RFile}
    (h : m ⟨(headerEnc [c.toNat] ++ chunkHead c n) ++ r,
      (headerEnc [c.toNat] ++ chunkHead c n).length⟩ = .ok (a, s')) :
    Rd.run load (headerEnc [c.toNat] ++ (chunkHead c n ++ r)) = .ok a := by
  subst hld
  exact rd_run_of ((find_run hc hn hf r).trans h)

/-- The bytes of a number of values, cut off, hold as many values as fit. -/
theorem f32sOf_take (n : List F32) (i : Nat) : f32sOf ((f32sLE n).take i) = n.take (i / 4) := by
  have h := List.prefix_iff_eq_take.mp (f32sOf_take_prefix n i)
  rw [h, length_f32sOf, List.length_take, length_f32sLE]
  by_cases hi : i ≤ 4 * n.length
  · rw [Nat.min_eq_left hi]
  · rw [Nat.min_eq_right (by omega), Nat.mul_div_cancel_left _ (by decide),
      List.take_of_length_le (Nat.le_refl _), List.take_of_length_le (by omega)]

/-- The norms reader on a cut body: without the 12 bytes of its header it raises, with them it
returns the norms that are completely there. -/
theorem readNorms_cut (n : List F32) (pre : Bytes) (hr : n.length < 256 ^ 8)
    (hm : 4 * n.length < maxSize) (hl : pre.length + 12 + padFloat32 (pre.length + 12) < maxSize) (k : Nat)
    (hk : k < (normsBody (padFloat32 (pre.length + 12)) n).length) :
    (k < 12 ∧ ∃ e, readNorms ⟨pre ++ (normsBody (padFloat32 (pre.length + 12)) n).take k, pre.length⟩
      = .error e) ∨
    (12 ≤ k ∧ ∃ s', readNorms ⟨pre ++ (normsBody (padFloat32 (pre.length + 12)) n).take k, pre.length⟩
      = .ok (n.take ((k - (12 + padFloat32 (pre.length + 12))) / 4), s')) := by
  unfold readNorms
  unfold normsBody at hk ⊢
  have hp : (pre ++ packRaw [(8, n.length), (4, 10)]).length = pre.length + 12 := by
    simp [calcsize]
  have h12 : (packRaw [(8, n.length), (4, 10)]).length = 12 := by simp [calcsize]
  have hpar := readRequired_parses [8, 4] [(8, n.length), (4, 10)] pre rfl (by decide)
    (by decide) (by
      intro f hm
      simp only [List.mem_cons, List.not_mem_nil, or_false] at hm
      rcases hm with rfl | rfl
      · exact hr
      · decide)
  rcases take_append_cases _ _ k hk with ⟨h, e⟩ | ⟨j, hj, e⟩
  · left
    rw [e]
    obtain ⟨er, her⟩ := readRequired_short [8, 4] pre (packRaw [(8, n.length), (4, 10)]) (by simp) k h
    exact ⟨by omega, er, rd_bind_error her⟩
  · right
    have hkj : k = 12 + j := by
      have h1 := congrArg List.length e
      simp only [List.length_take, List.length_append, h12] at h1 hk hj
      omega
    rw [e, ← List.append_assoc, rd_bind_ok (hpar _)]
    simp only [List.map_cons, List.map_nil]
    rw [rd_bind_ok (m := Rd.lift (TypeId.fromNat 10)) (a := TypeId.f32) rfl]
    rw [if_neg (by decide), rd_bind_ok (rd_tell _)]
    simp only [hp]
    refine ⟨by omega, ?_⟩
    rw [rd_bind_ok (seekCur_ok (by simpa using hl))]
    simp only
    rcases take_append_cases _ _ j hj with ⟨h, e⟩ | ⟨i, hi, e⟩
    · rw [e]
      simp only [length_zeros] at h
      rw [fromFileF32_eof _ _ (by simp only [List.length_append, List.length_take, length_zeros, h12]; omega) hm, hkj]
      rw [show (12 + j - (12 + padFloat32 (pre.length + 12))) / 4 = 0 by omega]
      exact ⟨_, rfl⟩
    · have hji : j = padFloat32 (pre.length + 12) + i := by
        have h1 := congrArg List.length e
        simp only [List.length_take, List.length_append, length_zeros] at h1 hj hi
        omega
      rw [e, hkj, hji, ← List.append_assoc]
      have := fromFileF32_short (pre ++ packRaw [(8, n.length), (4, 10)] ++
        zeros (padFloat32 (pre.length + 12))) _ _ _ (length_f32sLE n) hi hm
      rw [List.length_append, hp, length_zeros] at this
      rw [this, f32sOf_take]
      rw [show 12 + (padFloat32 (pre.length + 12) + i) - (12 + padFloat32 (pre.length + 12)) = i by
        omega]
      exact ⟨_, rfl⟩

/-- The items of which the last is cut off at a character boundary. -/
theorem readItems_cut (init : List PyStr) (w w' : PyStr) (h : ∀ x ∈ init ++ [w], ItemOk x)
    (hp : w' <+: w) (hlt : (utf8 w').length < (utf8 w).length) (pre : Bytes) :
    ∃ s', readItems (init ++ [w]).length
      ⟨pre ++ (wordsEnc init ++ (le 4 (utf8 w).length ++ utf8 w')), pre.length⟩ =
        .ok (init ++ [w'], s') := by
  induction init generalizing pre with
  | nil =>
    have hw := h w (by simp)
    obtain ⟨t, rfl⟩ := hp
    have hs : w'.any isSurrogate = false := by
      have := hw.1
      rw [List.any_append, Bool.or_eq_false_iff] at this
      exact this.1
    simp only [List.nil_append, List.length_singleton, readItems, wordsEnc]
    have ht : (utf8 (w' ++ t)).take (utf8 w').length = utf8 w' := by
      rw [utf8_append, List.take_left]
    rw [← List.append_assoc, rd_bind_ok (readOne_parses 4 _ pre (by decide) (by decide) hw.2 _)]
    have := read_short (pre ++ le 4 (utf8 (w' ++ t)).length) (utf8 (w' ++ t)) _ _ rfl hlt
      (le_eq_lt4 hw.2)
    rw [ht] at this
    rw [rd_bind_ok this, decode_utf8 w' hs, rd_bind_ok (rd_lift_ok _ _)]
    exact ⟨_, rfl⟩
  | cons x xs ih =>
    have hx := h x (by simp)
    have hxs := fun y hy => h y (List.mem_cons_of_mem x hy)
    simp only [List.cons_append, List.length_cons, readItems, wordsEnc, itemEnc, List.append_assoc]
    rw [← List.append_assoc, rd_bind_ok (readOne_parses 4 _ pre (by decide) (by decide) hx.2 _)]
    rw [← List.append_assoc, rd_bind_ok (read_parses _ (utf8 x) _ rfl (le_eq_lt4 hx.2) _),
      decode_utf8 x hx.1, rd_bind_ok (rd_lift_ok _ _)]
    obtain ⟨s', hs'⟩ := ih hxs (pre ++ le 4 (utf8 x).length ++ utf8 x)
    exact ⟨s', rd_bind_ok hs'⟩

theorem wordsEnc_append (a b : List PyStr) : wordsEnc (a ++ b) = wordsEnc a ++ wordsEnc b := by
  induction a with
  | nil => rfl
  | cons x xs ih => simp only [List.cons_append, wordsEnc, ih, List.append_assoc]

/-- The fixed fields before the words of a vocabulary. -/
def vocabFields (v : Vocab) : Bytes :=
  match v.sub with
  | none => le 8 v.words.length
  | some (.fifu ix) => packRaw [(8, v.words.length), (4, ix.minN), (4, ix.maxN), (4, ix.bucketsExp)]
  | some (.ft ix) => packRaw [(8, v.words.length), (4, ix.minN), (4, ix.maxN), (4, ix.nBuckets)]
  | some (.expl _) => []

theorem vocabBody_fields {v : Vocab} (he : ∀ ix, v.sub ≠ some (.expl ix)) :
    vocabBody v = vocabFields v ++ wordsEnc v.words := by
  unfold vocabBody vocabFields
  rcases hs : v.sub with _ | (ix | ix | ix) <;> first | rfl | exact absurd hs (he ix)

/-- A vocabulary chunk whose last word is cut off at a character boundary. -/
theorem vocabRead_cut {v : Vocab} (hw : VocabWF v) (hf : VocabFits v)
    (he : ∀ ix, v.sub ≠ some (.expl ix)) {init : List PyStr} {w w' : PyStr}
    (hws : v.words = init ++ [w]) (hp : w' <+: w) (hlt : (utf8 w').length < (utf8 w).length)
    (hn : w' ∉ init) (pre : Bytes) :
    ∃ s', readVocabChunk v.chunkId ⟨pre ++ (vocabFields v ++ (wordsEnc init ++
      (le 4 (utf8 w).length ++ utf8 w'))), pre.length⟩ =
        .ok (⟨init ++ [w'], enumItems (init ++ [w']), v.sub⟩, s') := by
  obtain ⟨hitems, hlen, hsub⟩ := hf
  have hsubw := hw.sub
  have hnd : (init ++ [w']).Nodup := by
    have h1 := hw.nodup
    rw [hws] at h1
    rw [List.nodup_append] at h1 ⊢
    refine ⟨h1.1, List.nodup_singleton _, fun a ha b hb => ?_⟩
    rw [List.mem_singleton] at hb
    rintro rfl
    exact hn (hb ▸ ha)
  have hitems' := hitems
  rw [hws] at hitems'
  have key := fun p => readItems_cut init w w' hitems' hp hlt p
  rw [← hws] at key
  have hnew : ∀ sub, Vocab.new (init ++ [w']) sub =
      .ok ⟨init ++ [w'], enumItems (init ++ [w']), sub⟩ := fun sub => Vocab.new_ok.mpr ⟨hnd, rfl⟩
  unfold vocabFields Vocab.chunkId
  rcases hs : v.sub with _ | (ix | ix | ix)
  · simp only [readVocabChunk, readSimpleVocab]
    rw [← List.append_assoc, rd_bind_ok (readOne_parses 8 _ _ (by decide) (by decide) hlen _)]
    obtain ⟨s', hs'⟩ := key (pre ++ le 8 v.words.length)
    rw [rd_bind_ok hs', hnew]
    exact ⟨_, rfl⟩
  · rw [hs] at hsub hsubw
    simp only [readVocabChunk, readBucketVocab] at *
    rw [← List.append_assoc, rd_bind_ok (readRequired_parses [8, 4, 4, 4]
        [(8, v.words.length), (4, ix.minN), (4, ix.maxN), (4, ix.bucketsExp)] _ rfl (by decide)
        (by decide) (by
          intro f hm
          simp only [List.mem_cons, List.not_mem_nil, or_false] at hm
          rcases hm with rfl | rfl | rfl | rfl
          · exact hlen
          · exact hsub.1
          · exact hsub.2.1
          · exact hsub.2.2) _)]
    simp only [List.map_cons, List.map_nil, hsubw]
    obtain ⟨s', hs'⟩ := key (pre ++ packRaw [(8, v.words.length), (4, ix.minN), (4, ix.maxN),
      (4, ix.bucketsExp)])
    rw [rd_bind_ok hs', rd_bind_ok (rd_lift_ok _ _), hnew]
    exact ⟨_, rfl⟩
  · rw [hs] at hsub hsubw
    simp only [readVocabChunk, readFastTextVocab] at *
    rw [← List.append_assoc, rd_bind_ok (readRequired_parses [8, 4, 4, 4]
        [(8, v.words.length), (4, ix.minN), (4, ix.maxN), (4, ix.nBuckets)] _ rfl (by decide)
        (by decide) (by
          intro f hm
          simp only [List.mem_cons, List.not_mem_nil, or_false] at hm
          rcases hm with rfl | rfl | rfl | rfl
          · exact hlen
          · exact hsub.1
          · exact hsub.2.1
          · exact hsub.2.2) _)]
    simp only [List.map_cons, List.map_nil, hsubw]
    obtain ⟨s', hs'⟩ := key (pre ++ packRaw [(8, v.words.length), (4, ix.minN), (4, ix.maxN),
      (4, ix.nBuckets)])
    rw [rd_bind_ok hs', rd_bind_ok (rd_lift_ok _ _), hnew]
    exact ⟨_, rfl⟩
  · exact absurd hs (he ix)

/-- An `ExplicitVocab` chunk without n-grams, complete or cut off after its fixed fields. -/
theorem explRead_empty {ix : ExplIndexer} (hv : ExplValid ix) (hng : ix.ngrams = [])
    (hm : ix.minN < 256 ^ 4) (hx : ix.maxN < 256 ^ 4) {ws : List PyStr} (hlen : ws.length < 256 ^ 8)
    (pre r : Bytes) {r' : List PyStr} {s' : RFile}
    (hr : readItems ws.length ⟨pre ++ packRaw [(8, ws.length), (8, ix.ngrams.length), (4, ix.minN),
      (4, ix.maxN)] ++ r, (pre ++ packRaw [(8, ws.length), (8, ix.ngrams.length), (4, ix.minN),
      (4, ix.maxN)]).length⟩ = .ok (r', s')) :
    readVocabChunk .explicitVocab ⟨pre ++ (packRaw [(8, ws.length), (8, ix.ngrams.length),
      (4, ix.minN), (4, ix.maxN)] ++ r), pre.length⟩ = .error .valueError := by
  simp only [readVocabChunk, readExplicitVocab]
  rw [← List.append_assoc, rd_bind_ok (readRequired_parses [8, 8, 4, 4]
        [(8, ws.length), (8, ix.ngrams.length), (4, ix.minN), (4, ix.maxN)] _ rfl (by decide)
        (by decide) (by
          intro f hm'
          simp only [List.mem_cons, List.not_mem_nil, or_false] at hm'
          rcases hm' with rfl | rfl | rfl | rfl
          · exact hlen
          · rw [hng]; decide
          · exact hm
          · exact hx) _)]
  simp only [List.map_cons, List.map_nil]
  rw [rd_bind_ok hr, hng]
  simp only [List.length_nil, readItemsIdx]
  rw [rd_bind_ok (m := pure []) (a := []) (s' := s') rfl]
  refine rd_bind_error ?_
  have h2 : ((ix.maxN : Int) ≥ ix.minN ∧ (ix.minN : Int) > 0) := by
    have := hv.minPos; have := hv.minMax; omega
  have h3 : (0 : Int) ≤ ix.minN ∧ (ix.minN : Int) < 2 ^ 32 := by
    have := hv.max32; have := hv.minMax; omega
  have h4 : (0 : Int) ≤ ix.maxN ∧ (ix.maxN : Int) < 2 ^ 32 := by
    have := hv.max32; omega
  have hnew : ExplIndexer.new [] (ix.minN : Int) (ix.maxN : Int) (some []) = .error .valueError := by
    unfold ExplIndexer.new toU32
    rw [if_pos h3, if_pos h4]
    unfold pyAssert
    rw [decide_eq_true h2]
    rfl
  show Rd.lift (ExplIndexer.new [] (ix.minN : Int) (ix.maxN : Int) (some [])) s' = _
  rw [hnew]
  rfl

/-- Every vocabulary loader returns a vocabulary without repeated words. -/
theorem load_nodup {v v' : Vocab} {load : Rd Vocab} {bs : Bytes}
    (hload : load = loadVocab ∨ load = loadVocabAs v) (h : Rd.run load bs = .ok v') :
    v'.words.Nodup := by
  obtain ⟨s', h⟩ := rd_run_ok h
  have key : ∀ c t t', readVocabChunk c t = .ok (v', t') → v'.words.Nodup := by
    intro c t t' hr
    have : loadVocabPart c t = .ok (v', t') := by
      cases c <;> first | exact hr | cases hr
    exact (loadVocabPart_inv this).1.nodup
  rcases hload with rfl | rfl
  · unfold loadVocab at h
    obtain ⟨c, s1, h1, h⟩ := rd_bind_inv h
    cases c with
    | none => cases h
    | some c => exact key _ _ _ h
  · unfold loadVocabAs at h
    rcases hs : v.sub with _ | (ix | ix | ix) <;> rw [hs] at h <;> simp only at h
    · unfold loadSimpleVocab at h
      obtain ⟨c, s1, h1, h⟩ := rd_bind_inv h
      cases c with
      | none => cases h
      | some c => exact key .simpleVocab _ _ h
    · unfold loadBucketVocab at h
      obtain ⟨c, s1, h1, h⟩ := rd_bind_inv h
      cases c with
      | none => cases h
      | some c => exact key .bucketVocab _ _ h
    · unfold loadFastTextVocab at h
      obtain ⟨c, s1, h1, h⟩ := rd_bind_inv h
      cases c with
      | none => cases h
      | some c => exact key .fastTextVocab _ _ h
    · unfold loadExplicitVocab at h
      obtain ⟨c, s1, h1, h⟩ := rd_bind_inv h
      cases c with
      | none => cases h
      | some c => exact key .explicitVocab _ _ h

/-- The header of an array, cut off: it is read if only padding is missing. -/
theorem readArrayHeader_cut (rows cols : Nat) (pre : Bytes) (hr : rows < 256 ^ 8)
    (hc : cols < 256 ^ 4) (hl : pre.length + 16 + padFloat32 (pre.length + 16) < maxSize) (k : Nat)
    (hk : k < 16 + padFloat32 (pre.length + 16)) :
    (k < 16 ∧ ∃ e, readArrayHeader ⟨pre ++ (packRaw [(8, rows), (4, cols)] ++
      (le 4 10 ++ zeros (padFloat32 (pre.length + 16)))).take k, pre.length⟩ = .error e) ∨
    (16 ≤ k ∧ ∃ s', readArrayHeader ⟨pre ++ (packRaw [(8, rows), (4, cols)] ++
      (le 4 10 ++ zeros (padFloat32 (pre.length + 16)))).take k, pre.length⟩ =
        .ok ((rows, cols), s') ∧ s'.data.length ≤ s'.pos) := by
  have h12 : (packRaw [(8, rows), (4, cols)]).length = 12 := by simp [calcsize]
  have hp : (pre ++ packRaw [(8, rows), (4, cols)] ++ le 4 10).length = pre.length + 16 := by
    simp [calcsize]
  have hpar := readRequired_parses [8, 4] [(8, rows), (4, cols)] pre rfl (by decide)
    (by decide) (by
      intro f hm
      simp only [List.mem_cons, List.not_mem_nil, or_false] at hm
      rcases hm with rfl | rfl
      · exact hr
      · exact hc)
  unfold readArrayHeader
  rcases take_append_cases (packRaw [(8, rows), (4, cols)])
    (le 4 10 ++ zeros (padFloat32 (pre.length + 16))) k (by simp [calcsize]; omega) with ⟨h, e⟩ | ⟨j, hj, e⟩
  · left
    rw [e]
    obtain ⟨er, her⟩ := readRequired_short [8, 4] pre (packRaw [(8, rows), (4, cols)]) (by simp) k h
    exact ⟨by omega, er, rd_bind_error her⟩
  · have hkj : k = 12 + j := by
      have h1 := congrArg List.length e
      simp only [List.length_take, List.length_append, h12, length_le, length_zeros] at h1 hk hj
      omega
    rw [e, ← List.append_assoc, rd_bind_ok (hpar _)]
    simp only [List.map_cons, List.map_nil]
    rcases take_append_cases _ _ j hj with ⟨h, e⟩ | ⟨i, hi, e⟩
    · left
      rw [e]
      obtain ⟨er, her⟩ := readOne_short 4 (pre ++ packRaw [(8, rows), (4, cols)]) (le 4 10) (by simp) j h
      rw [length_le] at h
      exact ⟨by omega, er, rd_bind_error her⟩
    · right
      have hji : j = 4 + i := by
        have h1 := congrArg List.length e
        simp only [List.length_take, List.length_append, length_le, length_zeros] at h1 hj hi
        omega
      rw [e, ← List.append_assoc, rd_bind_ok (readOne_parses 4 10 _ (by decide) (by decide) (by decide) _)]
      rw [rd_bind_ok (m := Rd.lift (TypeId.fromNat 10)) (a := TypeId.f32) rfl]
      rw [if_neg (by decide), rd_bind_ok (rd_tell _)]
      simp only [hp]
      rw [rd_bind_ok (seekCur_ok (by simpa using hl))]
      refine ⟨by omega, _, rfl, ?_⟩
      simp only [List.length_append, List.length_take, length_zeros, h12, length_le] at hi ⊢
      omega

end FF
