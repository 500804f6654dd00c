import Verif.Lemmas.LoadOne
/-! Standalone chunk files that are cut off. -/

namespace FF

variable {α β : Type}

/-- A file with a header and one chunk, cut off anywhere. -/
theorem find_trunc {ids : List ChunkId} {c : ChunkId} {n : Nat} {body : Bytes} {m : Rd α}
    {f : Option ChunkId → Rd α} {P : Nat → α → Prop} (hc : c ∈ ids) (hn : n < 256 ^ 8)
    (hf : f (some c) = m) (hnone : ∀ s, ∃ e, f none s = .error e)
    (ht : Trunc m (headerEnc [c.toNat] ++ chunkHead c n) body P) (k : Nat)
    (hk : k < (headerEnc [c.toNat] ++ (chunkHead c n ++ body)).length) :
    (∃ e, Rd.run (findChunk ids >>= f)
      ((headerEnc [c.toNat] ++ (chunkHead c n ++ body)).take k) = .error e) ∨
    ∃ a, Rd.run (findChunk ids >>= f)
      ((headerEnc [c.toNat] ++ (chunkHead c n ++ body)).take k) = .ok a ∧ P k a := by
  have key : ∀ data, (∃ e, (findChunk ids >>= f) ⟨data, 0⟩ = .error e) →
      (∃ e, Rd.run (findChunk ids >>= f) data = .error e) := by
    rintro data ⟨e, he⟩
    exact ⟨e, by simp [Rd.run, he]⟩
  have hid : ∀ i ∈ [c.toNat], i < 256 ^ 4 := by
    intro i hi; rw [List.mem_singleton] at hi; rw [hi]; exact chunkId_toNat_lt c
  have hl : (headerEnc [c.toNat]).length = 16 := by
    simp [headerEnc, magic, packRaw]
  rcases take_append_cases _ _ k hk with ⟨h, e⟩ | ⟨j, hj, e⟩
  · left
    rw [e]
    apply key
    obtain ⟨er, her⟩ := readHeader_short [c.toNat] [] (by simp) k h
    simp only [List.nil_append, List.length_nil] at her
    refine ⟨er, rd_bind_error ?_⟩
    unfold findChunk
    rw [rd_bind_ok (m := seekSet 0) (s' := ⟨(headerEnc [c.toNat]).take k, 0⟩) rfl]
    exact rd_bind_error her
  · rw [e]
    rcases take_append_cases _ _ j hj with ⟨h', e'⟩ | ⟨i, hi, e'⟩
    · left
      rw [e']
      apply key
      obtain ⟨fuel, hs⟩ := findChunk_skip ids [c.toNat] [] ((chunkHead c n).take j) 0 (by simp)
        (by simp) hid (by simp) (by simp [chunksBytes, hl, maxSize])
      simp only [chunksBytes, List.nil_append, List.append_nil] at hs
      have hr := readChunkHeader_short (headerEnc [c.toNat]) (chunkHead c n) (by simp) j h'
      by_cases h0 : j = 0
      · rw [if_pos h0] at hr
        obtain ⟨er, her⟩ := hnone ⟨headerEnc [c.toNat] ++ (chunkHead c n).take j,
          (headerEnc [c.toNat]).length⟩
        refine ⟨er, (rd_bind_ok (hs.trans ?_)).trans her⟩
        rw [findChunkLoop, rd_bind_ok hr]
        rfl
      · rw [if_neg h0] at hr
        refine ⟨.formatError, rd_bind_error (hs.trans ?_)⟩
        rw [findChunkLoop]
        exact rd_bind_error hr
    · rw [e']
      have h := findChunk_at ids [c.toNat] [] c n (body.take i) 0 (by simp) (by simp) hid (by simp)
        hc hn (by simp [chunksBytes, hl, maxSize])
      simp only [chunksBytes, List.nil_append, List.append_nil] at h
      have hki : k = (headerEnc [c.toNat] ++ chunkHead c n).length + i := by
        have h1 := congrArg List.length e
        have h2 := congrArg List.length e'
        simp only [List.length_take, List.length_append, length_chunkHead] at h1 h2 hk hj ⊢
        omega
      have hrun : (findChunk ids >>= f) ⟨headerEnc [c.toNat] ++ (chunkHead c n ++ body.take i), 0⟩ =
          m ⟨(headerEnc [c.toNat] ++ chunkHead c n) ++ body.take i,
            (headerEnc [c.toNat] ++ chunkHead c n).length⟩ := by
        unfold chunkHead
        rw [rd_bind_ok h, hf]
        simp only [List.append_assoc]
      rcases ht i hi with ⟨er, her⟩ | ⟨a, s', ha, hp⟩
      · left
        exact key _ ⟨er, hrun.trans her⟩
      · right
        exact ⟨a, rd_run_of (hrun.trans ha), hki ▸ hp⟩

/-- `find_trunc` for a loader given by name, and with the property split. -/
theorem load_trunc {ids : List ChunkId} {c : ChunkId} {n : Nat} {body bs : Bytes} {m load : Rd α}
    {f : Option ChunkId → Rd α} {P : Nat → α → Prop} (hld : load = (findChunk ids >>= f))
    (hb : bs = headerEnc [c.toNat] ++ (chunkHead c n ++ body)) (hc : c ∈ ids) (hn : n < 256 ^ 8)
    (hf : f (some c) = m) (hnone : ∃ e, f none = Rd.fail e)
    (ht : Trunc m (headerEnc [c.toNat] ++ chunkHead c n) body P) (k : Nat) (hk : k < bs.length) :
    (∃ e, Rd.run load (bs.take k) = .error e) ∨ ∃ a, Rd.run load (bs.take k) = .ok a ∧ P k a := by
  subst hld hb
  obtain ⟨e, he⟩ := hnone
  exact find_trunc hc hn hf (fun s => ⟨e, by rw [he]; rfl⟩) ht k hk

theorem load_short {ids : List ChunkId} {c : ChunkId} {n : Nat} {body bs : Bytes} {m load : Rd α}
    {f : Option ChunkId → Rd α} (hld : load = (findChunk ids >>= f))
    (hb : bs = headerEnc [c.toNat] ++ (chunkHead c n ++ body)) (hc : c ∈ ids) (hn : n < 256 ^ 8)
    (hf : f (some c) = m) (hnone : ∃ e, f none = Rd.fail e)
    (ht : FailsShort m (headerEnc [c.toNat] ++ chunkHead c n) body) (k : Nat) (hk : k < bs.length) :
    ∃ e, Rd.run load (bs.take k) = .error e := by
  rcases load_trunc hld hb hc hn hf hnone (ht.trunc (P := fun _ _ => False)) k hk with h | ⟨_, _, h⟩
  · exact h
  · exact h.elim

/-- Decoding a prefix of an encoded string yields a prefix of the string. -/
theorem decode_take {w w' : PyStr} (hw : w.any isSurrogate = false) {j : Nat}
    (hj : j < (utf8 w).length) (h : decode ((utf8 w).take j) = .ok w') :
    w' <+: w ∧ w' ≠ w ∧ (utf8 w').length = j := by
  obtain ⟨h1, h2⟩ := utf8_of_decode _ h
  have h3 := decode_utf8 w hw
  rw [← List.take_append_drop j (utf8 w), ← h1, decode_utf8_append w' h2] at h3
  split at h3
  · rename_i t _
    cases h3
    have h4 := congrArg List.length h1
    rw [List.length_take, Nat.min_eq_left (by omega)] at h4
    refine ⟨List.prefix_append _ _, fun he => ?_, h4⟩
    have := congrArg List.length h1
    rw [List.length_take, he] at this
    rw [← he] at this
    simp only [← he] at hj
    omega
  · cases h3

/-- What `_read_items` can return on a truncated file: only the last item differs, and is a
proper prefix of the original.  `l` is the length of the file, `t` that of the complete file. -/
def LastCut (t l : Nat) (ws r : List PyStr) : Prop :=
  ∃ init w w', ws = init ++ [w] ∧ r = init ++ [w'] ∧ w' <+: w ∧ w' ≠ w ∧
    t + (utf8 w').length = l + (utf8 w).length

theorem readItems_trunc (ws : List PyStr) (h : ∀ w ∈ ws, ItemOk w) (pre : Bytes) :
    Trunc (readItems ws.length) pre (wordsEnc ws) fun l r =>
      LastCut (pre ++ wordsEnc ws).length l ws r := by
  induction ws generalizing pre with
  | nil => intro k hk; simp [wordsEnc] at hk
  | cons w ws ih =>
    have hw := h w (by simp)
    have hws := fun x hx => h x (List.mem_cons_of_mem w hx)
    simp only [List.length_cons, readItems, wordsEnc, itemEnc, List.append_assoc]
    intro k hk
    rcases take_append_cases _ _ k hk with ⟨h1, e⟩ | ⟨j, hj, e⟩
    · left
      rw [e]
      obtain ⟨er, her⟩ := readOne_short 4 pre (le 4 (utf8 w).length) (by simp) k h1
      exact ⟨er, rd_bind_error her⟩
    · rw [e, ← List.append_assoc,
        rd_bind_ok (readOne_parses 4 _ pre (by decide) (by decide) hw.2 _)]
      rcases take_append_cases _ _ j hj with ⟨h1, e'⟩ | ⟨i, hi, e'⟩
      · rw [e', rd_bind_ok (read_short _ (utf8 w) _ j rfl h1 (le_eq_lt4 hw.2))]
        cases hd : decode ((utf8 w).take j) with
        | error er => exact Or.inl ⟨er, rd_bind_error rfl⟩
        | ok w' =>
          rw [rd_bind_ok (rd_lift_ok _ _)]
          cases ws with
          | nil =>
            obtain ⟨p1, p2, p3⟩ := decode_take hw.1 h1 hd
            refine Or.inr ⟨[w'], _, rfl, [], w, w', rfl, rfl, p1, p2, ?_⟩
            have e1 := congrArg List.length e
            have e2 := congrArg List.length e'
            simp only [List.length_take, List.length_append, wordsEnc, List.length_nil, length_le]
              at e1 e2 hk hj ⊢
            omega
          | cons x xs =>
            left
            obtain ⟨er, her⟩ := (FailsEof.bind (readOne_eof 4) : FailsEof (readItems (xs.length + 1)))
              ⟨pre ++ le 4 (utf8 w).length ++ (utf8 w).take j,
                (pre ++ le 4 (utf8 w).length ++ (utf8 w).take j).length⟩ (Nat.le_refl _)
            exact ⟨er, rd_bind_error her⟩
      · rw [e', ← List.append_assoc,
          rd_bind_ok (read_parses _ (utf8 w) _ rfl (le_eq_lt4 hw.2) _), decode_utf8 w hw.1,
          rd_bind_ok (rd_lift_ok _ _)]
        rcases ih hws (pre ++ le 4 (utf8 w).length ++ utf8 w) i hi with ⟨er, her⟩ | ⟨r, s', hr, hc⟩
        · exact Or.inl ⟨er, rd_bind_error her⟩
        · obtain ⟨init, a, a', rfl, rfl, p⟩ := hc
          refine Or.inr ⟨w :: (init ++ [a']), s', rd_bind_ok hr, w :: init, a, a', rfl, rfl, p.1,
            p.2.1, ?_⟩
          have p3 := p.2.2
          have e1 := congrArg List.length e
          have e2 := congrArg List.length e'
          simp only [List.length_take, List.length_append, length_le] at e1 e2 hk hj p3 ⊢
          omega

theorem readItemsIdx_short (ws : List (PyStr × Nat)) (h : ∀ p ∈ ws, ItemOk p.1 ∧ p.2 < 256 ^ 8)
    (pre : Bytes) : FailsShort (readItemsIdx ws.length) pre (itemsIdxEnc ws) := by
  induction ws generalizing pre with
  | nil => exact FailsShort.nil _ _
  | cons p ws ih =>
    obtain ⟨w, i⟩ := p
    have hw := h (w, i) (by simp)
    have hws := fun x hx => h x (List.mem_cons_of_mem (w, i) hx)
    simp only [List.length_cons, readItemsIdx, itemsIdxEnc, itemEnc, List.append_assoc]
    refine FailsShort.bind (readOne_parses 4 _ pre (by decide) (by decide) hw.1.2)
      (readOne_short 4 _ _ (by simp)) ?_
    refine FailsShort.bind_weak (read_parses _ _ _ rfl (le_eq_lt4 hw.1.2)) (read_weak _ _ _ rfl) ?_ ?_
    · intro b
      exact FailsEof.bind_stays (StaysEof.lift _) fun c => FailsEof.bind (readOne_eof 8)
    · refine FailsShort.bind_nil (Parses.lift _ (decode_utf8 w hw.1.1)) ?_
      refine FailsShort.bind (readOne_parses 8 _ _ (by decide) (by decide) hw.2)
        (readOne_short 8 _ _ (by simp)) ?_
      have := FailsShort.bind (f := fun rest => pure ((w, i) :: rest)) (e2 := [])
        (readItemsIdx_parses ws hws _) (ih hws (pre ++ le 4 (utf8 w).length ++ utf8 w ++ le 8 i))
        (FailsShort.nil _ _)
      simpa using this

/-- The vocabulary read from a truncated chunk: same class and indexer, last word cut. -/
def VocabCut (t l : Nat) (v v' : Vocab) : Prop := LastCut t l v.words v'.words ∧ v'.sub = v.sub

theorem lift_vocab_trunc {t : Nat} {ws : List PyStr} {sub : Option Indexer} {m : Rd (List PyStr)}
    {pre enc : Bytes} (h : Trunc m pre enc fun l r => LastCut t l ws r) :
    Trunc (m >>= fun words => Rd.lift (Vocab.new words sub)) pre enc
      fun l v' => LastCut t l ws v'.words ∧ v'.sub = sub := by
  intro k hk
  rcases h k hk with ⟨e, he⟩ | ⟨r, s', hr, hc⟩
  · exact Or.inl ⟨e, rd_bind_error he⟩
  · rw [rd_bind_ok hr]
    cases hn : Vocab.new r sub with
    | error e => exact Or.inl ⟨e, rfl⟩
    | ok v' =>
      obtain ⟨_, rfl⟩ := Vocab.new_ok.mp hn
      exact Or.inr ⟨_, s', rfl, hc, rfl⟩

theorem Trunc.bind_first {m : Rd α} {f : α → Rd β} {pre e1 e2 : Bytes} {a : α}
    {P : Nat → β → Prop} (hp : Parses m pre e1 a) (h1 : FailsShort m pre e1)
    (h2 : Trunc (f a) (pre ++ e1) e2 P) : Trunc (m >>= f) pre (e1 ++ e2) P := by
  intro k hk
  rcases take_append_cases e1 e2 k hk with ⟨h, e⟩ | ⟨j, hj, e⟩
  · rw [e]
    obtain ⟨er, her⟩ := h1 k h
    exact Or.inl ⟨er, rd_bind_error her⟩
  · have hkj : pre.length + k = (pre ++ e1).length + j := by
      have := congrArg List.length e
      simp only [List.length_take, List.length_append] at this hk ⊢
      omega
    rw [e, ← List.append_assoc, rd_bind_ok (hp _), hkj]
    exact h2 j hj

theorem vocabRead_trunc {v : Vocab} (hw : VocabWF v) (hf : VocabFits v)
    (hne : ∀ ix, v.sub = some (.expl ix) → ix.ngrams ≠ []) (pre : Bytes) :
    Trunc (readVocabChunk v.chunkId) pre (vocabBody v) fun l v' =>
      VocabCut (pre ++ vocabBody v).length l v v' ∧ ∀ ix, v.sub ≠ some (.expl ix) := by
  obtain ⟨hitems, hlen, hsub⟩ := hf
  have hws := hw.sub
  unfold vocabBody Vocab.chunkId VocabCut
  cases hs : v.sub with
  | none =>
    simp only [readVocabChunk, readSimpleVocab]
    refine Trunc.bind_first (readOne_parses 8 _ _ (by decide) (by decide) hlen)
      (readOne_short 8 _ _ (by simp)) ?_
    intro k hk
    rcases lift_vocab_trunc (sub := none) (readItems_trunc _ hitems _) k hk with h | ⟨a, s', h, p⟩
    · exact Or.inl h
    · exact Or.inr ⟨a, s', h, by rw [← List.append_assoc]; exact p, by simp⟩
  | some sub =>
    rw [hs] at hsub hws
    cases sub with
    | fifu ix =>
      simp only [readVocabChunk, readBucketVocab] at *
      refine Trunc.bind_first (readRequired_parses [8, 4, 4, 4]
        [(8, v.words.length), (4, ix.minN), (4, ix.maxN), (4, ix.bucketsExp)] _ rfl (by decide)
        (by decide) ?_) (readRequired_short _ _ _ (by simp)) ?_
      · intro f hm
        simp only [List.mem_cons, List.not_mem_nil, or_false] at hm
        rcases hm with rfl | rfl | rfl | rfl
        · exact hlen
        · exact hsub.1
        · exact hsub.2.1
        · exact hsub.2.2
      · simp only [List.map_cons, List.map_nil, hws]
        intro k hk
        rcases lift_vocab_trunc (sub := some (.fifu ix)) (readItems_trunc _ hitems _) k hk with
          h | ⟨a, s', h, p⟩
        · exact Or.inl h
        · exact Or.inr ⟨a, s', h, by rw [← List.append_assoc]; exact p, by simp⟩
    | ft ix =>
      simp only [readVocabChunk, readFastTextVocab] at *
      refine Trunc.bind_first (readRequired_parses [8, 4, 4, 4]
        [(8, v.words.length), (4, ix.minN), (4, ix.maxN), (4, ix.nBuckets)] _ rfl (by decide)
        (by decide) ?_) (readRequired_short _ _ _ (by simp)) ?_
      · intro f hm
        simp only [List.mem_cons, List.not_mem_nil, or_false] at hm
        rcases hm with rfl | rfl | rfl | rfl
        · exact hlen
        · exact hsub.1
        · exact hsub.2.1
        · exact hsub.2.2
      · simp only [List.map_cons, List.map_nil, hws]
        intro k hk
        rcases lift_vocab_trunc (sub := some (.ft ix)) (readItems_trunc _ hitems _) k hk with
          h | ⟨a, s', h, p⟩
        · exact Or.inl h
        · exact Or.inr ⟨a, s', h, by rw [← List.append_assoc]; exact p, by simp⟩
    | expl ix =>
      simp only [readVocabChunk, readExplicitVocab] at *
      have hidx : ∀ p ∈ ngramItems ix, ItemOk p.1 ∧ p.2 < 256 ^ 8 := by
        intro p hp
        simp only [ngramItems, List.mem_map] at hp
        obtain ⟨g, hg, rfl⟩ := hp
        exact ⟨(hsub.2.2.2 g hg).1, (hsub.2.2.2 g hg).2.1⟩
      apply FailsShort.trunc
      refine FailsShort.bind (readRequired_parses [8, 8, 4, 4]
        [(8, v.words.length), (8, ix.ngrams.length), (4, ix.minN), (4, ix.maxN)] _ rfl (by decide)
        (by decide) ?_) (readRequired_short _ _ _ (by simp)) ?_
      · intro f hm
        simp only [List.mem_cons, List.not_mem_nil, or_false] at hm
        rcases hm with rfl | rfl | rfl | rfl
        · exact hlen
        · exact hsub.2.2.1
        · exact hsub.1
        · exact hsub.2.1
      · simp only [List.map_cons, List.map_nil]
        have hl : ix.ngrams.length = (ngramItems ix).length := by simp [ngramItems]
        have hnz : (ngramItems ix) ≠ [] := by
          have := hne ix hs
          simpa [ngramItems] using this
        rw [hl]
        refine FailsShort.bind_weak (readItems_parses _ hitems _) (readItems_weak _ hitems _) ?_ ?_
        · intro _
          obtain ⟨p, ps, hp⟩ := List.exists_cons_of_ne_nil hnz
          rw [hp]
          exact FailsEof.bind (FailsEof.bind (readOne_eof 4))
        · have := FailsShort.bind (f := fun items => do
              let index : Dict PyStr Int := Dict.ofPairs (items.map fun p => (p.1, (p.2 : Int)))
              let ix ← Rd.lift (ExplIndexer.new (items.map Prod.fst) ix.minN ix.maxN (some index))
              Rd.lift (Vocab.new v.words (some (.expl ix)))) (e2 := [])
            (readItemsIdx_parses _ hidx _) (readItemsIdx_short _ hidx (pre ++
              packRaw [(8, v.words.length), (8, (ngramItems ix).length), (4, ix.minN), (4, ix.maxN)] ++
              wordsEnc v.words)) (FailsShort.nil _ _)
          simpa using this

end FF
