import Verif.Lemmas.Prim
import Verif.Model.Embeddings
import Verif.Lemmas.Explicit
/-! Serialisation of vocabularies: writer inversion and exact parsing. -/

namespace FF

/-- A string that can be stored: encodable and its length fits the length field. -/
def ItemOk (w : PyStr) : Prop := w.any isSurrogate = false ∧ (utf8 w).length < 256 ^ 4

/-- Length-prefixed item. -/
def itemEnc (w : PyStr) : Bytes := le 4 (utf8 w).length ++ utf8 w

def wordsEnc : List PyStr → Bytes
  | [] => []
  | w :: ws => itemEnc w ++ wordsEnc ws

/-- Length-prefixed item followed by its index. -/
def itemsIdxEnc : List (PyStr × Nat) → Bytes
  | [] => []
  | (w, i) :: ws => itemEnc w ++ (le 8 i ++ itemsIdxEnc ws)

def byteSum (ws : List PyStr) : Nat := (ws.map fun w => (utf8 w).length).sum

theorem length_wordsEnc (ws : List PyStr) : (wordsEnc ws).length = 4 * ws.length + byteSum ws := by
  induction ws with
  | nil => rfl
  | cons w ws ih => simp [wordsEnc, itemEnc, ih, byteSum]; omega

theorem length_itemsIdxEnc (ws : List (PyStr × Nat)) :
    (itemsIdxEnc ws).length = 12 * ws.length + byteSum (ws.map Prod.fst) := by
  induction ws with
  | nil => rfl
  | cons w ws ih => obtain ⟨w, i⟩ := w; simp [itemsIdxEnc, itemEnc, ih, byteSum]; omega

/-! ### Writers -/

theorem encodeAll_ok {ws : List PyStr} {bs : List Bytes} (h : encodeAll ws = .ok bs) :
    bs = ws.map utf8 ∧ ∀ w ∈ ws, w.any isSurrogate = false := by
  induction ws generalizing bs with
  | nil => cases h; simp
  | cons w ws ih =>
    unfold encodeAll at h
    obtain ⟨b, h1, h⟩ := res_bind_inv h
    obtain ⟨bs', h2, h⟩ := res_bind_inv h
    obtain ⟨rfl, hw⟩ := encode_ok h1
    obtain ⟨rfl, hws⟩ := ih h2
    cases h
    refine ⟨rfl, ?_⟩
    intro x hx
    rcases List.mem_cons.mp hx with rfl | hx
    · exact hw
    · exact hws x hx

theorem byteLenSum_ok {ws : List PyStr} {n : Nat} (h : byteLenSum ws = .ok n) : n = byteSum ws := by
  unfold byteLenSum at h
  obtain ⟨bs, h1, h⟩ := res_bind_inv h
  obtain ⟨rfl, _⟩ := encodeAll_ok h1
  cases h
  simp [byteSum, Function.comp_def]

theorem binaryListSize_ok {ws : List PyStr} {n : Nat} (h : binaryListSize ws = .ok n) :
    n = byteSum ws + 8 + ws.length * 4 := by
  unfold binaryListSize at h
  obtain ⟨m, h1, h⟩ := res_bind_inv h
  have := byteLenSum_ok h1
  cases h
  simp [this, calcsize]

theorem writeWords_inv {ws : List PyStr} {s s' : Bytes} {u : Unit}
    (h : writeWords ws s = (.ok u, s')) :
    s' = s ++ wordsEnc ws ∧ (∀ w ∈ ws, ItemOk w) ∧ (s.length < maxSize → s'.length < maxSize) := by
  induction ws generalizing s with
  | nil =>
    obtain ⟨_, rfl⟩ := wr_pure_inv (a := ()) h
    simp [wordsEnc]
  | cons w ws ih =>
    obtain ⟨_, s1, h1, h⟩ := wr_bind_inv h
    obtain ⟨b, s2, h2, h1⟩ := wr_bind_inv h1
    obtain ⟨he, rfl⟩ := wr_lift_inv h2
    obtain ⟨rfl, hw⟩ := encode_ok he
    obtain ⟨_, s3, h3, h1⟩ := wr_bind_inv h1
    obtain ⟨rfl, hr, _⟩ := writeBinary_inv h3
    obtain ⟨rfl, hl⟩ := wr_bytes_inv h1
    obtain ⟨rfl, hws, hl2⟩ := ih h
    refine ⟨?_, ?_, fun _ => hl2 hl⟩
    · simp [wordsEnc, itemEnc, packRaw]
    · intro x hx
      rcases List.mem_cons.mp hx with rfl | hx
      · exact ⟨hw, by simpa using hr⟩
      · exact hws x hx

/-! ### Readers -/

theorem le_eq_lt4 {n : Nat} (h : n < 256 ^ 4) : n < maxSize := by
  have : (256 : Nat) ^ 4 < maxSize := by decide
  omega

theorem readItem_parses (w : PyStr) (h : ItemOk w) (pre : Bytes) :
    Parses (do
      let itemLength ← readOne 4
      let buf ← read itemLength
      Rd.lift (decode buf)) pre (itemEnc w) w := by
  unfold itemEnc
  refine Parses.bind (readOne_parses 4 _ pre (by decide) (by decide) h.2) ?_
  refine Parses.bind_last (read_parses _ _ _ rfl (le_eq_lt4 h.2)) ?_
  exact Parses.lift _ (decode_utf8 w h.1)

theorem readItems_parses (ws : List PyStr) (h : ∀ w ∈ ws, ItemOk w) (pre : Bytes) :
    Parses (readItems ws.length) pre (wordsEnc ws) ws := by
  induction ws generalizing pre with
  | nil => exact Parses.pure pre []
  | cons w ws ih =>
    have hw := h w (by simp)
    simp only [List.length_cons, readItems, wordsEnc, itemEnc, List.append_assoc]
    refine Parses.bind (readOne_parses 4 _ pre (by decide) (by decide) hw.2) ?_
    refine Parses.bind (read_parses _ _ _ rfl (le_eq_lt4 hw.2)) ?_
    refine Parses.bind_nil (Parses.lift _ (decode_utf8 w hw.1)) ?_
    refine Parses.bind_last (ih (fun x hx => h x (List.mem_cons_of_mem _ hx)) _) ?_
    exact Parses.pure _ _

theorem readItems_stays (n : Nat) : StaysEof (readItems n) := by
  cases n with
  | zero => exact StaysEof.pure _
  | succ n => exact (FailsEof.bind (readOne_eof 4)).stays

theorem readItems_weak (ws : List PyStr) (h : ∀ w ∈ ws, ItemOk w) (pre : Bytes) :
    WeakShort (readItems ws.length) pre (wordsEnc ws) := by
  induction ws generalizing pre with
  | nil => exact WeakShort.nil _ _
  | cons w ws ih =>
    have hw := h w (by simp)
    simp only [List.length_cons, readItems, wordsEnc, itemEnc, List.append_assoc]
    refine WeakShort.bind (readOne_parses 4 _ pre (by decide) (by decide) hw.2)
      (readOne_short 4 _ _ (by simp)).weak ?_ ?_
    · intro a
      refine StaysEof.bind (read_stays a) fun b => ?_
      refine StaysEof.bind (StaysEof.lift _) fun c => ?_
      exact StaysEof.bind (readItems_stays _) fun d => StaysEof.pure _
    · refine WeakShort.bind (read_parses _ _ _ rfl (le_eq_lt4 hw.2)) (read_weak _ _ _ rfl) ?_ ?_
      · intro b
        refine StaysEof.bind (StaysEof.lift _) fun c => ?_
        exact StaysEof.bind (readItems_stays _) fun d => StaysEof.pure _
      · have := WeakShort.bind (e1 := []) (f := fun word => do
            let rest ← readItems ws.length
            pure (word :: rest)) (Parses.lift (r := decode (utf8 w)) (pre ++ le 4 (utf8 w).length ++ utf8 w)
            (decode_utf8 w hw.1)) (WeakShort.nil _ _)
          (fun c => StaysEof.bind (readItems_stays _) fun d => StaysEof.pure _)
          (e2 := wordsEnc ws) ?_
        · simpa using this
        · have h3 := WeakShort.bind (f := fun rest => pure (w :: rest))
            (readItems_parses ws (fun x hx => h x (List.mem_cons_of_mem _ hx)) (pre ++ le 4 (utf8 w).length ++ utf8 w ++ []))
            (ih (fun x hx => h x (List.mem_cons_of_mem _ hx)) _)
            (fun c => StaysEof.pure _) (e2 := []) (WeakShort.nil _ _)
          simpa using h3

theorem readItemsIdx_parses (ws : List (PyStr × Nat)) (h : ∀ p ∈ ws, ItemOk p.1 ∧ p.2 < 256 ^ 8)
    (pre : Bytes) : Parses (readItemsIdx ws.length) pre (itemsIdxEnc ws) ws := by
  induction ws generalizing pre with
  | nil => exact Parses.pure pre []
  | cons p ws ih =>
    obtain ⟨w, i⟩ := p
    have hw := h (w, i) (by simp)
    simp only [List.length_cons, readItemsIdx, itemsIdxEnc, itemEnc, List.append_assoc]
    refine Parses.bind (readOne_parses 4 _ pre (by decide) (by decide) hw.1.2) ?_
    refine Parses.bind (read_parses _ _ _ rfl (le_eq_lt4 hw.1.2)) ?_
    refine Parses.bind_nil (Parses.lift _ (decode_utf8 w hw.1.1)) ?_
    refine Parses.bind (readOne_parses 8 _ _ (by decide) (by decide) hw.2) ?_
    refine Parses.bind_last (ih (fun x hx => h x (List.mem_cons_of_mem _ hx)) _) ?_
    exact Parses.pure _ _

theorem readItemsIdx_stays (n : Nat) : StaysEof (readItemsIdx n) := by
  cases n with
  | zero => exact StaysEof.pure _
  | succ n => exact (FailsEof.bind (readOne_eof 4)).stays

theorem WeakShort.bind_nil {α β : Type} {m : Rd α} {f : α → Rd β} {pre e : Bytes} {a : α}
    (h1 : Parses m pre [] a) (h2 : WeakShort (f a) pre e) : WeakShort (m >>= f) pre e := by
  intro k hk
  have h1' := h1 (e.take k)
  simp only [List.append_nil] at h1'
  have := h2 k hk
  unfold EofOrFail at this ⊢
  rw [rd_bind_ok h1']
  exact this

theorem FailsShort.bind_nil {α β : Type} {m : Rd α} {f : α → Rd β} {pre e : Bytes} {a : α}
    (h1 : Parses m pre [] a) (h2 : FailsShort (f a) pre e) : FailsShort (m >>= f) pre e := by
  intro k hk
  have h1' := h1 (e.take k)
  simp only [List.append_nil] at h1'
  obtain ⟨er, h⟩ := h2 k hk
  exact ⟨er, by rw [rd_bind_ok h1']; exact h⟩

theorem WeakShort.bind_last {α β : Type} {m : Rd α} {f : α → Rd β} {pre e : Bytes} {a : α}
    (hp : Parses m pre e a) (h1 : WeakShort m pre e) (hf : ∀ a, StaysEof (f a)) :
    WeakShort (m >>= f) pre e := by
  have := WeakShort.bind hp h1 hf (e2 := []) (WeakShort.nil _ _)
  simpa using this

theorem readItemsIdx_weak (ws : List (PyStr × Nat)) (h : ∀ p ∈ ws, ItemOk p.1 ∧ p.2 < 256 ^ 8)
    (pre : Bytes) : WeakShort (readItemsIdx ws.length) pre (itemsIdxEnc ws) := by
  induction ws generalizing pre with
  | nil => exact WeakShort.nil _ _
  | cons p ws ih =>
    obtain ⟨w, i⟩ := p
    have hw := h (w, i) (by simp)
    simp only [List.length_cons, readItemsIdx, itemsIdxEnc, itemEnc, List.append_assoc]
    refine WeakShort.bind (readOne_parses 4 _ pre (by decide) (by decide) hw.1.2)
      (readOne_short 4 _ _ (by simp)).weak ?_ ?_
    · intro a
      refine StaysEof.bind (read_stays a) fun b => ?_
      refine StaysEof.bind (StaysEof.lift _) fun c => ?_
      exact (FailsEof.bind (readOne_eof 8)).stays
    · refine WeakShort.bind (read_parses _ _ _ rfl (le_eq_lt4 hw.1.2)) (read_weak _ _ _ rfl) ?_ ?_
      · intro b
        refine StaysEof.bind (StaysEof.lift _) fun c => ?_
        exact (FailsEof.bind (readOne_eof 8)).stays
      · refine WeakShort.bind_nil (Parses.lift _ (decode_utf8 w hw.1.1)) ?_
        refine WeakShort.bind (readOne_parses 8 _ _ (by decide) (by decide) hw.2)
          (readOne_short 8 _ _ (by simp)).weak ?_ ?_
        · intro a
          exact StaysEof.bind (readItemsIdx_stays _) fun d => StaysEof.pure _
        · exact WeakShort.bind_last
            (readItemsIdx_parses ws (fun x hx => h x (List.mem_cons_of_mem _ hx)) _)
            (ih (fun x hx => h x (List.mem_cons_of_mem _ hx)) _) (fun _ => StaysEof.pure _)

/-! ### Vocabulary chunks -/

/-- Index of an n-gram as stored. -/
def ngramIdx (ix : ExplIndexer) (g : PyStr) : Nat := ((Dict.get? ix.index g).getD 0).toNat

/-- (n-gram, index) in list order -/
def ngramItems (ix : ExplIndexer) : List (PyStr × Nat) := ix.ngrams.map fun g => (g, ngramIdx ix g)

/-- What the write succeeded implies for a vocabulary. -/
def VocabFits (v : Vocab) : Prop :=
  (∀ w ∈ v.words, ItemOk w) ∧ v.words.length < 256 ^ 8 ∧
  match v.sub with
  | none => True
  | some (.fifu ix) => ix.minN < 256 ^ 4 ∧ ix.maxN < 256 ^ 4 ∧ ix.bucketsExp < 256 ^ 4
  | some (.ft ix) => ix.minN < 256 ^ 4 ∧ ix.maxN < 256 ^ 4 ∧ ix.nBuckets < 256 ^ 4
  | some (.expl ix) => ix.minN < 256 ^ 4 ∧ ix.maxN < 256 ^ 4 ∧ ix.ngrams.length < 256 ^ 8 ∧
      ∀ g ∈ ix.ngrams, ItemOk g ∧ ngramIdx ix g < 256 ^ 8 ∧
        Dict.get? ix.index g = some (ngramIdx ix g : Int)

/-- Content of a vocabulary chunk after the chunk header. -/
def vocabBody (v : Vocab) : Bytes :=
  match v.sub with
  | none => le 8 v.words.length ++ wordsEnc v.words
  | some (.fifu ix) => packRaw [(8, v.words.length), (4, ix.minN), (4, ix.maxN), (4, ix.bucketsExp)]
      ++ wordsEnc v.words
  | some (.ft ix) => packRaw [(8, v.words.length), (4, ix.minN), (4, ix.maxN), (4, ix.nBuckets)]
      ++ wordsEnc v.words
  | some (.expl ix) => packRaw [(8, v.words.length), (8, ix.ngrams.length), (4, ix.minN), (4, ix.maxN)]
      ++ (wordsEnc v.words ++ itemsIdxEnc (ngramItems ix))

/-- The length field written into the chunk header. -/
def vocabLen (v : Vocab) : Nat :=
  match v.sub with
  | none => 8 + v.words.length * 4 + byteSum v.words
  | some (.fifu _) => byteSum v.words + 8 + v.words.length * 4 + 8 + 4
  | some (.ft _) => byteSum v.words + 8 + v.words.length * 4 + 8 + 4
  | some (.expl ix) => byteSum v.words + 8 + v.words.length * 4 +
      (byteSum ix.ngrams + 8 + ix.ngrams.length * 4) + 8

def chunkHead (c : ChunkId) (n : Nat) : Bytes := packRaw [(4, c.toNat), (8, n)]

@[simp] theorem length_chunkHead (c : ChunkId) (n : Nat) : (chunkHead c n).length = 12 := by
  simp [chunkHead, calcsize]

theorem packRaw_cons (w n : Nat) (fs : List (Nat × Nat)) :
    packRaw ((w, n) :: fs) = le w n ++ packRaw fs := rfl

theorem writeNgrams_inv {ix : ExplIndexer} {gs : List PyStr} {s s' : Bytes} {u : Unit}
    (h : forWr (fun g => do
      let b ← Wr.lift (encode g)
      writeBinary [(4, b.length)]
      Wr.bytes b
      match Dict.get? ix.index g with
      | none => Wr.fail .keyError
      | some i => do
        let d ← Wr.lift (packInt 8 i)
        Wr.bytes d) gs s = (.ok u, s')) :
    s' = s ++ itemsIdxEnc (gs.map fun g => (g, ngramIdx ix g)) ∧
    (∀ g ∈ gs, ItemOk g ∧ ngramIdx ix g < 256 ^ 8 ∧
        Dict.get? ix.index g = some (ngramIdx ix g : Int)) ∧
    (s.length < maxSize → s'.length < maxSize) := by
  induction gs generalizing s with
  | nil =>
    obtain ⟨_, rfl⟩ := wr_pure_inv (a := ()) h
    simp [itemsIdxEnc]
  | cons g gs ih =>
    obtain ⟨_, s1, h1, h⟩ := wr_bind_inv h
    obtain ⟨b, s2, h2, h1⟩ := wr_bind_inv h1
    obtain ⟨he, rfl⟩ := wr_lift_inv h2
    obtain ⟨rfl, hw⟩ := encode_ok he
    obtain ⟨_, s3, h3, h1⟩ := wr_bind_inv h1
    obtain ⟨rfl, hr, _⟩ := writeBinary_inv h3
    obtain ⟨_, s4, h4, h1⟩ := wr_bind_inv h1
    obtain ⟨rfl, _⟩ := wr_bytes_inv h4
    cases hg : Dict.get? ix.index g with
    | none => rw [hg] at h1; exact (wr_fail_inv h1).elim
    | some i =>
      rw [hg] at h1
      obtain ⟨d, s5, h5, h1⟩ := wr_bind_inv h1
      obtain ⟨hp, rfl⟩ := wr_lift_inv h5
      unfold packInt at hp
      split at hp
      · rename_i hi
        obtain ⟨rfl, hir⟩ := pack_ok hp
        obtain ⟨rfl, hl⟩ := wr_bytes_inv h1
        obtain ⟨rfl, hgs, hl2⟩ := ih h
        have hidx : ngramIdx ix g = i.toNat := by simp [ngramIdx, hg]
        refine ⟨?_, ?_, fun _ => hl2 hl⟩
        · simp [itemsIdxEnc, itemEnc, packRaw, hidx]
        · intro x hx
          rcases List.mem_cons.mp hx with rfl | hx
          · refine ⟨⟨hw, by simpa using hr⟩, ?_, ?_⟩
            · rw [hidx]; simpa using hir
            · rw [hg, hidx]; congr 1; omega
          · exact hgs x hx
      · cases hp

theorem vocabWrite_inv {v : Vocab} {s s' : Bytes} {u : Unit}
    (h : v.writeChunk s = (.ok u, s')) :
    s' = s ++ (chunkHead v.chunkId (vocabLen v) ++ vocabBody v) ∧ VocabFits v ∧
      vocabLen v < 256 ^ 8 ∧ s'.length < maxSize := by
  unfold Vocab.writeChunk at h
  unfold VocabFits vocabBody vocabLen Vocab.chunkId
  rcases hs : v.sub with _ | (ix | ix | ix) <;> rw [hs] at h <;> simp only at h
  · unfold writeSimpleVocab at h
    obtain ⟨_, s1, h1, h⟩ := wr_bind_inv h
    obtain ⟨rfl, _, _⟩ := writeBinary_inv h1
    obtain ⟨n, s2, h2, h⟩ := wr_bind_inv h
    obtain ⟨hn, rfl⟩ := wr_lift_inv h2
    have hn := byteLenSum_ok hn
    subst hn
    obtain ⟨_, s3, h3, h⟩ := wr_bind_inv h
    obtain ⟨rfl, hr, hl⟩ := writeBinary_inv h3
    obtain ⟨rfl, hw, hl2⟩ := writeWords_inv h
    have hl3 := hl2 hl
    simp only [calcsize, List.sum_cons, List.sum_nil, Nat.add_zero] at hr hl3 ⊢
    refine ⟨?_, ⟨hw, ?_, trivial⟩, ?_, hl3⟩
    · simp [chunkHead, packRaw]
    · exact hr (8, v.words.length) (by simp)
    · exact hr (8, _) (List.mem_cons_self)
  · unfold writeBucketVocab at h
    obtain ⟨n, s2, h2, h⟩ := wr_bind_inv h
    obtain ⟨hn, rfl⟩ := wr_lift_inv h2
    have hn := binaryListSize_ok hn
    subst hn
    obtain ⟨_, s3, h3, h⟩ := wr_bind_inv h
    obtain ⟨rfl, hr, hl⟩ := writeBinary_inv h3
    obtain ⟨rfl, hw, hl2⟩ := writeWords_inv h
    have hl3 := hl2 hl
    simp only [calcsize, List.sum_cons, List.sum_nil, Nat.add_zero, Nat.reduceAdd] at hr hl3 ⊢
    refine ⟨?_, ⟨hw, ?_, ?_, ?_, ?_⟩, ?_, hl3⟩
    · simp [chunkHead, packRaw]
    · exact hr (8, v.words.length) (by simp)
    · exact hr (4, ix.minN) (by simp)
    · exact hr (4, ix.maxN) (by simp)
    · exact hr (4, ix.bucketsExp) (by simp)
    · exact hr (8, _) (List.mem_cons_of_mem _ List.mem_cons_self)
  · unfold writeBucketVocab at h
    obtain ⟨n, s2, h2, h⟩ := wr_bind_inv h
    obtain ⟨hn, rfl⟩ := wr_lift_inv h2
    have hn := binaryListSize_ok hn
    subst hn
    obtain ⟨_, s3, h3, h⟩ := wr_bind_inv h
    obtain ⟨rfl, hr, hl⟩ := writeBinary_inv h3
    obtain ⟨rfl, hw, hl2⟩ := writeWords_inv h
    have hl3 := hl2 hl
    simp only [calcsize, List.sum_cons, List.sum_nil, Nat.add_zero, Nat.reduceAdd] at hr hl3 ⊢
    refine ⟨?_, ⟨hw, ?_, ?_, ?_, ?_⟩, ?_, hl3⟩
    · simp [chunkHead, packRaw, FtIndexer.upperBound]
    · exact hr (8, v.words.length) (by simp)
    · exact hr (4, ix.minN) (by simp)
    · exact hr (4, ix.maxN) (by simp)
    · exact hr (4, ix.nBuckets) (by simp [FtIndexer.upperBound])
    · exact hr (8, _) (List.mem_cons_of_mem _ List.mem_cons_self)
  · unfold writeExplicitVocab at h
    obtain ⟨n, s2, h2, h⟩ := wr_bind_inv h
    obtain ⟨hn, rfl⟩ := wr_lift_inv h2
    have hn := binaryListSize_ok hn
    subst hn
    obtain ⟨n, s2, h2, h⟩ := wr_bind_inv h
    obtain ⟨hn, rfl⟩ := wr_lift_inv h2
    have hn := binaryListSize_ok hn
    subst hn
    obtain ⟨_, s3, h3, h⟩ := wr_bind_inv h
    obtain ⟨rfl, hr, hl⟩ := writeBinary_inv h3
    obtain ⟨_, s4, h4, h⟩ := wr_bind_inv h
    obtain ⟨rfl, hw, hl2⟩ := writeWords_inv h4
    obtain ⟨rfl, hg, hl4⟩ := writeNgrams_inv h
    have hl3 := hl4 (hl2 hl)
    simp only [calcsize, List.sum_cons, List.sum_nil, Nat.add_zero, Nat.reduceAdd] at hr hl3 ⊢
    refine ⟨?_, ⟨hw, ?_, ?_, ?_, ?_, hg⟩, ?_, hl3⟩
    · simp [chunkHead, packRaw, ngramItems]
    · exact hr (8, v.words.length) (by simp)
    · exact hr (4, ix.minN) (by simp)
    · exact hr (4, ix.maxN) (by simp)
    · exact hr (8, ix.ngrams.length) (by simp)
    · exact hr (8, _) (List.mem_cons_of_mem _ List.mem_cons_self)

/-- The length field is the length of the content, except for explicit vocabularies,
where it is 8 bytes per n-gram short. -/
theorem vocabLen_eq (v : Vocab) : (vocabBody v).length = vocabLen v +
    match v.sub with
    | some (.expl ix) => 8 * ix.ngrams.length
    | _ => 0 := by
  unfold vocabBody vocabLen
  rcases hs : v.sub with _ | (ix | ix | ix) <;> simp only
  · simp [length_wordsEnc]; omega
  · simp [length_wordsEnc, calcsize]; omega
  · simp [length_wordsEnc, calcsize]; omega
  · simp [length_wordsEnc, calcsize, length_itemsIdxEnc, ngramItems, Function.comp_def]; omega

/-- Vocabularies as built by the constructors; for explicit vocabularies with a non-empty
n-gram list. -/
structure VocabWF (v : Vocab) : Prop where
  nodup : v.words.Nodup
  index : v.index = enumItems v.words
  sub : match v.sub with
    | none => True
    | some (.fifu ix) => FifuIndexer.new ix.bucketsExp ix.minN ix.maxN = .ok ix
    | some (.ft ix) => FtIndexer.new ix.nBuckets ix.minN ix.maxN = .ok ix
    | some (.expl ix) => ExplValid ix

theorem VocabWF.new {v : Vocab} (h : VocabWF v) : Vocab.new v.words v.sub = .ok v := by
  rw [Vocab.new_ok]
  refine ⟨h.nodup, ?_⟩
  rw [← h.index]

/-- Explicit indexer after a round trip: dictionary entries in n-gram list order. -/
def canonExpl (ix : ExplIndexer) : ExplIndexer :=
  { ix with index := ix.ngrams.map fun g => (g, ((ngramIdx ix g : Nat) : Int)) }

/-- Vocabulary after a round trip. -/
def canonVocab (v : Vocab) : Vocab :=
  match v.sub with
  | some (.expl ix) => { v with sub := some (.expl (canonExpl ix)) }
  | _ => v

theorem canonExpl_perm {ix : ExplIndexer} (hv : ExplValid ix)
    (hf : ∀ g ∈ ix.ngrams, Dict.get? ix.index g = some (ngramIdx ix g : Int)) :
    (canonExpl ix).index.Perm ix.index := by
  have hk : (Dict.keys ix.index).Nodup := hv.keys.nodup_iff.mpr hv.nodup
  have h1 : (canonExpl ix).index.Nodup := by
    unfold canonExpl
    exact List.Nodup.map (fun a b h => by simpa using congrArg Prod.fst h) hv.nodup
  have h2 : ix.index.Nodup := List.Nodup.of_map Prod.fst hk
  rw [List.perm_ext_iff_of_nodup h1 h2]
  rintro ⟨g, i⟩
  unfold canonExpl
  simp only [List.mem_map, Prod.mk.injEq]
  constructor
  · rintro ⟨g', hg, rfl, rfl⟩
    exact Dict.get?_mem (hf _ hg)
  · intro hm
    have hg : g ∈ ix.ngrams := hv.keys.mem_iff.mp (List.mem_map.mpr ⟨_, hm, rfl⟩)
    refine ⟨g, hg, rfl, ?_⟩
    have := Dict.get?_of_mem hk hm
    rw [hf g hg] at this
    simpa using this

theorem canonExpl_valid {ix : ExplIndexer} (hv : ExplValid ix)
    (hf : ∀ g ∈ ix.ngrams, Dict.get? ix.index g = some (ngramIdx ix g : Int)) :
    ExplValid (canonExpl ix) := by
  have hp := canonExpl_perm hv hf
  have hps : ((canonExpl ix).index.map Prod.snd).Perm (ix.index.map Prod.snd) := hp.map _
  refine ⟨hv.minPos, hv.minMax, hv.max32, hv.nodup, ?_, ?_, ?_, ?_⟩
  · exact (hp.map Prod.fst).trans hv.keys
  · rw [hps.dedup.length_eq]; exact hv.bound
  · intro x hx; exact hv.top x (hps.mem_iff.mp hx)
  · intro hne; exact hps.mem_iff.mpr (hv.topMem hne)

theorem vocabRead_parses {v : Vocab} (hw : VocabWF v) (hf : VocabFits v)
    (hne : ∀ ix, v.sub = some (.expl ix) → ix.ngrams ≠ []) (pre : Bytes) :
    Parses (readVocabChunk v.chunkId) pre (vocabBody v) (canonVocab v) := by
  obtain ⟨hitems, hlen, hsub⟩ := hf
  have hnew := hw.new
  have hws := hw.sub
  unfold vocabBody canonVocab Vocab.chunkId
  cases hs : v.sub with
  | none =>
    simp only [readVocabChunk, readSimpleVocab]
    refine Parses.bind (readOne_parses 8 _ _ (by decide) (by decide) hlen) ?_
    refine Parses.bind_last (readItems_parses _ hitems _) ?_
    exact Parses.lift _ (by rw [← hs]; exact hnew)
  | some sub =>
    rw [hs] at hsub hws
    cases sub with
    | fifu ix =>
      simp only [readVocabChunk, readBucketVocab] at *
      refine Parses.bind (readRequired_parses [8, 4, 4, 4]
        [(8, v.words.length), (4, ix.minN), (4, ix.maxN), (4, ix.bucketsExp)] _ rfl (by decide)
        (by decide) ?_) ?_
      · intro f hm
        simp only [List.mem_cons, List.not_mem_nil, or_false] at hm
        rcases hm with rfl | rfl | rfl | rfl
        · exact hlen
        · exact hsub.1
        · exact hsub.2.1
        · exact hsub.2.2
      · simp only [List.map_cons, List.map_nil]
        refine Parses.bind_last (readItems_parses _ hitems _) ?_
        refine Parses.bind_nil (Parses.lift _ hws) ?_
        exact Parses.lift _ (by rw [← hs]; exact hnew)
    | ft ix =>
      simp only [readVocabChunk, readFastTextVocab] at *
      refine Parses.bind (readRequired_parses [8, 4, 4, 4]
        [(8, v.words.length), (4, ix.minN), (4, ix.maxN), (4, ix.nBuckets)] _ rfl (by decide)
        (by decide) ?_) ?_
      · intro f hm
        simp only [List.mem_cons, List.not_mem_nil, or_false] at hm
        rcases hm with rfl | rfl | rfl | rfl
        · exact hlen
        · exact hsub.1
        · exact hsub.2.1
        · exact hsub.2.2
      · simp only [List.map_cons, List.map_nil]
        refine Parses.bind_last (readItems_parses _ hitems _) ?_
        refine Parses.bind_nil (Parses.lift _ hws) ?_
        exact Parses.lift _ (by rw [← hs]; exact hnew)
    | expl ix =>
      simp only [readVocabChunk, readExplicitVocab] at *
      refine Parses.bind (readRequired_parses [8, 8, 4, 4]
        [(8, v.words.length), (8, ix.ngrams.length), (4, ix.minN), (4, ix.maxN)] _ rfl (by decide)
        (by decide) ?_) ?_
      · intro f hm
        simp only [List.mem_cons, List.not_mem_nil, or_false] at hm
        rcases hm with rfl | rfl | rfl | rfl
        · exact hlen
        · exact hsub.2.2.1
        · exact hsub.1
        · exact hsub.2.1
      · simp only [List.map_cons, List.map_nil]
        refine Parses.bind (readItems_parses _ hitems _) ?_
        have hl : ix.ngrams.length = (ngramItems ix).length := by simp [ngramItems]
        rw [hl]
        refine Parses.bind_last (readItemsIdx_parses (ngramItems ix) ?_ _) ?_
        · intro p hp
          simp only [ngramItems, List.mem_map] at hp
          obtain ⟨g, hg, rfl⟩ := hp
          exact ⟨(hsub.2.2.2 g hg).1, (hsub.2.2.2 g hg).2.1⟩
        · have e1 : (ngramItems ix).map Prod.fst = ix.ngrams := by
            simp [ngramItems, Function.comp_def]
          have hfst : ((canonExpl ix).index.map Prod.fst) = ix.ngrams := by
            simp [canonExpl, Function.comp_def]
          have e2 : Dict.ofPairs ((ngramItems ix).map fun p => (p.1, (p.2 : Int)))
              = (canonExpl ix).index := by
            have : ((ngramItems ix).map fun p => (p.1, (p.2 : Int))) = (canonExpl ix).index := by
              simp [ngramItems, canonExpl, Function.comp_def]
            rw [this]
            exact Dict.ofPairs_eq _ (by rw [hfst]; exact hws.nodup)
          have hc := canonExpl_valid hws (fun g hg => (hsub.2.2.2 g hg).2.2)
          have hn : ExplIndexer.new ix.ngrams ix.minN ix.maxN (some (canonExpl ix).index)
              = .ok (canonExpl ix) := by
            rw [explNew_some (by unfold Dict.keys; rw [hfst]; exact hws.nodup)]
            exact ⟨hc, rfl, rfl, rfl, rfl, hne ix hs⟩
          rw [e1, e2]
          refine Parses.bind_nil (Parses.lift _ hn) ?_
          refine Parses.lift _ ?_
          rw [Vocab.new_ok]
          exact ⟨hw.nodup, by rw [← hw.index]⟩

/-- Inside a vocabulary chunk, a truncated file makes the reader raise or leaves it at the
end of the file. -/
theorem vocabRead_weak {v : Vocab} (hf : VocabFits v) (pre : Bytes) :
    WeakShort (readVocabChunk v.chunkId) pre (vocabBody v) := by
  obtain ⟨hitems, hlen, hsub⟩ := hf
  unfold vocabBody Vocab.chunkId
  cases hs : v.sub with
  | none =>
    simp only [readVocabChunk, readSimpleVocab]
    refine WeakShort.bind (readOne_parses 8 _ _ (by decide) (by decide) hlen)
      (readOne_short 8 _ _ (by simp)).weak ?_ ?_
    · intro a; exact StaysEof.bind (readItems_stays _) fun _ => StaysEof.lift _
    · exact WeakShort.bind_last (readItems_parses _ hitems _) (readItems_weak _ hitems _)
        fun _ => StaysEof.lift _
  | some sub =>
    rw [hs] at hsub
    cases sub with
    | fifu ix =>
      simp only [readVocabChunk, readBucketVocab] at *
      refine WeakShort.bind (readRequired_parses [8, 4, 4, 4]
        [(8, v.words.length), (4, ix.minN), (4, ix.maxN), (4, ix.bucketsExp)] _ rfl (by decide)
        (by decide) ?_) (readRequired_short _ _ _ (by simp)).weak ?_ ?_
      · intro f hm
        simp only [List.mem_cons, List.not_mem_nil, or_false] at hm
        rcases hm with rfl | rfl | rfl | rfl
        · exact hlen
        · exact hsub.1
        · exact hsub.2.1
        · exact hsub.2.2
      · intro a
        split
        · refine StaysEof.bind (readItems_stays _) fun _ => ?_
          exact StaysEof.bind (StaysEof.lift _) fun _ => StaysEof.lift _
        · exact StaysEof.fail _
      · simp only [List.map_cons, List.map_nil]
        exact WeakShort.bind_last (readItems_parses _ hitems _) (readItems_weak _ hitems _)
          fun _ => StaysEof.bind (StaysEof.lift _) fun _ => StaysEof.lift _
    | ft ix =>
      simp only [readVocabChunk, readFastTextVocab] at *
      refine WeakShort.bind (readRequired_parses [8, 4, 4, 4]
        [(8, v.words.length), (4, ix.minN), (4, ix.maxN), (4, ix.nBuckets)] _ rfl (by decide)
        (by decide) ?_) (readRequired_short _ _ _ (by simp)).weak ?_ ?_
      · intro f hm
        simp only [List.mem_cons, List.not_mem_nil, or_false] at hm
        rcases hm with rfl | rfl | rfl | rfl
        · exact hlen
        · exact hsub.1
        · exact hsub.2.1
        · exact hsub.2.2
      · intro a
        split
        · refine StaysEof.bind (readItems_stays _) fun _ => ?_
          exact StaysEof.bind (StaysEof.lift _) fun _ => StaysEof.lift _
        · exact StaysEof.fail _
      · simp only [List.map_cons, List.map_nil]
        exact WeakShort.bind_last (readItems_parses _ hitems _) (readItems_weak _ hitems _)
          fun _ => StaysEof.bind (StaysEof.lift _) fun _ => StaysEof.lift _
    | expl ix =>
      simp only [readVocabChunk, readExplicitVocab] at *
      have hidx : ∀ p ∈ ngramItems ix, ItemOk p.1 ∧ p.2 < 256 ^ 8 := by
        intro p hp
        simp only [ngramItems, List.mem_map] at hp
        obtain ⟨g, hg, rfl⟩ := hp
        exact ⟨(hsub.2.2.2 g hg).1, (hsub.2.2.2 g hg).2.1⟩
      refine WeakShort.bind (readRequired_parses [8, 8, 4, 4]
        [(8, v.words.length), (8, ix.ngrams.length), (4, ix.minN), (4, ix.maxN)] _ rfl (by decide)
        (by decide) ?_) (readRequired_short _ _ _ (by simp)).weak ?_ ?_
      · intro f hm
        simp only [List.mem_cons, List.not_mem_nil, or_false] at hm
        rcases hm with rfl | rfl | rfl | rfl
        · exact hlen
        · exact hsub.2.2.1
        · exact hsub.1
        · exact hsub.2.1
      · intro a
        split
        · refine StaysEof.bind (readItems_stays _) fun _ => ?_
          refine StaysEof.bind (readItemsIdx_stays _) fun _ => ?_
          exact StaysEof.bind (StaysEof.lift _) fun _ => StaysEof.lift _
        · exact StaysEof.fail _
      · simp only [List.map_cons, List.map_nil]
        have hl : ix.ngrams.length = (ngramItems ix).length := by simp [ngramItems]
        rw [hl]
        refine WeakShort.bind (readItems_parses _ hitems _) (readItems_weak _ hitems _) ?_ ?_
        · intro _
          refine StaysEof.bind (readItemsIdx_stays _) fun _ => ?_
          exact StaysEof.bind (StaysEof.lift _) fun _ => StaysEof.lift _
        · exact WeakShort.bind_last (readItemsIdx_parses _ hidx _) (readItemsIdx_weak _ hidx _)
            fun _ => StaysEof.bind (StaysEof.lift _) fun _ => StaysEof.lift _

theorem loadVocabPart_eq (v : Vocab) : loadVocabPart v.chunkId = readVocabChunk v.chunkId := by
  unfold Vocab.chunkId
  cases v.sub with
  | none => rfl
  | some s => cases s <;> rfl

end FF
