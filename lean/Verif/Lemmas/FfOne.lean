import Verif.Lemmas.FfFile
import Verif.Lemmas.FindChunk
import Verif.Spec.FfOne
/-! Exactly which files the loaders of single parts accept. -/

namespace FF
open Fifu (HasAt Pad Head HeaderAt MetaAt WordsAt VocabAt StorageAt NormsAt Search First Exhausted WordsCut
  VocabCut VocabHere)

/-! ### Searching -/

theorem chunkId_le (c : ChunkId) : c.toNat ≤ 8 := by cases c <;> decide

theorem chunkId_of_le {n : Nat} (h : n ≤ 8) : ∃ c : ChunkId, c.toNat = n := by
  match n, h with
  | 0, _ => exact ⟨.header, rfl⟩
  | 1, _ => exact ⟨.simpleVocab, rfl⟩
  | 2, _ => exact ⟨.ndArray, rfl⟩
  | 3, _ => exact ⟨.bucketVocab, rfl⟩
  | 4, _ => exact ⟨.quantizedArray, rfl⟩
  | 5, _ => exact ⟨.metadata, rfl⟩
  | 6, _ => exact ⟨.ndNorms, rfl⟩
  | 7, _ => exact ⟨.fastTextVocab, rfl⟩
  | 8, _ => exact ⟨.explicitVocab, rfl⟩

theorem chunkId_inj {c d : ChunkId} (h : c.toNat = d.toNat) : c = d := by
  cases c <;> cases d <;> first | rfl | (exact absurd h (by decide))

theorem chunkId_mem {c : ChunkId} {ids : List ChunkId} : c.toNat ∈ ids.map ChunkId.toNat ↔ c ∈ ids := by
  constructor
  · intro h
    obtain ⟨d, hd, he⟩ := List.mem_map.mp h
    rw [← chunkId_inj he]; exact hd
  · exact List.mem_map_of_mem

theorem findChunkLoop_at {ids : List ChunkId} {bs : Bytes} {fuel : Nat} : ∀ {p : Nat} {c : ChunkId} {s' : RFile},
    findChunkLoop ids fuel ⟨bs, p⟩ = .ok (some c, s') →
      ∃ q, Search bs (ids.map ChunkId.toNat) p q c.toNat ∧ s' = ⟨bs, q + 12⟩ := by
  induction fuel with
  | zero => intro p c s' h; cases h
  | succ fuel ih =>
    intro p c s' h
    unfold findChunkLoop at h
    rw [rd_bind_iff] at h
    obtain ⟨o, s1, h1, h⟩ := h
    cases o with
    | none => cases h
    | some v =>
      obtain ⟨d, n⟩ := v
      rw [readChunkHeader_some] at h1
      obtain ⟨h1, h2, rfl⟩ := h1
      simp only at h
      by_cases hd : d ∈ ids
      · rw [if_pos hd] at h
        cases h
        exact ⟨p, .found ⟨n, h1, by rw [uint_eq]; exact h2⟩ (chunkId_mem.mpr hd), rfl⟩
      · rw [if_neg hd, rd_bind_iff] at h
        obtain ⟨_, s1, h3, h⟩ := h
        rw [seekCur_iff] at h3
        obtain ⟨h3, rfl⟩ := h3
        obtain ⟨q, h4, rfl⟩ := ih h
        exact ⟨q, .skip (by rw [uint_eq]; exact h2) (chunkId_le d) (fun h => hd (chunkId_mem.mp h)) h3 h4, rfl⟩

theorem findChunkLoop_of {ids : List ChunkId} {bs : Bytes} {p q id : Nat}
    (h : Search bs (ids.map ChunkId.toNat) p q id) : ∀ fuel, bs.length < p + fuel →
      ∃ c : ChunkId, c.toNat = id ∧ c ∈ ids ∧ findChunkLoop ids fuel ⟨bs, p⟩ = .ok (some c, ⟨bs, q + 12⟩) := by
  induction h with
  | @found p id head wanted =>
    intro fuel hf
    obtain ⟨n, h1, h2⟩ := head
    rw [uint_eq] at h2
    have hle := hasAt_le h2 (by intro h; have := congrArg List.length h; simp at this)
    simp only [List.length_append, length_le] at hle
    obtain ⟨c, hc, rfl⟩ := List.mem_map.mp wanted
    refine ⟨c, rfl, hc, ?_⟩
    obtain ⟨f, rfl⟩ : ∃ f, fuel = f + 1 := ⟨fuel - 1, by omega⟩
    unfold findChunkLoop
    rw [rd_bind_ok (readChunkHeader_some.mpr ⟨h1, h2, rfl⟩)]
    simp only
    rw [if_pos hc]
    rfl
  | @skip p q id other len head known unwanted bound rest ih =>
    intro fuel hf
    rw [uint_eq] at head
    have hle := hasAt_le head (by intro h; have := congrArg List.length h; simp at this)
    simp only [List.length_append, length_le] at hle
    obtain ⟨d, rfl⟩ := chunkId_of_le known
    rw [chunkId_mem] at unwanted
    obtain ⟨f, rfl⟩ : ∃ f, fuel = f + 1 := ⟨fuel - 1, by omega⟩
    obtain ⟨c, h1, h2, h3⟩ := ih f (by omega)
    refine ⟨c, h1, h2, ?_⟩
    unfold findChunkLoop
    rw [rd_bind_ok (readChunkHeader_some.mpr ⟨by omega, head, rfl⟩)]
    simp only
    rw [if_neg unwanted, rd_bind_ok ((seekCur_iff (u := ())).mpr ⟨bound, rfl⟩)]
    exact h3

theorem findChunkLoop_none_at {ids : List ChunkId} {bs : Bytes} {fuel : Nat} : ∀ {p : Nat} {s' : RFile},
    findChunkLoop ids fuel ⟨bs, p⟩ = .ok (none, s') → Exhausted bs (ids.map ChunkId.toNat) p := by
  induction fuel with
  | zero => intro p s' h; cases h
  | succ fuel ih =>
    intro p s' h
    unfold findChunkLoop at h
    rw [rd_bind_iff] at h
    obtain ⟨o, s1, h1, h⟩ := h
    cases o with
    | none => exact .stop (readChunkHeader_none.mp h1).1
    | some v =>
      obtain ⟨d, n⟩ := v
      rw [readChunkHeader_some] at h1
      obtain ⟨h1, h2, rfl⟩ := h1
      simp only at h
      by_cases hd : d ∈ ids
      · rw [if_pos hd] at h
        cases h
      · rw [if_neg hd, rd_bind_iff] at h
        obtain ⟨_, s1, h3, h⟩ := h
        rw [seekCur_iff] at h3
        obtain ⟨h3, rfl⟩ := h3
        exact .skip (by rw [uint_eq]; exact h2) (chunkId_le d) (fun h => hd (chunkId_mem.mp h)) h3 (ih h)

theorem findChunkLoop_none_of {ids : List ChunkId} {bs : Bytes} {p : Nat}
    (h : Exhausted bs (ids.map ChunkId.toNat) p) : ∀ fuel, bs.length < p + fuel → 0 < fuel →
      ∃ s', findChunkLoop ids fuel ⟨bs, p⟩ = .ok (none, s') := by
  induction h with
  | @stop p eof =>
    intro fuel hf h0
    obtain ⟨f, rfl⟩ : ∃ f, fuel = f + 1 := ⟨fuel - 1, by omega⟩
    unfold findChunkLoop
    rw [rd_bind_ok (readChunkHeader_none.mpr ⟨eof, rfl⟩)]
    exact ⟨_, rfl⟩
  | @skip p other len head known unwanted bound rest ih =>
    intro fuel hf h0
    rw [uint_eq] at head
    have hle := hasAt_le head (by intro h; have := congrArg List.length h; simp at this)
    simp only [List.length_append, length_le] at hle
    obtain ⟨d, rfl⟩ := chunkId_of_le known
    rw [chunkId_mem] at unwanted
    obtain ⟨f, rfl⟩ : ∃ f, fuel = f + 1 := ⟨fuel - 1, by omega⟩
    obtain ⟨s', h3⟩ := ih f (by omega) (by omega)
    refine ⟨s', ?_⟩
    unfold findChunkLoop
    rw [rd_bind_ok (readChunkHeader_some.mpr ⟨by omega, head, rfl⟩)]
    simp only
    rw [if_neg unwanted, rd_bind_ok ((seekCur_iff (u := ())).mpr ⟨bound, rfl⟩)]
    exact h3

theorem headerAt_unique {bs : Bytes} {a b : Nat} (h : HeaderAt bs a) (h' : HeaderAt bs b) : a = b := by
  obtain ⟨ids, h1⟩ := readHeader_iff.mpr ⟨a, h, rfl⟩
  obtain ⟨ids', h2⟩ := readHeader_iff.mpr ⟨b, h', rfl⟩
  rw [h1] at h2
  cases h2
  rfl

theorem findChunk_eq (ids : List ChunkId) (bs : Bytes) (pos : Nat) :
    findChunk ids ⟨bs, pos⟩ = (readHeader >>= fun _ => findChunkLoop ids (bs.length + 1)) ⟨bs, 0⟩ := by
  unfold findChunk
  have : seekSet 0 ⟨bs, pos⟩ = .ok ((), ⟨bs, 0⟩) := rfl
  exact rd_bind_ok this

theorem findChunk_iff {ids : List ChunkId} {bs : Bytes} {pos : Nat} {c : ChunkId} {s' : RFile} :
    findChunk ids ⟨bs, pos⟩ = .ok (some c, s') ↔
      ∃ q, First bs (ids.map ChunkId.toNat) q c.toNat ∧ s' = ⟨bs, q + 12⟩ := by
  rw [findChunk_eq, rd_bind_iff]
  constructor
  · rintro ⟨hdr, s1, h1, h⟩
    obtain ⟨p1, hh, rfl⟩ := readHeader_iff.mp ⟨hdr, h1⟩
    obtain ⟨q, h2, rfl⟩ := findChunkLoop_at h
    exact ⟨q, ⟨p1, hh, h2⟩, rfl⟩
  · rintro ⟨q, ⟨p1, hh, h2⟩, rfl⟩
    obtain ⟨hdr, h1⟩ := readHeader_iff.mpr ⟨p1, hh, rfl⟩
    obtain ⟨d, h3, _, h4⟩ := findChunkLoop_of h2 (bs.length + 1) (by omega)
    rw [chunkId_inj h3] at h4
    exact ⟨hdr, _, h1, h4⟩

theorem findChunk_none_iff {ids : List ChunkId} {bs : Bytes} {pos : Nat} :
    (∃ s', findChunk ids ⟨bs, pos⟩ = .ok (none, s')) ↔
      ∃ start, HeaderAt bs start ∧ Exhausted bs (ids.map ChunkId.toNat) start := by
  rw [findChunk_eq]
  constructor
  · rintro ⟨s', h⟩
    rw [rd_bind_iff] at h
    obtain ⟨hdr, s1, h1, h⟩ := h
    obtain ⟨p1, hh, rfl⟩ := readHeader_iff.mp ⟨hdr, h1⟩
    exact ⟨p1, hh, findChunkLoop_none_at h⟩
  · rintro ⟨p1, hh, h2⟩
    obtain ⟨hdr, h1⟩ := readHeader_iff.mpr ⟨p1, hh, rfl⟩
    obtain ⟨s', h4⟩ := findChunkLoop_none_of h2 (bs.length + 1) (by omega) (by omega)
    exact ⟨s', rd_bind_iff.mpr ⟨hdr, _, h1, h4⟩⟩

theorem search_head {bs : Bytes} {ids : List Nat} {p q id : Nat} (h : Search bs ids p q id) :
    Head bs q id ∧ id ∈ ids := by
  induction h with
  | found head wanted => exact ⟨head, wanted⟩
  | skip _ _ _ _ _ ih => exact ih

theorem first_head {bs : Bytes} {ids : List Nat} {q id : Nat} (h : First bs ids q id) :
    Head bs q id ∧ id ∈ ids := by
  obtain ⟨_, _, h⟩ := h
  exact search_head h

theorem head_unique {bs : Bytes} {q i j : Nat} (hi : i < 2 ^ 32) (hj : j < 2 ^ 32) (h : Head bs q i)
    (h' : Head bs q j) : i = j := by
  obtain ⟨n, _, h⟩ := h
  obtain ⟨n', _, h'⟩ := h'
  rw [uint_eq, hasAt_append] at h h'
  exact hasAt_le_unique (lt_of_lt_of_eq hi pow_32.symm) (lt_of_lt_of_eq hj pow_32.symm) h.1 h'.1

/-! ### Words -/

/-- `readItems`, including what happens at the end of the file. -/
theorem readItems_iff {n : Nat} : ∀ {bs : Bytes} {p : Nat} {ws : List PyStr} {s' : RFile},
    readItems n ⟨bs, p⟩ = .ok (ws, s') ↔ ws.length = n ∧
      ((∀ w ∈ ws, ItemOk w) ∧ HasAt bs p (wordsEnc ws) ∧ s' = ⟨bs, p + (wordsEnc ws).length⟩ ∨
        (∃ (init : List PyStr) (last : PyStr) (len : Nat), ws = init ++ [last] ∧ (∀ w ∈ init, ItemOk w) ∧
          last.any isSurrogate = false ∧ len < 256 ^ 4 ∧ (utf8 last).length < len ∧
          bs.drop p = wordsEnc init ++ le 4 len ++ utf8 last) ∧ s' = ⟨bs, bs.length⟩) := by
  induction n with
  | zero =>
    intro bs p ws s'
    constructor
    · intro h
      cases h
      exact ⟨rfl, Or.inl ⟨by simp, hasAt_nil, by simp [wordsEnc]⟩⟩
    · rintro ⟨h, h'⟩
      have : ws = [] := List.eq_nil_of_length_eq_zero h
      subst this
      rcases h' with ⟨_, _, rfl⟩ | ⟨⟨init, last, _, h, _⟩, _⟩
      · simp [wordsEnc]; rfl
      · simp at h
  | succ n ih =>
    intro bs p ws s'
    unfold readItems
    constructor
    · intro h
      rw [rd_bind_iff] at h
      obtain ⟨l, s1, h1, h⟩ := h
      obtain ⟨k1, k2, rfl⟩ := (readOne_iff (by decide) (by decide)).mp h1
      rw [rd_bind_iff] at h
      obtain ⟨buf, s1, h1, h⟩ := h
      rw [rd_bind_iff] at h
      obtain ⟨w, s2, h2, h⟩ := h
      obtain ⟨d2, d3⟩ := rd_lift_inv h2
      subst d3
      rw [rd_bind_iff] at h
      obtain ⟨rest, s3, h3, h⟩ := h
      cases h
      obtain ⟨b1, rfl, b2⟩ := read_at h1
      obtain ⟨rfl, hs⟩ := utf8_of_decode _ d2
      obtain ⟨e1, e2⟩ := ih.mp h3
      refine ⟨by rw [List.length_cons, e1], ?_⟩
      have hle := hasAt_le k2 (by intro h; have := congrArg List.length h; simp at this)
      rw [length_le] at hle
      by_cases hl : (utf8 w).length = l
      · have hw : ItemOk w := ⟨hs, by rw [hl]; exact k1⟩
        have hat : HasAt bs p (itemEnc w) := by
          unfold itemEnc
          rw [hasAt_append, length_le, hl]
          exact ⟨k2, b1⟩
        have hil : (itemEnc w).length = 4 + (utf8 w).length := by
          unfold itemEnc; rw [List.length_append, length_le]
        rcases e2 with ⟨j1, j2, rfl⟩ | ⟨⟨init, last, len, rfl, j1, j2, j3, j4, j5⟩, rfl⟩
        · refine Or.inl ⟨List.forall_mem_cons.mpr ⟨hw, j1⟩, ?_, ?_⟩
          · unfold wordsEnc
            rw [hasAt_append, hil, ← Nat.add_assoc]
            exact ⟨hat, j2⟩
          · simp only [wordsEnc, List.length_append, hil, RFile.mk.injEq, true_and]
            omega
        · refine Or.inr ⟨⟨w :: init, last, len, rfl, List.forall_mem_cons.mpr ⟨hw, j1⟩, j2, j3, j4, ?_⟩, rfl⟩
          have ht := hasAt_take hat
          rw [← List.take_append_drop (itemEnc w).length (bs.drop p), ht, List.drop_drop, hil,
            ← Nat.add_assoc, j5]
          simp only [wordsEnc, List.append_assoc]
      · have b2 : bs.length ≤ p + 4 + (utf8 w).length := by rcases b2 with h | h <;> omega
        have hlt := List.IsPrefix.length_le b1
        rw [List.length_drop] at hlt
        have hr : rest = [] := by
          rcases e2 with ⟨j1, j2, _⟩ | ⟨⟨init, last, len, rfl, j1, j2, j3, j4, j5⟩, _⟩
          · cases rest with
            | nil => rfl
            | cons x xs =>
              have := hasAt_le j2 (by
                intro h; have := congrArg List.length h; simp [wordsEnc, itemEnc] at this)
              simp only [wordsEnc, itemEnc, List.length_append, length_le] at this
              omega
          · have := congrArg List.length j5
            simp only [List.length_drop, List.length_append, length_le] at this
            omega
        subst hr
        have hn : n = 0 := e1.symm
        subst hn
        cases h3
        have hbl : (utf8 w).length < l := by
          unfold read at h1
          split at h1
          · simp only [Except.ok.injEq, Prod.mk.injEq] at h1
            have := List.length_take_le l (bs.drop (p + 4))
            rw [h1.1] at this
            omega
          · cases h1
        refine Or.inr ⟨⟨[], w, l, rfl, by simp, hs, k1, hbl, ?_⟩, ?_⟩
        · have ht := hasAt_take k2
          rw [length_le] at ht
          have ht' := hasAt_take b1
          rw [List.take_of_length_le (by rw [List.length_drop]; omega)] at ht'
          rw [← List.take_append_drop 4 (bs.drop p), ht, List.drop_drop, ht']
          simp [wordsEnc]
        · simp only [RFile.mk.injEq, true_and]
          omega
    · rintro ⟨hl, h⟩
      cases ws with
      | nil => simp at hl
      | cons w ws =>
        have hl' : ws.length = n := by simpa using hl
        rcases h with ⟨j1, j2, rfl⟩ | ⟨⟨init, last, len, hw, j1, j2, j3, j4, j5⟩, rfl⟩
        · rw [← hl']
          exact readItems_of j1 j2
        · cases init with
          | nil =>
            rw [List.nil_append, List.cons.injEq] at hw
            obtain ⟨rfl, rfl⟩ := hw
            subst hl'
            have hle : bs.length = p + 4 + (utf8 w).length := by
              have := congrArg List.length j5
              simp only [wordsEnc, List.length_drop, List.length_append, length_le, List.length_nil] at this
              omega
            have b1 : HasAt bs p (le 4 len) := ⟨utf8 w, by rw [j5]; simp [wordsEnc]⟩
            have b2 : bs.drop (p + 4) = utf8 w := by
              rw [← List.drop_drop, j5]
              simp only [wordsEnc, List.nil_append]
              rw [List.drop_left' (length_le _ _)]
            rw [rd_bind_ok ((readOne_iff (by decide) (by decide)).mpr ⟨j3, b1, rfl⟩)]
            have hread : read len ⟨bs, p + 4⟩ = .ok (utf8 w, ⟨bs, bs.length⟩) := by
              rw [read_ok_of_lt len _ (lt_trans j3 (by decide))]
              simp only [b2]
              rw [List.take_of_length_le (by omega), hle]
            rw [rd_bind_ok hread, rd_bind_ok (rd_lift_iff.mpr ⟨decode_utf8 _ j2, rfl⟩)]
            rfl
          | cons x init =>
            rw [List.cons_append, List.cons.injEq] at hw
            obtain ⟨rfl, rfl⟩ := hw
            have hi := j1 w (by simp)
            have j5' : bs.drop p = le 4 (utf8 w).length ++ (utf8 w ++ (wordsEnc init ++ le 4 len ++ utf8 last)) := by
              rw [j5]
              simp only [wordsEnc, itemEnc, List.append_assoc]
            have b1 : HasAt bs p (le 4 (utf8 w).length) := ⟨_, j5'.symm⟩
            have b2 : bs.drop (p + 4) = utf8 w ++ (wordsEnc init ++ le 4 len ++ utf8 last) := by
              rw [← List.drop_drop, j5', List.drop_left' (length_le _ _)]
            have b3 : HasAt bs (p + 4) (utf8 w) := ⟨_, b2.symm⟩
            rw [rd_bind_ok ((readOne_iff (by decide) (by decide)).mpr ⟨hi.2, b1, rfl⟩)]
            rw [rd_bind_ok (read_hasAt b3 (lt_trans hi.2 (by decide)))]
            rw [rd_bind_ok (rd_lift_iff.mpr ⟨decode_utf8 _ hi.1, rfl⟩)]
            rw [rd_bind_ok (ih.mpr ⟨hl', Or.inr ⟨⟨init, last, len, rfl, fun y hy => j1 y (by simp [hy]), j2, j3,
              j4, by rw [← List.drop_drop, b2, List.drop_left]⟩, rfl⟩⟩)]
            rfl

/-! ### Vocabularies -/

theorem readItems_words {n p : Nat} {bs : Bytes} {ws : List PyStr} (hn : n < 256 ^ 8) (hnd : ws.Nodup)
    {s' : RFile} (h : readItems n ⟨bs, p⟩ = .ok (ws, s')) :
    ws.length = n ∧ ((∃ stop, WordsAt bs p ws stop ∧ s' = ⟨bs, stop⟩) ∨
      WordsCut bs p ws ∧ s' = ⟨bs, bs.length⟩) := by
  obtain ⟨h1, h2⟩ := readItems_iff.mp h
  have hn' : ws.length < 2 ^ 64 := by rw [h1]; exact lt_of_lt_of_eq hn pow_64
  refine ⟨h1, ?_⟩
  obtain ⟨k1, k2, rfl⟩ | ⟨⟨init, last, len, rfl, k1, k2, k3, k4, k5⟩, rfl⟩ := h2
  · refine Or.inl ⟨_, ⟨hnd, fun w hw => storable_iff.mpr (k1 w hw), hn', ?_, rfl⟩, ?_⟩
    · rw [words_eq]; exact k2
    · rw [words_eq]
  · refine Or.inr ⟨⟨hnd, hn', init, last, len, rfl, fun w hw => storable_iff.mpr (k1 w hw), noSurr_iff.mpr k2,
      lt_of_lt_of_eq k3 pow_32, k4, ?_⟩, rfl⟩
    rw [words_eq, uint_eq]; exact k5

theorem readItems_wordsCut {p : Nat} {bs : Bytes} {ws : List PyStr} (h : WordsCut bs p ws) :
    readItems ws.length ⟨bs, p⟩ = .ok (ws, ⟨bs, bs.length⟩) := by
  obtain ⟨_, _, init, last, len, rfl, k1, k2, k3, k4, k5⟩ := h
  refine readItems_iff.mpr ⟨rfl, Or.inr ⟨⟨init, last, len, rfl, fun w hw => storable_iff.mp (k1 w hw),
    noSurr_iff.mp k2, lt_of_lt_of_eq k3 pow_32.symm, k4, ?_⟩, rfl⟩⟩
  rw [words_eq, uint_eq] at k5; exact k5

theorem readVocabChunk_at {c : ChunkId} {bs : Bytes} {p : Nat} {v : Vocab} {s' : RFile}
    (hh : Head bs p c.toNat) (h : readVocabChunk c ⟨bs, p + 12⟩ = .ok (v, s')) : VocabHere bs p v := by
  cases c with
  | simpleVocab =>
    simp only [readVocabChunk] at h
    unfold readSimpleVocab at h
    rw [rd_bind_iff] at h
    obtain ⟨n, s1, h1, h⟩ := h
    obtain ⟨k1, k2, rfl⟩ := (readOne_iff (by decide) (by decide)).mp h1
    rw [rd_bind_iff] at h
    obtain ⟨ws, s1, h2, h⟩ := h
    rw [rd_lift_iff, Vocab.new_iff] at h
    obtain ⟨⟨hnd, rfl⟩, rfl⟩ := h
    obtain ⟨rfl, ⟨stop, e1, rfl⟩ | ⟨e1, rfl⟩⟩ := readItems_words k1 hnd h2
    · exact Or.inl ⟨_, stop, .simple hh (by rw [uint_eq]; exact k2) e1⟩
    · exact Or.inr (.simple hh (by rw [uint_eq]; exact k2) e1)
  | bucketVocab =>
    simp only [readVocabChunk] at h
    unfold readBucketVocab at h
    rw [rd_bind_iff] at h
    obtain ⟨vs, s1, h1, h⟩ := h
    have hl := readRequired_length (by decide) h1
    match vs, hl with
    | [n, mn, mx, e], _ =>
      obtain ⟨⟨k1, k2, k3, k4⟩, k5, rfl⟩ := (readRequired4_iff (by decide) (by decide)).mp h1
      simp only at h
      rw [rd_bind_iff] at h
      obtain ⟨ws, s1, h2, h⟩ := h
      rw [rd_bind_iff] at h
      obtain ⟨ix, s2, h3, h⟩ := h
      rw [rd_lift_iff, fifuNew_iff] at h3
      obtain ⟨⟨rfl, i1, i2, i3, i4, i5⟩, rfl⟩ := h3
      rw [rd_lift_iff, Vocab.new_iff] at h
      obtain ⟨⟨hnd, rfl⟩, rfl⟩ := h
      obtain ⟨rfl, ⟨stop, e1, rfl⟩ | ⟨e1, rfl⟩⟩ := readItems_words k1 hnd h2
      · exact Or.inl ⟨_, stop, .bucket hh (by rw [uint_eq]; exact k5) e1 i1 i2 i3 i4 i5⟩
      · exact Or.inr (.bucket hh (by rw [uint_eq]; exact k5) e1 i1 i2 i3 i4 i5)
  | fastTextVocab =>
    simp only [readVocabChunk] at h
    unfold readFastTextVocab at h
    rw [rd_bind_iff] at h
    obtain ⟨vs, s1, h1, h⟩ := h
    have hl := readRequired_length (by decide) h1
    match vs, hl with
    | [n, mn, mx, e], _ =>
      obtain ⟨⟨k1, k2, k3, k4⟩, k5, rfl⟩ := (readRequired4_iff (by decide) (by decide)).mp h1
      simp only at h
      rw [rd_bind_iff] at h
      obtain ⟨ws, s1, h2, h⟩ := h
      rw [rd_bind_iff] at h
      obtain ⟨ix, s2, h3, h⟩ := h
      rw [rd_lift_iff, ftNew_iff] at h3
      obtain ⟨⟨rfl, i1, i2, i3, i4, i5⟩, rfl⟩ := h3
      rw [rd_lift_iff, Vocab.new_iff] at h
      obtain ⟨⟨hnd, rfl⟩, rfl⟩ := h
      obtain ⟨rfl, ⟨stop, e1, rfl⟩ | ⟨e1, rfl⟩⟩ := readItems_words k1 hnd h2
      · exact Or.inl ⟨_, stop, .fastText hh (by rw [uint_eq]; exact k5) e1 i1 i2 i3 i4 i5⟩
      · exact Or.inr (.fastText hh (by rw [uint_eq]; exact k5) e1 i1 i2 i3 i4 i5)
  | explicitVocab =>
    simp only [readVocabChunk] at h
    unfold readExplicitVocab at h
    rw [rd_bind_iff] at h
    obtain ⟨vs, s1, h1, h⟩ := h
    have hl := readRequired_length (by decide) h1
    match vs, hl with
    | [n, ng, mn, mx], _ =>
      obtain ⟨⟨k1, k2, k3, k4⟩, k5, rfl⟩ := (readRequired4_iff (by decide) (by decide)).mp h1
      simp only at h
      rw [rd_bind_iff] at h
      obtain ⟨ws, s1, h2, h⟩ := h
      rw [rd_bind_iff] at h
      obtain ⟨grams, s2, h3, h⟩ := h
      rw [rd_bind_iff] at h
      obtain ⟨ix, s3, h4, h⟩ := h
      rw [rd_lift_iff, explNew_iff] at h4
      obtain ⟨⟨i0, i1, i2, i3, i4, bound, i5, rfl⟩, rfl⟩ := h4
      rw [rd_lift_iff, Vocab.new_iff] at h
      obtain ⟨⟨hnd, rfl⟩, rfl⟩ := h
      obtain ⟨rfl, ⟨mid, e1, rfl⟩ | ⟨e1, rfl⟩⟩ := readItems_words k1 hnd h2
      · obtain ⟨rfl, j2, j3, rfl⟩ := readItemsIdx_at h3
        exact Or.inl ⟨_, _, .explicit hh (by rw [uint_eq]; exact k5) e1 i2 i3 i4 i0 i1
          (lt_of_lt_of_eq k2 pow_64) (fun g hg => ⟨storable_iff.mpr (j2 g hg).1,
            lt_of_lt_of_eq (j2 g hg).2 pow_64⟩) i5 (by rw [grams_eq]; exact j3) rfl⟩
      · exfalso
        obtain ⟨rfl, j2, j3, _⟩ := readItemsIdx_at h3
        obtain ⟨g, gs, rfl⟩ := List.exists_cons_of_ne_nil i0
        have hl : 0 < (itemsIdxEnc (g :: gs)).length := by
          rw [← grams_eq]; simp [uint_eq, Fifu.str]
        have := hasAt_le j3 (List.length_pos_iff.mp hl)
        omega
  | _ => cases h

/-- The chunk that holds a vocabulary. -/
theorem readVocabChunk_of {bs : Bytes} {p : Nat} {v : Vocab} (h : VocabHere bs p v) :
    ∃ c : ChunkId, Head bs p c.toNat ∧ ∃ s', readVocabChunk c ⟨bs, p + 12⟩ = .ok (v, s') := by
  obtain ⟨rows, stop, h⟩ | h := h
  · obtain ⟨c, h1, h2, h3⟩ := loadVocabPart_of h
    refine ⟨c, h2, ⟨bs, stop⟩, ?_⟩
    cases c <;> first | exact h3 | cases h3 | exact absurd rfl h1
  · cases h with
    | simple head count wat =>
      refine ⟨.simpleVocab, head, ⟨bs, bs.length⟩, ?_⟩
      simp only [readVocabChunk]
      unfold readSimpleVocab
      rw [uint_eq] at count
      rw [rd_bind_ok ((readOne_iff (by decide) (by decide)).mpr
        ⟨lt_of_lt_of_eq wat.2.1 pow_64.symm, count, rfl⟩)]
      rw [rd_bind_ok (readItems_wordsCut wat), rd_lift_iff, Vocab.new_iff]
      exact ⟨⟨wat.1, rfl⟩, rfl⟩
    | bucket head fields wat i1 i2 i3 i4 i5 =>
      refine ⟨.bucketVocab, head, ⟨bs, bs.length⟩, ?_⟩
      simp only [readVocabChunk]
      unfold readBucketVocab
      rw [uint_eq] at fields
      rw [rd_bind_ok ((readRequired4_iff (by decide) (by decide)).mpr
        ⟨⟨lt_of_lt_of_eq wat.2.1 pow_64.symm, by omega, by omega, by omega⟩, fields, rfl⟩)]
      simp only
      rw [rd_bind_ok (readItems_wordsCut wat)]
      rw [rd_bind_ok (rd_lift_iff.mpr ⟨fifuNew_iff.mpr ⟨rfl, i1, i2, i3, i4, i5⟩, rfl⟩)]
      rw [rd_lift_iff, Vocab.new_iff]
      exact ⟨⟨wat.1, rfl⟩, rfl⟩
    | fastText head fields wat i1 i2 i3 i4 i5 =>
      refine ⟨.fastTextVocab, head, ⟨bs, bs.length⟩, ?_⟩
      simp only [readVocabChunk]
      unfold readFastTextVocab
      rw [uint_eq] at fields
      rw [rd_bind_ok ((readRequired4_iff (by decide) (by decide)).mpr
        ⟨⟨lt_of_lt_of_eq wat.2.1 pow_64.symm, by omega, by omega, by omega⟩, fields, rfl⟩)]
      simp only
      rw [rd_bind_ok (readItems_wordsCut wat)]
      rw [rd_bind_ok (rd_lift_iff.mpr ⟨ftNew_iff.mpr ⟨rfl, i1, i2, i3, i4, i5⟩, rfl⟩)]
      rw [rd_lift_iff, Vocab.new_iff]
      exact ⟨⟨wat.1, rfl⟩, rfl⟩

/-! ### The loaders -/

/-- A loader that searches for a chunk and reads it. -/
theorem search_run_iff {α : Type} {ids : List ChunkId} {bs : Bytes} {a : α} {k : Option ChunkId → Rd α}
    (hnone : ∀ s, ∃ e, k none s = .error e) :
    Rd.run (findChunk ids >>= k) bs = .ok a ↔
      ∃ (q : Nat) (c : ChunkId), First bs (ids.map ChunkId.toNat) q c.toNat ∧
        ∃ s', k (some c) ⟨bs, q + 12⟩ = .ok (a, s') := by
  rw [rd_run_iff]
  constructor
  · rintro ⟨s', h⟩
    rw [rd_bind_iff] at h
    obtain ⟨o, s1, h1, h⟩ := h
    cases o with
    | none =>
      obtain ⟨e, he⟩ := hnone s1
      rw [he] at h; cases h
    | some c =>
      obtain ⟨q, h2, rfl⟩ := findChunk_iff.mp h1
      exact ⟨q, c, h2, s', h⟩
  · rintro ⟨q, c, h1, s', h2⟩
    exact ⟨s', rd_bind_iff.mpr ⟨_, _, findChunk_iff.mpr ⟨q, h1, rfl⟩, h2⟩⟩

theorem head_chunk {bs : Bytes} {q : Nat} {c d : ChunkId} (h : Head bs q c.toNat) (h' : Head bs q d.toNat) :
    c = d := by
  have := chunkId_le c
  have := chunkId_le d
  exact chunkId_inj (head_unique (by omega) (by omega) h h')

/-- A vocabulary loader which looks for the chunks `ids`. -/
theorem vocab_run_iff {ids : List ChunkId} {bs : Bytes} {v : Vocab} {k : Option ChunkId → Rd Vocab}
    (hnone : ∀ s, ∃ e, k none s = .error e) (hk : ∀ c ∈ ids, k (some c) = readVocabChunk c) :
    Rd.run (findChunk ids >>= k) bs = .ok v ↔
      ∃ q id, First bs (ids.map ChunkId.toNat) q id ∧ VocabHere bs q v := by
  rw [search_run_iff hnone]
  constructor
  · rintro ⟨q, c, h1, s', h2⟩
    obtain ⟨hh, hm⟩ := first_head h1
    rw [hk c (chunkId_mem.mp hm)] at h2
    exact ⟨q, _, h1, readVocabChunk_at hh h2⟩
  · rintro ⟨q, id, h1, h2⟩
    obtain ⟨hh, hm⟩ := first_head h1
    obtain ⟨c, hc, rfl⟩ := List.mem_map.mp hm
    obtain ⟨d, hd, s', h3⟩ := readVocabChunk_of h2
    obtain rfl := head_chunk hh hd
    exact ⟨q, c, h1, s', by rw [hk c hc]; exact h3⟩

theorem loadStoragePart_skip {mmap : Bool} {bs : Bytes} {q : Nat} {c : ChunkId} (h : Head bs q c.toNat) :
    loadStoragePart mmap ⟨bs, q⟩ = (match c with
      | .ndArray => loadNd mmap
      | .quantizedArray => loadQuant mmap
      | _ => Rd.fail .formatError : Rd (Storage F32)) ⟨bs, q + 12⟩ := by
  obtain ⟨n, h1, h2⟩ := h
  rw [uint_eq] at h2
  unfold loadStoragePart
  rw [rd_bind_ok (readRequiredChunkHeader_iff.mpr ⟨h1, h2, rfl⟩)]
  cases c <;> rfl

theorem storage_run_iff {ids : List ChunkId} {bs : Bytes} {mmap : Bool} {st : Storage F32}
    {k : Option ChunkId → Rd (Storage F32)} (hlen : bs.length + 4 < 2 ^ 63)
    (hnone : ∀ s, ∃ e, k none s = .error e)
    (hk : ∀ c ∈ ids, c = .ndArray ∧ k (some c) = loadNd mmap ∨
      c = .quantizedArray ∧ k (some c) = loadQuant mmap) :
    Rd.run (findChunk ids >>= k) bs = .ok st ↔
      ∃ q id stop, First bs (ids.map ChunkId.toNat) q id ∧ StorageAt bs q st stop ∧
        (mmap → Fifu.Mappable bs st stop) := by
  rw [search_run_iff hnone]
  have hpart : ∀ q (c : ChunkId), First bs (ids.map ChunkId.toNat) q c.toNat →
      k (some c) ⟨bs, q + 12⟩ = loadStoragePart mmap ⟨bs, q⟩ := by
    intro q c h1
    obtain ⟨hh, hm⟩ := first_head h1
    rw [loadStoragePart_skip hh]
    rcases hk c (chunkId_mem.mp hm) with ⟨rfl, h⟩ | ⟨rfl, h⟩ <;> rw [h]
  have hiff : ∀ q, (∃ s', loadStoragePart mmap ⟨bs, q⟩ = .ok (st, s')) ↔
      ∃ stop, StorageAt bs q st stop ∧ (mmap → Fifu.Mappable bs st stop) := by
    intro q
    cases mmap with
    | false =>
      constructor
      · rintro ⟨s', h⟩
        obtain ⟨stop, h, _⟩ := (loadStoragePart_at hlen).mp h
        exact ⟨stop, h, by simp⟩
      · rintro ⟨stop, h, _⟩
        exact ⟨_, (loadStoragePart_at hlen).mpr ⟨stop, h, rfl⟩⟩
    | true =>
      constructor
      · rintro ⟨s', h⟩
        obtain ⟨stop, h, h', _⟩ := (loadStoragePart_mmap_at hlen).mp h
        exact ⟨stop, h, fun _ => h'⟩
      · rintro ⟨stop, h, h'⟩
        exact ⟨_, (loadStoragePart_mmap_at hlen).mpr ⟨stop, h, h' rfl, rfl⟩⟩
  constructor
  · rintro ⟨q, c, h1, s', h2⟩
    rw [hpart q c h1] at h2
    obtain ⟨stop, h3, h4⟩ := (hiff q).mp ⟨s', h2⟩
    exact ⟨q, _, stop, h1, h3, h4⟩
  · rintro ⟨q, id, stop, h1, h3, h4⟩
    obtain ⟨c, hc, rfl⟩ := List.mem_map.mp (first_head h1).2
    obtain ⟨s', h2⟩ := (hiff q).mpr ⟨stop, h3, h4⟩
    exact ⟨q, c, h1, s', by rw [hpart q c h1]; exact h2⟩

theorem loadNorms_iff {bs : Bytes} {xs : List F32} (hlen : bs.length + 4 < 2 ^ 63) :
    Rd.run loadNorms bs = .ok xs ↔ ∃ q, First bs [6] q 6 ∧ NormsAt bs q xs.length (some xs) := by
  unfold loadNorms
  rw [search_run_iff (fun s => ⟨_, rfl⟩)]
  have hn : ∀ q, Head bs q 6 → ((∃ s', readNorms ⟨bs, q + 12⟩ = .ok (xs, s')) ↔
      NormsAt bs q xs.length (some xs)) := by
    intro q hh
    rw [readNorms_at hlen rfl]
    unfold NormsAt
    simp only [floats_eq, uint_eq]
    constructor
    · rintro ⟨n, h1, h2, h3, h4⟩
      exact ⟨n, _, hh, h1, pad_iff.mpr rfl, trivial, h2, h3, h4⟩
    · rintro ⟨n, pad, _, h1, hp, _, h2, h3, h4⟩
      obtain rfl := pad_iff.mp hp
      exact ⟨n, h1, h2, h3, h4⟩
  constructor
  · rintro ⟨q, c, h1, h2⟩
    obtain ⟨hh, hm⟩ := first_head h1
    obtain rfl : c = .ndNorms := by simpa using chunkId_mem.mp hm
    exact ⟨q, h1, (hn q hh).mp h2⟩
  · rintro ⟨q, h1, h2⟩
    exact ⟨q, .ndNorms, h1, (hn q (first_head h1).1).mpr h2⟩

theorem loadMetadata_iff {T : Toml} {bs : Bytes} {m : Meta} (hlen : bs.length < 2 ^ 63) :
    Rd.run (loadMetadata T) bs = .ok m ↔ ∃ q stop, First bs [5] q 5 ∧ MetaAt T bs q (some m) stop := by
  unfold loadMetadata
  rw [search_run_iff (fun s => ⟨_, rfl⟩)]
  constructor
  · rintro ⟨q, c, h1, s', h2⟩
    obtain ⟨hh, hm⟩ := first_head h1
    obtain rfl : c = .metadata := by simpa using chunkId_mem.mp hm
    obtain ⟨stop, h3, _⟩ := (readMetadata_iff hlen).mp h2
    exact ⟨q, stop, h1, h3⟩
  · rintro ⟨q, stop, h1, h2⟩
    exact ⟨q, .metadata, h1, _, (readMetadata_iff hlen).mpr ⟨stop, h2, rfl⟩⟩

end FF
