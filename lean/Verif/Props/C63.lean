import Verif.Lemmas.FfOne
import Verif.Props.C61
/-! C63: exactly which files the loaders of single parts accept. -/

namespace FF

open Fifu (First Exhausted HeaderAt VocabHere StorageAt NormsAt MetaAt Mappable)

/-- `find_chunk`: the first of the wanted chunks, reached by the announced lengths; the file is left behind
the head of that chunk. -/
theorem C63_find (ids : List ChunkId) (bs : Bytes) (pos : Nat) (c : ChunkId) (s' : RFile) :
    findChunk ids ⟨bs, pos⟩ = .ok (some c, s') ↔
      ∃ q, First bs (ids.map ChunkId.toNat) q c.toNat ∧ s' = ⟨bs, q + 12⟩ :=
  findChunk_iff

/-- `find_chunk` returns `None` if and only if the announced lengths lead past the end without meeting one
of the wanted chunks. -/
theorem C63_find_none (ids : List ChunkId) (bs : Bytes) (pos : Nat) :
    (∃ s', findChunk ids ⟨bs, pos⟩ = .ok (none, s')) ↔
      ∃ start, HeaderAt bs start ∧ Exhausted bs (ids.map ChunkId.toNat) start :=
  findChunk_none_iff

/-- `load_vocab` returns `v` if and only if the first vocabulary chunk contains `v`. -/
theorem C63_vocab (bs : Bytes) (v : Vocab) :
    Rd.run loadVocab bs = .ok v ↔ ∃ q id, First bs [1, 7, 8, 3] q id ∧ VocabHere bs q v :=
  vocab_run_iff (ids := [.simpleVocab, .fastTextVocab, .explicitVocab, .bucketVocab])
    (fun _ => ⟨_, rfl⟩) (fun _ _ => rfl)

/-- `load_simple_vocab` -/
theorem C63_simple (bs : Bytes) (v : Vocab) :
    Rd.run loadSimpleVocab bs = .ok v ↔ ∃ q, First bs [1] q 1 ∧ VocabHere bs q v := by
  refine Iff.trans (vocab_run_iff (ids := [.simpleVocab]) (fun _ => ⟨_, rfl⟩) (by
    intro c hc; rw [List.mem_singleton] at hc; subst hc; rfl)) ?_
  constructor
  · rintro ⟨q, id, h, h'⟩
    obtain rfl : id = 1 := List.mem_singleton.mp (first_head h).2
    exact ⟨q, h, h'⟩
  · rintro ⟨q, h, h'⟩; exact ⟨q, 1, h, h'⟩

/-- `load_finalfusion_bucket_vocab` -/
theorem C63_bucket (bs : Bytes) (v : Vocab) :
    Rd.run loadBucketVocab bs = .ok v ↔ ∃ q, First bs [3] q 3 ∧ VocabHere bs q v := by
  refine Iff.trans (vocab_run_iff (ids := [.bucketVocab]) (fun _ => ⟨_, rfl⟩) (by
    intro c hc; rw [List.mem_singleton] at hc; subst hc; rfl)) ?_
  constructor
  · rintro ⟨q, id, h, h'⟩
    obtain rfl : id = 3 := List.mem_singleton.mp (first_head h).2
    exact ⟨q, h, h'⟩
  · rintro ⟨q, h, h'⟩; exact ⟨q, 3, h, h'⟩

/-- `load_fasttext_vocab` -/
theorem C63_fasttext (bs : Bytes) (v : Vocab) :
    Rd.run loadFastTextVocab bs = .ok v ↔ ∃ q, First bs [7] q 7 ∧ VocabHere bs q v := by
  refine Iff.trans (vocab_run_iff (ids := [.fastTextVocab]) (fun _ => ⟨_, rfl⟩) (by
    intro c hc; rw [List.mem_singleton] at hc; subst hc; rfl)) ?_
  constructor
  · rintro ⟨q, id, h, h'⟩
    obtain rfl : id = 7 := List.mem_singleton.mp (first_head h).2
    exact ⟨q, h, h'⟩
  · rintro ⟨q, h, h'⟩; exact ⟨q, 7, h, h'⟩

/-- `load_explicit_vocab` -/
theorem C63_explicit (bs : Bytes) (v : Vocab) :
    Rd.run loadExplicitVocab bs = .ok v ↔ ∃ q, First bs [8] q 8 ∧ VocabHere bs q v := by
  refine Iff.trans (vocab_run_iff (ids := [.explicitVocab]) (fun _ => ⟨_, rfl⟩) (by
    intro c hc; rw [List.mem_singleton] at hc; subst hc; rfl)) ?_
  constructor
  · rintro ⟨q, id, h, h'⟩
    obtain rfl : id = 8 := List.mem_singleton.mp (first_head h).2
    exact ⟨q, h, h'⟩
  · rintro ⟨q, h, h'⟩; exact ⟨q, 8, h, h'⟩

/-- `load_storage` returns `st` if and only if the first storage chunk contains `st`. -/
theorem C63_storage (mmap : Bool) (bs : Bytes) (st : Storage F32) (hbs : bs.length + 4 < 2 ^ 63) :
    Rd.run (loadStorage mmap) bs = .ok st ↔
      ∃ q id stop, First bs [2, 4] q id ∧ StorageAt bs q st stop ∧ (mmap → Mappable bs st stop) := by
  refine storage_run_iff (ids := [.ndArray, .quantizedArray]) hbs (fun _ => ⟨_, rfl⟩) ?_
  intro c hc
  simp only [List.mem_cons, List.not_mem_nil, or_false] at hc
  rcases hc with rfl | rfl
  · exact Or.inl ⟨rfl, rfl⟩
  · exact Or.inr ⟨rfl, rfl⟩

/-- `load_ndarray` -/
theorem C63_ndarray (mmap : Bool) (bs : Bytes) (st : Storage F32) (hbs : bs.length + 4 < 2 ^ 63) :
    Rd.run (loadNdArray mmap) bs = .ok st ↔
      ∃ q stop, First bs [2] q 2 ∧ StorageAt bs q st stop ∧ (mmap → Mappable bs st stop) := by
  refine Iff.trans (storage_run_iff (ids := [.ndArray]) hbs (fun _ => ⟨_, rfl⟩) (by
    intro c hc; rw [List.mem_singleton] at hc; subst hc; exact Or.inl ⟨rfl, rfl⟩)) ?_
  constructor
  · rintro ⟨q, id, stop, h, h'⟩
    obtain rfl : id = 2 := List.mem_singleton.mp (first_head h).2
    exact ⟨q, stop, h, h'⟩
  · rintro ⟨q, stop, h, h'⟩; exact ⟨q, 2, stop, h, h'⟩

/-- `load_quantized_array` -/
theorem C63_quantized (mmap : Bool) (bs : Bytes) (st : Storage F32) (hbs : bs.length + 4 < 2 ^ 63) :
    Rd.run (loadQuantizedArray mmap) bs = .ok st ↔
      ∃ q stop, First bs [4] q 4 ∧ StorageAt bs q st stop ∧ (mmap → Mappable bs st stop) := by
  refine Iff.trans (storage_run_iff (ids := [.quantizedArray]) hbs (fun _ => ⟨_, rfl⟩) (by
    intro c hc; rw [List.mem_singleton] at hc; subst hc; exact Or.inr ⟨rfl, rfl⟩)) ?_
  constructor
  · rintro ⟨q, id, stop, h, h'⟩
    obtain rfl : id = 4 := List.mem_singleton.mp (first_head h).2
    exact ⟨q, stop, h, h'⟩
  · rintro ⟨q, stop, h, h'⟩; exact ⟨q, 4, stop, h, h'⟩

/-- `load_norms` -/
theorem C63_norms (bs : Bytes) (xs : List F32) (hbs : bs.length + 4 < 2 ^ 63) :
    Rd.run loadNorms bs = .ok xs ↔ ∃ q, First bs [6] q 6 ∧ NormsAt bs q xs.length (some xs) :=
  loadNorms_iff hbs

/-- `load_metadata` -/
theorem C63_metadata (T : Toml) (bs : Bytes) (m : Meta) (hbs : bs.length < 2 ^ 63) :
    Rd.run (loadMetadata T) bs = .ok m ↔ ∃ q stop, First bs [5] q 5 ∧ MetaAt T bs q (some m) stop :=
  loadMetadata_iff hbs

theorem run_none {α : Type} {ids : List ChunkId} {bs : Bytes} {k : Option ChunkId → Rd α} {e : PyErr}
    (hnone : ∀ s, k none s = .error e) {start : Nat} (hh : HeaderAt bs start)
    (h : Exhausted bs (ids.map ChunkId.toNat) start) : Rd.run (findChunk ids >>= k) bs = .error e := by
  obtain ⟨s', h1⟩ := findChunk_none_iff (pos := 0).mpr ⟨start, hh, h⟩
  unfold Rd.run
  rw [rd_bind_ok h1, hnone]

/-- Without a chunk of the wanted kind each loader raises `ValueError`. -/
theorem C63_missing (T : Toml) (mmap : Bool) (bs : Bytes) (start : Nat) (hh : HeaderAt bs start) :
    (Exhausted bs [1, 7, 8, 3] start → Rd.run loadVocab bs = .error .valueError) ∧
    (Exhausted bs [1] start → Rd.run loadSimpleVocab bs = .error .valueError) ∧
    (Exhausted bs [3] start → Rd.run loadBucketVocab bs = .error .valueError) ∧
    (Exhausted bs [7] start → Rd.run loadFastTextVocab bs = .error .valueError) ∧
    (Exhausted bs [8] start → Rd.run loadExplicitVocab bs = .error .valueError) ∧
    (Exhausted bs [2, 4] start → Rd.run (loadStorage mmap) bs = .error .valueError) ∧
    (Exhausted bs [2] start → Rd.run (loadNdArray mmap) bs = .error .valueError) ∧
    (Exhausted bs [4] start → Rd.run (loadQuantizedArray mmap) bs = .error .valueError) ∧
    (Exhausted bs [6] start → Rd.run loadNorms bs = .error .valueError) ∧
    (Exhausted bs [5] start → Rd.run (loadMetadata T) bs = .error .valueError) :=
  ⟨run_none (ids := [.simpleVocab, .fastTextVocab, .explicitVocab, .bucketVocab]) (fun _ => rfl) hh,
    run_none (ids := [.simpleVocab]) (fun _ => rfl) hh,
    run_none (ids := [.bucketVocab]) (fun _ => rfl) hh,
    run_none (ids := [.fastTextVocab]) (fun _ => rfl) hh,
    run_none (ids := [.explicitVocab]) (fun _ => rfl) hh,
    run_none (ids := [.ndArray, .quantizedArray]) (fun _ => rfl) hh,
    run_none (ids := [.ndArray]) (fun _ => rfl) hh,
    run_none (ids := [.quantizedArray]) (fun _ => rfl) hh,
    run_none (ids := [.ndNorms]) (fun _ => rfl) hh,
    run_none (ids := [.metadata]) (fun _ => rfl) hh⟩

theorem vocabAt_head {bs : Bytes} {p rows stop : Nat} {v : Vocab} (h : Fifu.VocabAt bs p v rows stop) :
    ∃ id, id ∈ [1, 7, 8, 3] ∧ Fifu.Head bs p id := by
  cases h with
  | simple head => exact ⟨1, by decide, head⟩
  | bucket head => exact ⟨3, by decide, head⟩
  | fastText head => exact ⟨7, by decide, head⟩
  | explicit head => exact ⟨8, by decide, head⟩

/-- Whenever `load_finalfusion` accepts a file, whoever wrote it, `load_vocab` returns the same vocabulary
and `load_metadata` the same metadata. -/
theorem C63_agrees (T : Toml) (mmap : Bool) (bs : Bytes) (e : Embeddings F32) (hbs : bs.length + 4 < 2 ^ 63)
    (h : Rd.run (loadFinalfusion T mmap) bs = .ok e) :
    Rd.run loadVocab bs = .ok e.vocab ∧ ∀ m, e.metadata = some m → Rd.run (loadMetadata T) bs = .ok m := by
  obtain ⟨p1, p2, p3, p4, h1, h2, h3, _⟩ := (C61_load T mmap bs e hbs).mp h
  obtain ⟨id, hid, head⟩ := vocabAt_head h3
  have hs : Fifu.Search bs [1, 7, 8, 3] p2 p2 id := .found head hid
  cases hm : e.metadata with
  | none =>
    rw [hm] at h2
    have h2 : p2 = p1 := h2
    subst h2
    exact ⟨(C63_vocab bs e.vocab).mpr ⟨p2, id, ⟨_, h1, hs⟩, Or.inl ⟨_, _, h3⟩⟩, by simp⟩
  | some m =>
    rw [hm] at h2
    have h2' := h2
    obtain ⟨text, k1, k2, k3, k4⟩ := h2
    have hne : Fifu.uint 4 5 ++ Fifu.uint 8 (utf8 text).length ++ utf8 text ≠ [] := by
      intro h; have := congrArg List.length h; simp [Fifu.uint] at this
    have hle := hasAt_le k3 hne
    simp only [uint_eq, List.length_append, length_le] at hle
    rw [hasAt_append] at k3
    subst k4
    refine ⟨(C63_vocab bs e.vocab).mpr ⟨_, id, ⟨p1, h1, ?_⟩, Or.inl ⟨_, _, h3⟩⟩, ?_⟩
    · exact .skip k3.1 (by decide) (by decide) (by omega) hs
    · intro m' hm'
      cases hm'
      exact (C63_metadata T bs m (by omega)).mpr
        ⟨p1, _, ⟨p1, h1, .found ⟨_, by omega, k3.1⟩ (by decide)⟩, h2'⟩

/-! ### The hypotheses can be met -/

namespace Sample

/-- Chunk 6 with five bytes that are not norms, then chunk 1 with the words `a` and `bc`, the last of which
is announced with nine bytes. -/
def cutFile : Bytes :=
  [0x46, 0x69, 0x46, 0x75, 0, 0, 0, 0, 1, 0, 0, 0, 9, 0, 0, 0] ++
  [6, 0, 0, 0, 5, 0, 0, 0, 0, 0, 0, 0, 1, 2, 3, 4, 5] ++
  [1, 0, 0, 0, 77, 0, 0, 0, 0, 0, 0, 0, 2, 0, 0, 0, 0, 0, 0, 0, 1, 0, 0, 0, 97, 9, 0, 0, 0, 98, 99]

theorem cutFile_header : HeaderAt cutFile 16 :=
  ⟨[9], by decide, by decide, by decide, by decide +kernel, rfl⟩

theorem cutFile_first : First cutFile [1, 7, 8, 3] 33 1 :=
  ⟨16, cutFile_header, .skip (other := 6) (len := 5) (by decide +kernel) (by decide) (by decide) (by decide)
    (.found ⟨77, by decide, by decide +kernel⟩ (by decide))⟩

theorem cutFile_vocab : VocabHere cutFile 33 ⟨[[97], [98, 99]], [([97], 0), ([98, 99], 1)], none⟩ :=
  Or.inr (.simple (words := [[97], [98, 99]]) ⟨77, by decide, by decide +kernel⟩ (by decide +kernel)
    ⟨by decide, by decide, [[97]], [98, 99], 9, rfl, by
      intro w hw
      rw [List.mem_singleton] at hw
      subst hw
      exact ⟨any_surrogate.mp (by decide), by decide⟩, any_surrogate.mp (by decide), by decide, by decide,
      by decide +kernel⟩)

end Sample

example : Rd.run loadVocab Sample.cutFile =
    .ok ⟨[[97], [98, 99]], [([97], 0), ([98, 99], 1)], none⟩ :=
  (C63_vocab _ _).mpr ⟨33, 1, Sample.cutFile_first, Sample.cutFile_vocab⟩

/-- Chunk 6 is found, but does not contain norms. -/
example : ¬ ∃ xs, Rd.run loadNorms Sample.cutFile = .ok xs := by
  rintro ⟨xs, h⟩
  have : Rd.run loadNorms Sample.cutFile = .error .valueError := by decide +kernel
  rw [this] at h; cases h

/-- There is no storage chunk; the length of the vocabulary leads past the end. -/
example : Rd.run (loadStorage true) Sample.cutFile = .error .valueError :=
  (C63_missing Sample.toml true _ 16 Sample.cutFile_header).2.2.2.2.2.1
    (.skip (other := 6) (len := 5) (by decide +kernel) (by decide) (by decide) (by decide)
      (.skip (other := 1) (len := 77) (by decide +kernel) (by decide) (by decide) (by decide)
        (.stop (by decide))))

/-- The storage of `oddFile` is not found alone, as the vocabulary announces a wrong length. -/
example : Rd.run loadVocab Sample.oddFile = .ok Sample.oddEmb.vocab ∧
    Rd.run (loadStorage true) Sample.oddFile = .error .valueError :=
  ⟨(C63_agrees Sample.toml true Sample.oddFile Sample.oddEmb (by decide)
    ((C61_load Sample.toml true Sample.oddFile Sample.oddEmb (by decide)).mpr Sample.oddFile_file)).1,
    by decide +kernel⟩

end FF
