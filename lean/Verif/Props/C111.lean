import Verif.Lemmas.DamageIds
import Verif.Props.C06
import Verif.Props.C109
/-! C111: files of another kind or version, and damage to the identifiers of chunks, are noticed. -/

namespace FF
open Fifu

/-- On every byte string that does not begin with `FiFu` and version 0, each function that loads embeddings or a part
of them fails with a `FinalfusionFormatError`. -/
theorem C111_magic (T : Toml) (mmap : Bool) (bs : Bytes) (h : bs.take 8 ≠ [0x46, 0x69, 0x46, 0x75, 0, 0, 0, 0]) :
    Rd.run (loadFinalfusion T mmap) bs = .error .formatError ∧
    Rd.run (loadMetadata T) bs = .error .formatError ∧
    Rd.run loadVocab bs = .error .formatError ∧ Rd.run loadSimpleVocab bs = .error .formatError ∧
    Rd.run loadBucketVocab bs = .error .formatError ∧ Rd.run loadFastTextVocab bs = .error .formatError ∧
    Rd.run loadExplicitVocab bs = .error .formatError ∧ Rd.run (loadStorage mmap) bs = .error .formatError ∧
    Rd.run (loadNdArray mmap) bs = .error .formatError ∧ Rd.run (loadQuantizedArray mmap) bs = .error .formatError ∧
    Rd.run loadNorms bs = .error .formatError := by
  have hr : readHeader ⟨bs, 0⟩ = .error .formatError := by
    refine C06_reject bs ?_
    rintro ⟨ids, rest, _, _, rfl⟩
    exact h rfl
  have hf := findChunk_header hr
  have key : ∀ {α β : Type} {m : Rd α} {f : α → Rd β}, m ⟨bs, 0⟩ = .error .formatError →
      Rd.run (m >>= f) bs = .error .formatError := by
    intro α β m f hm
    unfold Rd.run
    rw [rd_bind_error hm]
  refine ⟨key hr, key (hf _), key (hf _), key (hf _), key (hf _), key (hf _), key (hf _), key (hf _), key (hf _),
    key (hf _), key (hf _)⟩

/-- The identifier of the metadata -/
theorem C111_metadata (T : Toml) (mmap : Bool) (bs : Bytes) (e : Embeddings F32)
    (hbs : bs.length + 4 < 2 ^ 63) (h : Rd.run (loadFinalfusion T mmap) bs = .ok e) (hm : e.metadata.isSome) :
    ∃ pos, HasAt bs pos (uint 4 5) ∧ NoticesId (loadFinalfusion T mmap) bs pos [1, 3, 5, 7, 8] := by
  obtain ⟨p1, p2, p3, p4, a1, a2, a3, a4, a5, a6⟩ := (loadFinalfusion_iff T mmap bs e hbs).mp h
  obtain ⟨m, hm⟩ := Option.isSome_iff_exists.mp hm
  rw [hm] at a2
  obtain ⟨text, _, _, h6, _⟩ := a2
  have hhead : Head bs p1 5 := by
    refine ⟨(utf8 text).length, ?_, ?_⟩
    · have := List.IsPrefix.length_le h6
      simp only [List.length_append, List.length_drop] at this
      omega
    · rw [hasAt_append] at h6
      exact h6.1
  refine ⟨p1, ?_, fun bs' n hd hn hat hnot => ?_⟩
  · obtain ⟨_, _, h⟩ := hhead
    exact (hasAt_append.mp h).1
  · have hb : EqBelow bs bs' p1 := fun j hj => hd.2 j (Or.inl hj)
    exact load_vocab_id (md := none) (by rw [hd.1]; exact hbs) (hb.header a1 (Nat.le_refl _)) rfl
      (head_damaged hhead hd hat) hn hnot

/-- The identifier of the vocabulary.  Those for vocabularies with buckets do not stand for one another. -/
theorem C111_vocab (T : Toml) (mmap : Bool) (bs : Bytes) (e : Embeddings F32)
    (hbs : bs.length + 4 < 2 ^ 63) (h : Rd.run (loadFinalfusion T mmap) bs = .ok e) :
    ∃ pos, HasAt bs pos (uint 4 e.vocab.number) ∧ NoticesId (loadFinalfusion T mmap) bs pos [1, 3, 5, 7, 8] ∧
      ∀ bs', DiffersWithin bs bs' pos (pos + 4) →
        (e.vocab.number = 3 ∧ HasAt bs' pos (uint 4 7) ∨ e.vocab.number = 7 ∧ HasAt bs' pos (uint 4 3)) →
        Rd.run (loadFinalfusion T mmap) bs' = .error .assertionError := by
  obtain ⟨p1, p2, p3, p4, a1, a2, a3, a4, a5, a6⟩ := (loadFinalfusion_iff T mmap bs e hbs).mp h
  have hhead := vocabAt_number a3
  refine ⟨p2, ?_, fun bs' n hd hn hat hnot => ?_, fun bs' hd hor => ?_⟩
  · obtain ⟨_, _, h⟩ := hhead
    exact (hasAt_append.mp h).1
  · have hb : EqBelow bs bs' p2 := fun j hj => hd.2 j (Or.inl hj)
    exact load_vocab_id (by rw [hd.1]; exact hbs) (hb.header a1 (metaAt_le a2)) (hb.meta a2 (Nat.le_refl _))
      (head_damaged hhead hd hat) hn hnot
  · have hb : EqBelow bs bs' p2 := fun j hj => hd.2 j (Or.inl hj)
    have hf : EqFrom bs bs' (p2 + 4) := ⟨hd.1, fun j hj => hd.2 j (Or.inr (by omega))⟩
    have hbs' : bs'.length + 4 < 2 ^ 63 := by rw [hd.1]; exact hbs
    have b1 := hb.header a1 (metaAt_le a2)
    have b2 := hb.meta a2 (Nat.le_refl _)
    have hmap : p2 + 4 ≤ p3 → mmap → Mappable bs' e.storage p4 := by
      intro _ hm h0
      rw [hf.1]
      exact a6 hm h0
    generalize hv : e.vocab = v at a3 a5 hor hhead
    generalize hrows : e.storage.nRows = rows at a3
    cases a3 with
    | simple => rcases hor with ⟨h, _⟩ | ⟨h, _⟩ <;> cases h
    | explicit => rcases hor with ⟨h, _⟩ | ⟨h, _⟩ <;> cases h
    | @bucket words mn mx exp _ head fields wat i1 i2 i3 i4 i5 =>
      have hat : HasAt bs' p2 (uint 4 7) := by
        rcases hor with ⟨_, h⟩ | ⟨h, _⟩
        · exact h
        · cases h
      have hle := wordsAt_le wat
      obtain ⟨w1, _⟩ := words_from wat ⟨hf.1, fun j hj => hf.2 j (by omega)⟩
      refine load_rows_error (norms := e.norms) hbs' b1 b2 (VocabAt.fastText (head_damaged head hd hat)
        (hf.hasAt fields (by omega)) w1 i1 i2 i3 i4 (by omega))
        (EqFrom.storage ⟨hf.1, fun j hj => hf.2 j (by omega)⟩ a4 (Nat.le_refl _))
        (EqFrom.norms ⟨hf.1, fun j hj => hf.2 j (by omega)⟩ a5 (storageAt_le a4)) (hmap (by omega)) ?_
      have := Nat.lt_two_pow_self (n := exp)
      omega
    | @fastText words mn mx exp _ head fields wat i1 i2 i3 i4 i5 =>
      have hat : HasAt bs' p2 (uint 4 3) := by
        rcases hor with ⟨h, _⟩ | ⟨_, h⟩
        · cases h
        · exact h
      have hle := wordsAt_le wat
      obtain ⟨w1, w2⟩ := words_from wat ⟨hf.1, fun j hj => hf.2 j (by omega)⟩
      have hfields := hf.hasAt fields (by omega)
      have hhead' := head_damaged head hd hat
      by_cases hr : exp < 64
      · refine load_rows_error (norms := e.norms) hbs' b1 b2 (VocabAt.bucket hhead' hfields w1 i1 i2 i3 i4 hr)
          (EqFrom.storage ⟨hf.1, fun j hj => hf.2 j (by omega)⟩ a4 (Nat.le_refl _))
          (EqFrom.norms ⟨hf.1, fun j hj => hf.2 j (by omega)⟩ a5 (storageAt_le a4)) (hmap (by omega)) ?_
        have := Nat.lt_two_pow_self (n := exp)
        omega
      · refine load_vocab_error hbs' b1 b2 (c := .bucketVocab) (by decide) hhead' ?_
        rw [uint_eq] at hfields
        simp only [loadVocabPart]
        unfold readBucketVocab
        rw [rd_bind_ok ((readRequired4_iff (by decide) (by decide)).mpr
          ⟨⟨lt_of_lt_of_eq wat.2.2.1 pow_64.symm, by omega, by omega, by omega⟩, hfields, rfl⟩)]
        simp only
        rw [rd_bind_ok w2]
        have h1 : pyAssert (decide ((mx : Int) ≥ mn ∧ (mn : Int) > 0)) = .ok () := by
          unfold pyAssert; rw [if_pos]; simp only [decide_eq_true_eq]; omega
        have h2 : pyAssert (decide (0 < (exp : Int) ∧ (exp : Int) < 64)) = .error .assertionError := by
          unfold pyAssert; rw [if_neg]; simp only [decide_eq_true_eq]; omega
        unfold FifuIndexer.new
        rw [h1, h2]
        rfl

/-- The identifier of the matrix -/
theorem C111_storage (T : Toml) (mmap : Bool) (bs : Bytes) (e : Embeddings F32)
    (hbs : bs.length + 4 < 2 ^ 63) (h : Rd.run (loadFinalfusion T mmap) bs = .ok e) :
    ∃ pos, HasAt bs pos (uint 4 e.storage.number) ∧ NoticesId (loadFinalfusion T mmap) bs pos [2, 4] := by
  obtain ⟨p1, p2, p3, p4, a1, a2, a3, a4, a5, a6⟩ := (loadFinalfusion_iff T mmap bs e hbs).mp h
  have hhead := storageAt_number a4
  refine ⟨p3, ?_, fun bs' n hd hn hat hnot => ?_⟩
  · obtain ⟨_, _, h⟩ := hhead
    exact (hasAt_append.mp h).1
  · have hb : EqBelow bs bs' p3 := fun j hj => hd.2 j (Or.inl hj)
    have h1 := metaAt_le a2
    have h2 := vocabAt_le a3
    exact load_storage_id (by rw [hd.1]; exact hbs) (hb.header a1 (by omega)) (hb.meta a2 (by omega))
      (hb.vocab a3 (Nat.le_refl _)) (head_damaged hhead hd hat) hn hnot

/-- The identifier of the norms: any other is noticed. -/
theorem C111_norms (T : Toml) (mmap : Bool) (bs : Bytes) (e : Embeddings F32)
    (hbs : bs.length + 4 < 2 ^ 63) (h : Rd.run (loadFinalfusion T mmap) bs = .ok e) (hn : e.norms.isSome) :
    ∃ pos, HasAt bs pos (uint 4 6) ∧ NoticesId (loadFinalfusion T mmap) bs pos [6] := by
  obtain ⟨p1, p2, p3, p4, a1, a2, a3, a4, a5, a6⟩ := (loadFinalfusion_iff T mmap bs e hbs).mp h
  obtain ⟨xs, hxs⟩ := Option.isSome_iff_exists.mp hn
  rw [hxs] at a5
  obtain ⟨_, _, hhead, _⟩ := a5
  refine ⟨p4, ?_, fun bs' n hd hn hat hnot => ?_⟩
  · obtain ⟨_, _, h⟩ := hhead
    exact (hasAt_append.mp h).1
  · have hb : EqBelow bs bs' p4 := fun j hj => hd.2 j (Or.inl hj)
    have h1 := metaAt_le a2
    have h2 := vocabAt_le a3
    have h3 := storageAt_le a4
    refine load_norms_id (by rw [hd.1]; exact hbs) (hb.header a1 (by omega)) (hb.meta a2 (by omega))
      (hb.vocab a3 (by omega)) (hb.storage a4 (Nat.le_refl _)) ?_ (head_damaged hhead hd hat) hn hnot
    intro hm h0
    have := a6 hm h0
    rw [hd.1]
    exact this

/-! ### The hypotheses can be met -/

/-- A word2vec file and a file of version 1 -/
example : ([49, 32, 49, 10] : Bytes).take 8 ≠ [0x46, 0x69, 0x46, 0x75, 0, 0, 0, 0] ∧
    ([0x46, 0x69, 0x46, 0x75, 1, 0, 0, 0, 1] : Bytes).take 8 ≠ [0x46, 0x69, 0x46, 0x75, 0, 0, 0, 0] := by decide

/-- A file with metadata and norms -/
example : ∃ bs, bs.length + 4 < 2 ^ 63 ∧ Rd.run (loadFinalfusion Sample.toml false) bs = .ok Sample.embSimple ∧
    Sample.embSimple.metadata.isSome ∧ Sample.embSimple.norms.isSome := by
  obtain ⟨bs, h1, h2, _⟩ := Sample.simpleFile
  exact ⟨bs, h1, h2, rfl, rfl⟩

/-- The identifier 3 of the file of C109 with another byte: the one of the buckets of fastText, of the norms, and of
nothing -/
example : ∃ bs pos, (C109_sample.write Sample.toml).file = (.ok (), bs) ∧
    Rd.run (loadFinalfusion Sample.toml false) bs = .ok C109_sample ∧ bs[pos]? = some 3 ∧
    Rd.run (loadFinalfusion Sample.toml false) (bs.set pos 7) = .error .assertionError ∧
    Rd.run (loadFinalfusion Sample.toml false) (bs.set pos 6) = .error .formatError ∧
    Rd.run (loadFinalfusion Sample.toml false) (bs.set pos 9) = .error .valueError := by
  have hw : (C109_sample.write Sample.toml).file = (.ok (), (C109_sample.write Sample.toml).file.2) :=
    Sample.file_ok (by decide +kernel)
  have hbs : (C109_sample.write Sample.toml).file.2.length + 4 < 2 ^ 63 := by decide +kernel
  generalize (C109_sample.write Sample.toml).file.2 = bs at hw hbs
  have hl := C01_roundtrip_eq Sample.toml C109_sample bs C109_sample_built (by intro m s h; cases h) hw
    (by intro ix h; cases h)
  obtain ⟨pos, hat, hall, hbuckets⟩ := C111_vocab Sample.toml false bs _ hbs hl
  have hget := hasAt_iff_get.mp hat
  have h0 : bs[pos]? = some 3 := hget 0 (by decide)
  have hlt := (List.getElem?_eq_some_iff.mp h0).1
  have hset : ∀ b : UInt8, b < 16 → DiffersWithin bs (bs.set pos b) pos (pos + 4) ∧
      HasAt (bs.set pos b) pos (uint 4 b.toNat) := by
    intro b hb
    refine ⟨⟨by simp, fun i hi => List.getElem?_set_ne (by omega)⟩, hasAt_iff_get.mpr fun i hi => ?_⟩
    have hb := b.toNat_lt
    have he : uint 4 b.toNat = (uint 4 3).set 0 b := by
      have d1 : b.toNat / 256 = 0 := by omega
      have d2 : b.toNat / 65536 = 0 := by omega
      have d3 : b.toNat / 16777216 = 0 := by omega
      simp [uint, List.range_succ, d1, d2, d3]
    cases i with
    | zero =>
      simp only [he]
      rw [Nat.add_zero, List.getElem?_set_self hlt]
      simp [uint]
    | succ i =>
      have hi' : i + 1 < (uint 4 3).length := by simpa using hi
      simp only [he]
      rw [List.getElem?_set_ne (by omega), List.getElem_set_ne (by omega)]
      exact hget (i + 1) hi'
  refine ⟨bs, pos, hw, hl, h0, ?_, ?_, ?_⟩
  · exact hbuckets _ (hset 7 (by decide)).1 (Or.inl ⟨rfl, (hset 7 (by decide)).2⟩)
  · exact hall _ 6 (hset 6 (by decide)).1 (by decide) (hset 6 (by decide)).2 (by decide)
  · exact hall _ 9 (hset 9 (by decide)).1 (by decide) (hset 9 (by decide)).2 (by decide)

/-! ### Not every identifier is noticed -/

/-- A file with one word of 88 bytes, which are themselves n-gram lengths, an exponent, a word, a matrix and norms. -/
def C111_file (id : UInt8) : Bytes :=
  [0x46, 0x69, 0x46, 0x75] ++ uint 4 0 ++ uint 4 1 ++ uint 4 0 ++
  [id, 0, 0, 0] ++ uint 8 0 ++ uint 8 1 ++ uint 4 88 ++
  uint 4 127 ++ uint 4 1 ++ uint 4 1 ++ [97] ++
  uint 4 2 ++ uint 8 0 ++ uint 8 3 ++ uint 4 1 ++ uint 4 10 ++ zero 3 ++ zero 12 ++
  uint 4 6 ++ uint 8 0 ++ uint 8 1 ++ uint 4 10 ++ zero 4 ++ zero 4 ++
  uint 4 2 ++ uint 8 0 ++ uint 8 1 ++ uint 4 1 ++ uint 4 10 ++ zero 4 ++ zero 4

/-- There is a file with a simple vocabulary that loads with the identifier of a vocabulary with buckets as well, with
other words. -/
theorem C111_vocab_refuted : ∃ (bs bs' : Bytes) (pos : Nat) (e e' : Embeddings F32), bs.length + 4 < 2 ^ 63 ∧
    DiffersWithin bs bs' pos (pos + 4) ∧ HasAt bs pos (uint 4 1) ∧ HasAt bs' pos (uint 4 3) ∧
    Rd.run (loadFinalfusion Sample.toml false) bs = .ok e ∧ Rd.run (loadFinalfusion Sample.toml false) bs' = .ok e' ∧
    e.vocab.words.map List.length = [88] ∧ e'.vocab.words = [[97]] := by
  have key : ∀ (P : Embeddings F32 → Prop) [DecidablePred P] (r : Res (Embeddings F32)),
      (match r with | .ok e => decide (P e) | .error _ => false) = true → ∃ e, r = .ok e ∧ P e := by
    intro P _ r h
    cases r with
    | error x => simp at h
    | ok e => exact ⟨e, rfl, by simpa using h⟩
  obtain ⟨e, h1, h2⟩ := key (fun e => e.vocab.words.map List.length = [88])
    (Rd.run (loadFinalfusion Sample.toml false) (C111_file 1)) (by decide +kernel)
  obtain ⟨e', h3, h4⟩ := key (fun e => e.vocab.words = [[97]])
    (Rd.run (loadFinalfusion Sample.toml false) (C111_file 3)) (by decide +kernel)
  have hset : C111_file 3 = (C111_file 1).set 16 3 := by decide +kernel
  refine ⟨C111_file 1, C111_file 3, 16, e, e', by decide +kernel, ?_, by unfold HasAt; decide +kernel,
    by unfold HasAt; decide +kernel, h1, h3, h2, h4⟩
  rw [hset]
  exact ⟨by simp, fun i hi => List.getElem?_set_ne (by omega)⟩

end FF
