import Verif.Lemmas.FfRead
/-! What a successful read says about the bytes of the file: vocabularies. -/

namespace FF
open Fifu (HasAt Pad Head HeaderAt MetaAt WordsAt VocabAt)

/-- Four required fields. -/
theorem readRequired4_iff {w1 w2 w3 w4 a b c d p : Nat} {bs : Bytes} {s' : RFile}
    (h0 : 0 < w1 + w2 + w3 + w4) (hw : w1 + w2 + w3 + w4 < maxSize) :
    readRequired [w1, w2, w3, w4] ⟨bs, p⟩ = .ok ([a, b, c, d], s') ↔
      (a < 256 ^ w1 ∧ b < 256 ^ w2 ∧ c < 256 ^ w3 ∧ d < 256 ^ w4) ∧
      HasAt bs p (le w1 a ++ le w2 b ++ le w3 c ++ le w4 d) ∧ s' = ⟨bs, p + (w1 + w2 + w3 + w4)⟩ := by
  have hc : calcsize [w1, w2, w3, w4] = w1 + w2 + w3 + w4 := by simp [calcsize]; omega
  rw [readRequired_iff (by omega) (by omega), hc]
  simp [packRaw]

theorem readRequired_length {ws vs : List Nat} {s s' : RFile} (hw : calcsize ws < maxSize)
    (h : readRequired ws s = .ok (vs, s')) : vs.length = ws.length :=
  (readRequired_ate hw h).1

theorem Vocab.new_iff {words : List PyStr} {sub : Option Indexer} {v : Vocab} :
    Vocab.new words sub = .ok v ↔ words.Nodup ∧ v = ⟨words, words.zipIdx, sub⟩ := by
  rw [Vocab.new_ok, enumItems_zipIdx]

theorem fifuNew_iff {e mn mx : Nat} {ix : FifuIndexer} :
    FifuIndexer.new e mn mx = .ok ix ↔
      ix = ⟨e, mn, mx⟩ ∧ 0 < mn ∧ mn ≤ mx ∧ mx < 2 ^ 32 ∧ 0 < e ∧ e < 64 := by
  rw [fifuNew_ok]
  obtain ⟨a, b, c⟩ := ix
  simp only [Nat.cast_inj, FifuIndexer.mk.injEq]
  constructor
  · rintro ⟨rfl, rfl, rfl, h⟩; exact ⟨⟨rfl, rfl, rfl⟩, h⟩
  · rintro ⟨⟨rfl, rfl, rfl⟩, h⟩; exact ⟨rfl, rfl, rfl, h⟩

theorem ftNew_iff {e mn mx : Nat} {ix : FtIndexer} :
    FtIndexer.new e mn mx = .ok ix ↔
      ix = ⟨e, mn, mx⟩ ∧ 0 < mn ∧ mn ≤ mx ∧ mx < 2 ^ 32 ∧ 0 < e ∧ e < 2 ^ 32 := by
  rw [ftNew_ok]
  obtain ⟨a, b, c⟩ := ix
  simp only [Nat.cast_inj, FtIndexer.mk.injEq]
  constructor
  · rintro ⟨rfl, rfl, rfl, h⟩; exact ⟨⟨rfl, rfl, rfl⟩, h⟩
  · rintro ⟨⟨rfl, rfl, rfl⟩, h⟩; exact ⟨rfl, rfl, rfl, h⟩

/-- A dictionary of n-grams with non-negative indices. -/
theorem explNew_iff {grams : List (PyStr × Nat)} {mn mx : Nat} {ix : ExplIndexer} :
    ExplIndexer.new (grams.map Prod.fst) mn mx
        (some (Dict.ofPairs (grams.map fun p => (p.1, (p.2 : Int))))) = .ok ix ↔
      grams ≠ [] ∧ (grams.map Prod.fst).Nodup ∧ 0 < mn ∧ mn ≤ mx ∧ mx < 2 ^ 32 ∧
      ∃ bound : Nat, (∀ i, i < bound ↔ i ∈ grams.map Prod.snd) ∧
        ix = ⟨grams.map Prod.fst, mn, mx, grams.map fun g => (g.1, (g.2 : Int)), (bound : Int)⟩ := by
  have hfst : (grams.map fun p => (p.1, (p.2 : Int))).map Prod.fst = grams.map Prod.fst := by
    rw [List.map_map]; rfl
  have hsnd : (grams.map fun p => (p.1, (p.2 : Int))).map Prod.snd =
      (grams.map Prod.snd).map (fun n : Nat => (n : Int)) := by
    rw [List.map_map, List.map_map]; rfl
  rw [explNew_some (Dict.ofPairs_nodup _)]
  constructor
  · rintro ⟨hv, h1, h2, h3, h4, h5⟩
    have hnd : (grams.map Prod.fst).Nodup := by rw [← h1]; exact hv.nodup
    have hd := Dict.ofPairs_eq (grams.map fun p => (p.1, (p.2 : Int))) (by rw [hfst]; exact hnd)
    rw [hd] at h2
    have hvals := expl_values hv (by
      rw [h2, hsnd]
      intro x hx
      rw [List.mem_map] at hx
      obtain ⟨n, _, rfl⟩ := hx
      exact Int.natCast_nonneg n)
    refine ⟨fun h => h5 (by rw [h]; rfl), hnd, by have := hv.minPos; omega,
      by have := hv.minMax; omega, by have := hv.max32; omega, ix.bound.toNat, ?_, ?_⟩
    · intro i
      have := hvals i
      rw [h2, hsnd, List.mem_map] at this
      constructor
      · intro hi
        obtain ⟨n, hn, he⟩ := this.mp (by omega)
        have : n = i := by omega
        rwa [this] at hn
      · intro hi
        have := this.mpr ⟨i, hi, rfl⟩
        omega
    · obtain ⟨a, b, c, d, e⟩ := ix
      simp only at h1 h2 h3 h4
      subst h1 h2
      have hb := hv.bound
      simp only at hb
      simp only [ExplIndexer.mk.injEq, true_and]
      omega
  · rintro ⟨h0, hnd, h1, h2, h3, bound, hb, rfl⟩
    have hd := Dict.ofPairs_eq (grams.map fun p => (p.1, (p.2 : Int))) (by rw [hfst]; exact hnd)
    refine ⟨?_, rfl, hd.symm, rfl, rfl, fun h => h0 (List.map_eq_nil_iff.mp h)⟩
    have hlen : (grams.map Prod.snd).dedup.length = bound := by
      have h1 : (grams.map Prod.snd).dedup.Perm (List.range bound) := by
        rw [List.perm_ext_iff_of_nodup (List.nodup_dedup _) List.nodup_range]
        intro a
        rw [List.mem_dedup, List.mem_range, hb]
      rw [h1.length_eq, List.length_range]
    refine ⟨h1, h2, h3, hnd, ?_, ?_, ?_, ?_⟩
    · simp only [Dict.keys, hfst]
      exact List.Perm.refl _
    · simp only [hsnd]
      rw [List.dedup_map_of_injective (fun a b h => by simpa using h), List.length_map, hlen]
    · simp only [hsnd]
      intro x hx
      rw [List.mem_map] at hx
      obtain ⟨n, hn, rfl⟩ := hx
      have := (hb n).mpr hn
      omega
    · intro _
      simp only [hsnd]
      have hpos : 0 < bound := by
        obtain ⟨g, gs, rfl⟩ := List.exists_cons_of_ne_nil h0
        have := (hb g.2).mpr (by simp)
        omega
      rw [List.mem_map]
      refine ⟨bound - 1, (hb _).mp (by omega), by omega⟩

/-- The words of a vocabulary: either all of them are in the file, or the file ends. -/
theorem wordsAt_of {n p : Nat} {bs : Bytes} {ws : List PyStr} {s' : RFile} (hn : n < 256 ^ 8)
    (h : readItems n ⟨bs, p⟩ = .ok (ws, s')) (hnd : ws.Nodup) : ws.length = n ∧
      ((∃ stop, WordsAt bs p ws stop ∧ s' = ⟨bs, stop⟩) ∨ s'.data = bs ∧ bs.length ≤ s'.pos) := by
  obtain ⟨h1, h2⟩ := readItems_at h
  refine ⟨h1, ?_⟩
  obtain ⟨k1, k2, rfl⟩ | k := h2
  · refine Or.inl ⟨_, ⟨hnd, fun w hw => storable_iff.mpr (k1 w hw), ?_, ?_, rfl⟩, ?_⟩
    · rw [h1]; exact lt_of_lt_of_eq hn pow_64
    · rw [words_eq]; exact k2
    · rw [words_eq]
  · exact Or.inr k

theorem readItems_wordsAt {p stop : Nat} {bs : Bytes} {ws : List PyStr} (h : WordsAt bs p ws stop) :
    readItems ws.length ⟨bs, p⟩ = .ok (ws, ⟨bs, stop⟩) := by
  obtain ⟨_, h2, _, h4, rfl⟩ := h
  rw [words_eq] at *
  exact readItems_of (fun w hw => storable_iff.mp (h2 w hw)) h4

theorem loadVocabPart_at {c : ChunkId} {bs : Bytes} {p : Nat} {v : Vocab} {s' : RFile}
    (hh : Head bs p c.toNat) (h : loadVocabPart c ⟨bs, p + 12⟩ = .ok (v, s')) :
    (∃ rows stop, VocabAt bs p v rows stop ∧ s' = ⟨bs, stop⟩) ∨
      s'.data = bs ∧ bs.length ≤ s'.pos := by
  cases c with
  | simpleVocab =>
    simp only [loadVocabPart] at h
    unfold readSimpleVocab at h
    rw [rd_bind_iff] at h
    obtain ⟨n, s1, h1, h⟩ := h
    obtain ⟨k1, k2, rfl⟩ := (readOne_iff (by decide) (by decide)).mp h1
    rw [rd_bind_iff] at h
    obtain ⟨ws, s1, h2, h⟩ := h
    rw [rd_lift_iff, Vocab.new_iff] at h
    obtain ⟨⟨hnd, rfl⟩, rfl⟩ := h
    obtain ⟨rfl, ⟨stop, e1, rfl⟩ | e⟩ := wordsAt_of k1 h2 hnd
    · exact Or.inl ⟨_, stop, .simple hh (by rw [uint_eq]; exact k2) e1, rfl⟩
    · exact Or.inr e
  | bucketVocab =>
    simp only [loadVocabPart] at h
    unfold readBucketVocab at h
    rw [rd_bind_iff] at h
    obtain ⟨vs, s1, h1, h⟩ := h
    have hl := readRequired_length (by decide) h1
    match vs, hl with
    | [n, mn, mx, e], _ =>
      obtain ⟨⟨k1, k2, k3, k4⟩, k5, rfl⟩ := (readRequired4_iff (by decide) (by decide)).mp h1
      simp only at h
      rw [rd_bind_iff] at h
      obtain ⟨ws, s1, h2, h⟩ := h
      rw [rd_bind_iff] at h
      obtain ⟨ix, s2, h3, h⟩ := h
      rw [rd_lift_iff, fifuNew_iff] at h3
      obtain ⟨⟨rfl, i1, i2, i3, i4, i5⟩, rfl⟩ := h3
      rw [rd_lift_iff, Vocab.new_iff] at h
      obtain ⟨⟨hnd, rfl⟩, rfl⟩ := h
      obtain ⟨rfl, ⟨stop, e1, rfl⟩ | e⟩ := wordsAt_of k1 h2 hnd
      · exact Or.inl ⟨_, stop, .bucket hh (by rw [uint_eq]; exact k5) e1 i1 i2 i3 i4 i5, rfl⟩
      · exact Or.inr e
  | fastTextVocab =>
    simp only [loadVocabPart] at h
    unfold readFastTextVocab at h
    rw [rd_bind_iff] at h
    obtain ⟨vs, s1, h1, h⟩ := h
    have hl := readRequired_length (by decide) h1
    match vs, hl with
    | [n, mn, mx, e], _ =>
      obtain ⟨⟨k1, k2, k3, k4⟩, k5, rfl⟩ := (readRequired4_iff (by decide) (by decide)).mp h1
      simp only at h
      rw [rd_bind_iff] at h
      obtain ⟨ws, s1, h2, h⟩ := h
      rw [rd_bind_iff] at h
      obtain ⟨ix, s2, h3, h⟩ := h
      rw [rd_lift_iff, ftNew_iff] at h3
      obtain ⟨⟨rfl, i1, i2, i3, i4, i5⟩, rfl⟩ := h3
      rw [rd_lift_iff, Vocab.new_iff] at h
      obtain ⟨⟨hnd, rfl⟩, rfl⟩ := h
      obtain ⟨rfl, ⟨stop, e1, rfl⟩ | e⟩ := wordsAt_of k1 h2 hnd
      · exact Or.inl ⟨_, stop, .fastText hh (by rw [uint_eq]; exact k5) e1 i1 i2 i3 i4 i5, rfl⟩
      · exact Or.inr e
  | explicitVocab =>
    simp only [loadVocabPart] at h
    unfold readExplicitVocab at h
    rw [rd_bind_iff] at h
    obtain ⟨vs, s1, h1, h⟩ := h
    have hl := readRequired_length (by decide) h1
    match vs, hl with
    | [n, ng, mn, mx], _ =>
      obtain ⟨⟨k1, k2, k3, k4⟩, k5, rfl⟩ := (readRequired4_iff (by decide) (by decide)).mp h1
      simp only at h
      rw [rd_bind_iff] at h
      obtain ⟨ws, s1, h2, h⟩ := h
      rw [rd_bind_iff] at h
      obtain ⟨grams, s2, h3, h⟩ := h
      rw [rd_bind_iff] at h
      obtain ⟨ix, s3, h4, h⟩ := h
      rw [rd_lift_iff, explNew_iff] at h4
      obtain ⟨⟨i0, i1, i2, i3, i4, bound, i5, rfl⟩, rfl⟩ := h4
      rw [rd_lift_iff, Vocab.new_iff] at h
      obtain ⟨⟨hnd, rfl⟩, rfl⟩ := h
      obtain ⟨rfl, ⟨mid, e1, rfl⟩ | ⟨e1, e2⟩⟩ := wordsAt_of k1 h2 hnd
      · obtain ⟨rfl, j2, j3, rfl⟩ := readItemsIdx_at h3
        refine Or.inl ⟨_, _, .explicit hh (by rw [uint_eq]; exact k5) e1 i2 i3 i4 i0 i1
          (lt_of_lt_of_eq k2 pow_64) (fun g hg => ⟨storable_iff.mpr (j2 g hg).1,
            lt_of_lt_of_eq (j2 g hg).2 pow_64⟩) i5 (by rw [grams_eq]; exact j3) rfl, ?_⟩
        rw [grams_eq]
      · obtain ⟨d, q⟩ := s1
        simp only at e1 e2
        subst e1
        refine Or.inr ?_
        have := readItemsIdx_stays ng ⟨d, q⟩ e2
        unfold EofOrFail at this
        rw [h3] at this
        obtain ⟨_, h⟩ | ⟨_, _, h, h'⟩ := this
        · cases h
        · cases h; exact h'
  | _ => cases h

theorem loadVocabPart_of {bs : Bytes} {p rows stop : Nat} {v : Vocab} (h : VocabAt bs p v rows stop) :
    ∃ c : ChunkId, c ≠ .metadata ∧ Head bs p c.toNat ∧
      loadVocabPart c ⟨bs, p + 12⟩ = .ok (v, ⟨bs, stop⟩) := by
  cases h with
  | simple head count wat =>
    refine ⟨.simpleVocab, by decide, head, ?_⟩
    simp only [loadVocabPart]
    unfold readSimpleVocab
    have := wat.2.2.1
    rw [uint_eq] at count
    rw [rd_bind_ok ((readOne_iff (by decide) (by decide)).mpr
      ⟨lt_of_lt_of_eq wat.2.2.1 pow_64.symm, count, rfl⟩)]
    rw [rd_bind_ok (readItems_wordsAt wat), rd_lift_iff, Vocab.new_iff]
    exact ⟨⟨wat.1, rfl⟩, rfl⟩
  | bucket head fields wat i1 i2 i3 i4 i5 =>
    refine ⟨.bucketVocab, by decide, head, ?_⟩
    simp only [loadVocabPart]
    unfold readBucketVocab
    rw [uint_eq] at fields
    rw [rd_bind_ok ((readRequired4_iff (by decide) (by decide)).mpr
      ⟨⟨lt_of_lt_of_eq wat.2.2.1 pow_64.symm, by omega, by omega, by omega⟩, fields, rfl⟩)]
    simp only
    rw [rd_bind_ok (readItems_wordsAt wat)]
    rw [rd_bind_ok (rd_lift_iff.mpr ⟨fifuNew_iff.mpr ⟨rfl, i1, i2, i3, i4, i5⟩, rfl⟩)]
    rw [rd_lift_iff, Vocab.new_iff]
    exact ⟨⟨wat.1, rfl⟩, rfl⟩
  | fastText head fields wat i1 i2 i3 i4 i5 =>
    refine ⟨.fastTextVocab, by decide, head, ?_⟩
    simp only [loadVocabPart]
    unfold readFastTextVocab
    rw [uint_eq] at fields
    rw [rd_bind_ok ((readRequired4_iff (by decide) (by decide)).mpr
      ⟨⟨lt_of_lt_of_eq wat.2.2.1 pow_64.symm, by omega, by omega, by omega⟩, fields, rfl⟩)]
    simp only
    rw [rd_bind_ok (readItems_wordsAt wat)]
    rw [rd_bind_ok (rd_lift_iff.mpr ⟨ftNew_iff.mpr ⟨rfl, i1, i2, i3, i4, i5⟩, rfl⟩)]
    rw [rd_lift_iff, Vocab.new_iff]
    exact ⟨⟨wat.1, rfl⟩, rfl⟩
  | explicit head fields wat i1 i2 i3 i4 i5 i6 i7 i8 i9 i10 =>
    refine ⟨.explicitVocab, by decide, head, ?_⟩
    simp only [loadVocabPart]
    unfold readExplicitVocab
    rw [uint_eq] at fields
    rw [grams_eq] at i9
    rw [grams_eq] at i10
    subst i10
    rw [rd_bind_ok ((readRequired4_iff (by decide) (by decide)).mpr
      ⟨⟨lt_of_lt_of_eq wat.2.2.1 pow_64.symm, by omega, by omega, by omega⟩, fields, rfl⟩)]
    simp only
    rw [rd_bind_ok (readItems_wordsAt wat)]
    rw [rd_bind_ok (readItemsIdx_of (fun g hg => ⟨storable_iff.mp (i7 g hg).1,
      lt_of_lt_of_eq (i7 g hg).2 pow_64.symm⟩) i9)]
    rw [rd_bind_ok (rd_lift_iff.mpr ⟨explNew_iff.mpr ⟨i4, i5, i1, i2, i3, _, i8, rfl⟩, rfl⟩)]
    rw [rd_lift_iff, Vocab.new_iff]
    exact ⟨⟨wat.1, rfl⟩, rfl⟩

theorem vocabAt_rows {bs : Bytes} {p rows stop : Nat} {v : Vocab} (h : VocabAt bs p v rows stop) :
    v.upperBound = (rows : Int) ∧ v.len = v.words.length ∧ v.words.length ≤ rows := by
  cases h <;> simp [Vocab.upperBound, Vocab.len, Indexer.upperBound, FifuIndexer.upperBound,
    FtIndexer.upperBound]

end FF
