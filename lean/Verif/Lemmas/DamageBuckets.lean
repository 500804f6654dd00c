import Verif.Spec.DamageBuckets
import Verif.Lemmas.DamageRange
import Verif.Lemmas.DamageW2v
import Verif.Lemmas.Append
/-! Replacing the number of buckets in a file. -/

namespace FF
open Fifu

/-- A file whose matrix does not have the right number of rows. -/
theorem load_rows_error {T : Toml} {mmap : Bool} {bs : Bytes} {p1 p2 p3 p4 rows : Nat} {md : Option Meta} {v : Vocab}
    {st : Storage F32} {norms : Option (List F32)} (hlen : bs.length + 4 < 2 ^ 63) (hh : HeaderAt bs p1)
    (m1 : MetaAt T bs p1 md p2) (v1 : VocabAt bs p2 v rows p3) (t1 : StorageAt bs p3 st p4)
    (n1 : NormsAt bs p4 v.words.length norms) (t2 : mmap → Mappable bs st p4) (hr : rows ≠ st.nRows) :
    Rd.run (loadFinalfusion T mmap) bs = .error .assertionError := by
  have hstore : loadStoragePart mmap ⟨bs, p3⟩ = .ok (st, ⟨bs, p4⟩) := by
    cases mmap with
    | false => exact (loadStoragePart_at hlen).mpr ⟨p4, t1, rfl⟩
    | true => exact (loadStoragePart_mmap_at hlen).mpr ⟨p4, t1, t2 rfl, rfl⟩
  obtain ⟨ids, h1⟩ := readHeader_iff.mpr ⟨p1, hh, rfl⟩
  obtain ⟨c, hc, hd, h3⟩ := loadVocabPart_of v1
  have hn : ∀ xs, norms = some xs → xs.length = v.words.length := by
    intro xs hxs
    unfold NormsAt at n1
    rw [hxs] at n1
    obtain ⟨_, _, _, _, _, h, _⟩ := n1
    exact h
  obtain ⟨s', h5⟩ := (loadNormsPart_at hlen hn).mpr n1
  have hnew : Embeddings.new st v norms md = .error .assertionError := by
    unfold Embeddings.new checkRequirements pyAssert
    rw [if_neg]
    · rfl
    · rw [(vocabAt_rows v1).1, decide_eq_true_eq]
      omega
  have : loadFinalfusion T mmap ⟨bs, 0⟩ = .error .assertionError := by
    unfold loadFinalfusion
    rw [rd_bind_ok h1, rd_bind_ok (loadMetaPart_of hlen hc hd m1)]
    simp only
    rw [rd_bind_ok h3, rd_bind_ok hstore, rd_bind_ok h5, hnew]
    rfl
  unfold Rd.run
  rw [this]

/-- Four bytes are a number. -/
theorem exists_uint {bs bs' : Bytes} {pos n : Nat} (h : HasAt bs pos (uint 4 n))
    (hd : DiffersWithin bs bs' pos (pos + 4)) (hne : bs' ≠ bs) :
    ∃ n', n' < 2 ^ 32 ∧ n' ≠ n ∧ HasAt bs' pos (uint 4 n') := by
  have hle : pos ≤ bs.length := by
    by_contra hlt
    have := h.length_le
    simp only [length_uint, List.length_drop] at this
    omega
  obtain ⟨B, hB⟩ := h
  have hbs : bs = bs.take pos ++ (uint 4 n ++ B) := by rw [hB, List.take_append_drop]
  have hpre : (bs.take pos).length = pos := by rw [List.length_take]; omega
  obtain ⟨mid, h1, h2⟩ := split_at hbs (by rw [hpre, length_uint]; exact hd)
  rw [length_uint] at h1
  have hmid : uint 4 (unle mid) = mid := by
    have := le_unle mid
    rw [h1] at this
    rw [uint_eq]
    exact this
  refine ⟨unle mid, ?_, ?_, ?_⟩
  · have := unle_lt mid
    rw [h1] at this
    exact lt_of_lt_of_eq this (by norm_num)
  · intro hn
    apply hne
    rw [h2, hbs]
    rw [hn] at hmid
    rw [← hmid]
    simp only [← hbs]
  · rw [hmid, h2]
    have := hasAt_mid (pre := bs.take pos) (mid := mid) (post := B)
    rw [hpre] at this
    exact this

/-- The number of buckets. -/
theorem vocab_buckets {bs : Bytes} {p rows stop n : Nat} {v : Vocab} {ix : Indexer} (h : VocabAt bs p v rows stop)
    (hix : v.sub = some ix) (hn : ix.StoresBuckets n) :
    ∃ pos, p + 12 ≤ pos ∧ pos + 4 ≤ stop ∧ HasAt bs pos (uint 4 n) ∧
      ∀ bs' n', DiffersWithin bs bs' pos (pos + 4) → n' < 2 ^ 32 → n' ≠ n → HasAt bs' pos (uint 4 n') →
        EqBelow bs bs' p ∧ EqFrom bs bs' stop ∧
        ((∃ v' rows', v'.words = v.words ∧ rows' ≠ rows ∧ VocabAt bs' p v' rows' stop) ∨
          ∃ c : ChunkId, c ≠ .metadata ∧ Head bs' p c.toNat ∧
            loadVocabPart c ⟨bs', p + 12⟩ = .error .assertionError) := by
  cases h with
  | simple => cases hix
  | explicit => cases hix; exact hn.elim
  | @bucket words mn mx exp _ head fields wat i1 i2 i3 i4 i5 =>
    cases hix
    cases hn
    have hle := wordsAt_le wat
    simp only [hasAt_append, length_uint, List.length_append] at fields
    obtain ⟨⟨⟨f1, f2⟩, f3⟩, f4⟩ := fields
    refine ⟨p + 28, by omega, by omega, f4, fun bs' n' hd l1 hne hat => ?_⟩
    have hb : EqBelow bs bs' (p + 28) := fun j hj => hd.2 j (Or.inl hj)
    have hf : EqFrom bs bs' (p + 32) := ⟨hd.1, fun j hj => hd.2 j (Or.inr (by omega))⟩
    obtain ⟨w1, w2⟩ := words_from wat hf
    have hfields : HasAt bs' (p + 12) (uint 8 words.length ++ uint 4 mn ++ uint 4 mx ++ uint 4 n') := by
      simp only [hasAt_append, length_uint, List.length_append]
      exact ⟨⟨⟨hb.hasAt f1 (by simp), hb.hasAt f2 (by simp)⟩, hb.hasAt f3 (by simp)⟩, hat⟩
    have hhead := hb.head head (by omega)
    refine ⟨hb.mono (by omega), ⟨hf.1, fun j hj => hf.2 j (by omega)⟩, ?_⟩
    by_cases hr : 0 < n' ∧ n' < 64
    · refine Or.inl ⟨⟨words, words.zipIdx, some (.fifu ⟨n', mn, mx⟩)⟩, words.length + 2 ^ n', rfl, ?_,
        VocabAt.bucket hhead hfields w1 i1 i2 i3 hr.1 hr.2⟩
      intro h
      exact hne (Nat.pow_right_injective (Nat.le_refl 2) (by simpa using h))
    · refine Or.inr ⟨.bucketVocab, by decide, hhead, ?_⟩
      rw [uint_eq] at hfields
      simp only [loadVocabPart]
      unfold readBucketVocab
      rw [rd_bind_ok ((readRequired4_iff (by decide) (by decide)).mpr
        ⟨⟨lt_of_lt_of_eq wat.2.2.1 pow_64.symm, by omega, by omega, by omega⟩, hfields, rfl⟩)]
      simp only
      rw [rd_bind_ok w2]
      have h1 : pyAssert (decide ((mx : Int) ≥ mn ∧ (mn : Int) > 0)) = .ok () := by
        unfold pyAssert; rw [if_pos]; simp only [decide_eq_true_eq]; omega
      have h2 : pyAssert (decide (0 < (n' : Int) ∧ (n' : Int) < 64)) = .error .assertionError := by
        unfold pyAssert; rw [if_neg]; simp only [decide_eq_true_eq]; omega
      unfold FifuIndexer.new
      rw [h1, h2]
      rfl
  | @fastText words mn mx exp _ head fields wat i1 i2 i3 i4 i5 =>
    cases hix
    cases hn
    have hle := wordsAt_le wat
    simp only [hasAt_append, length_uint, List.length_append] at fields
    obtain ⟨⟨⟨f1, f2⟩, f3⟩, f4⟩ := fields
    refine ⟨p + 28, by omega, by omega, f4, fun bs' n' hd l1 hne hat => ?_⟩
    have hb : EqBelow bs bs' (p + 28) := fun j hj => hd.2 j (Or.inl hj)
    have hf : EqFrom bs bs' (p + 32) := ⟨hd.1, fun j hj => hd.2 j (Or.inr (by omega))⟩
    obtain ⟨w1, w2⟩ := words_from wat hf
    have hfields : HasAt bs' (p + 12) (uint 8 words.length ++ uint 4 mn ++ uint 4 mx ++ uint 4 n') := by
      simp only [hasAt_append, length_uint, List.length_append]
      exact ⟨⟨⟨hb.hasAt f1 (by simp), hb.hasAt f2 (by simp)⟩, hb.hasAt f3 (by simp)⟩, hat⟩
    have hhead := hb.head head (by omega)
    refine ⟨hb.mono (by omega), ⟨hf.1, fun j hj => hf.2 j (by omega)⟩, ?_⟩
    have hne : n' ≠ exp := hne
    by_cases hr : 0 < n'
    · exact Or.inl ⟨⟨words, words.zipIdx, some (.ft ⟨n', mn, mx⟩)⟩, words.length + n', rfl, by omega,
        VocabAt.fastText hhead hfields w1 i1 i2 i3 hr l1⟩
    · refine Or.inr ⟨.fastTextVocab, by decide, hhead, ?_⟩
      rw [uint_eq] at hfields
      simp only [loadVocabPart]
      unfold readFastTextVocab
      rw [rd_bind_ok ((readRequired4_iff (by decide) (by decide)).mpr
        ⟨⟨lt_of_lt_of_eq wat.2.2.1 pow_64.symm, by omega, by omega, by omega⟩, hfields, rfl⟩)]
      simp only
      rw [rd_bind_ok w2]
      have h1 : pyAssert (decide ((mx : Int) ≥ mn ∧ (mn : Int) > 0)) = .ok () := by
        unfold pyAssert; rw [if_pos]; simp only [decide_eq_true_eq]; omega
      have h2 : pyAssert (decide (0 < (n' : Int) ∧ (n' : Int) ≤ 2 ^ 32 - 1)) = .error .assertionError := by
        unfold pyAssert; rw [if_neg]; simp only [decide_eq_true_eq]; omega
      unfold FtIndexer.new
      rw [h1, h2]
      rfl

end FF
