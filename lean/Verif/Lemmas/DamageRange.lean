import Verif.Spec.DamageRange
import Verif.Lemmas.DamageWord
/-! Replacing the lengths of n-grams in a file. -/

namespace FF
open Fifu

theorem words_from {bs bs' : Bytes} {p stop : Nat} {ws : List PyStr} (h : WordsAt bs p ws stop)
    (hf : EqFrom bs bs' p) : WordsAt bs' p ws stop ∧ readItems ws.length ⟨bs', p⟩ = .ok (ws, ⟨bs', stop⟩) := by
  obtain ⟨h1, h2, h3, h4, rfl⟩ := h
  have hat := hf.hasAt h4 (Nat.le_refl _)
  refine ⟨⟨h1, h2, h3, hat, rfl⟩, ?_⟩
  have := readItems_of (fun w hw => storable_iff.mp (h2 w hw)) (words_eq ws ▸ hat)
  rw [this, words_eq]

private theorem range_error {mn mx : Nat} (h : ¬ (0 < mn ∧ mn ≤ mx)) :
    pyAssert (decide ((mx : Int) ≥ mn ∧ (mn : Int) > 0)) = .error .assertionError := by
  unfold pyAssert
  rw [if_neg]
  simp only [decide_eq_true_eq]
  omega

/-- The lengths of the n-grams. -/
theorem vocab_range {bs : Bytes} {p rows stop : Nat} {v : Vocab} {ix : Indexer} (h : VocabAt bs p v rows stop)
    (hix : v.sub = some ix) :
    ∃ pos, p + 12 ≤ pos ∧ pos + 8 ≤ stop ∧ HasAt bs pos (uint 4 ix.minN ++ uint 4 ix.maxN) ∧
      ∀ bs' mn mx, DiffersWithin bs bs' pos (pos + 8) → mn < 2 ^ 32 → mx < 2 ^ 32 →
        HasAt bs' pos (uint 4 mn ++ uint 4 mx) →
        EqBelow bs bs' p ∧ EqFrom bs bs' stop ∧
        (0 < mn ∧ mn ≤ mx → VocabAt bs' p (v.withRange mn mx) rows stop) ∧
        ∃ c : ChunkId, c ≠ .metadata ∧ Head bs' p c.toNat ∧
          (¬ (0 < mn ∧ mn ≤ mx) → loadVocabPart c ⟨bs', p + 12⟩ = .error .assertionError) := by
  cases h with
  | simple => cases hix
  | @bucket words mn mx exp _ head fields wat i1 i2 i3 i4 i5 =>
    cases hix
    have hle := wordsAt_le wat
    simp only [hasAt_append, length_uint, List.length_append] at fields
    obtain ⟨⟨⟨f1, f2⟩, f3⟩, f4⟩ := fields
    refine ⟨p + 20, by omega, by omega, hasAt_append.mpr ⟨f2, by rw [length_uint]; exact f3⟩, fun bs' mn' mx' hd l1 l2 hat => ?_⟩
    have hb : EqBelow bs bs' (p + 20) := fun j hj => hd.2 j (Or.inl hj)
    have hf : EqFrom bs bs' (p + 28) := ⟨hd.1, fun j hj => hd.2 j (Or.inr (by omega))⟩
    obtain ⟨w1, w2⟩ := words_from wat ⟨hf.1, fun j hj => hf.2 j (by omega)⟩
    obtain ⟨g2, g3⟩ := hasAt_append.mp hat
    have hfields : HasAt bs' (p + 12) (uint 8 words.length ++ uint 4 mn' ++ uint 4 mx' ++ uint 4 exp) := by
      simp only [hasAt_append, length_uint, List.length_append]
      exact ⟨⟨⟨hb.hasAt f1 (by simp), g2⟩, by simpa using g3⟩, hf.hasAt f4 (by omega)⟩
    have hhead := hb.head head (by omega)
    refine ⟨hb.mono (by omega), ⟨hf.1, fun j hj => hf.2 j (by omega)⟩, fun hr => ?_, .bucketVocab, by decide, hhead,
      fun hr => ?_⟩
    · exact VocabAt.bucket hhead hfields w1 hr.1 hr.2 l2 i4 i5
    · rw [uint_eq] at hfields
      simp only [loadVocabPart]
      unfold readBucketVocab
      rw [rd_bind_ok ((readRequired4_iff (by decide) (by decide)).mpr
        ⟨⟨lt_of_lt_of_eq wat.2.2.1 pow_64.symm, by omega, by omega, by omega⟩, hfields, rfl⟩)]
      simp only
      rw [rd_bind_ok w2]
      unfold FifuIndexer.new
      rw [range_error hr]
      rfl
  | @fastText words mn mx exp _ head fields wat i1 i2 i3 i4 i5 =>
    cases hix
    have hle := wordsAt_le wat
    simp only [hasAt_append, length_uint, List.length_append] at fields
    obtain ⟨⟨⟨f1, f2⟩, f3⟩, f4⟩ := fields
    refine ⟨p + 20, by omega, by omega, hasAt_append.mpr ⟨f2, by rw [length_uint]; exact f3⟩, fun bs' mn' mx' hd l1 l2 hat => ?_⟩
    have hb : EqBelow bs bs' (p + 20) := fun j hj => hd.2 j (Or.inl hj)
    have hf : EqFrom bs bs' (p + 28) := ⟨hd.1, fun j hj => hd.2 j (Or.inr (by omega))⟩
    obtain ⟨w1, w2⟩ := words_from wat ⟨hf.1, fun j hj => hf.2 j (by omega)⟩
    obtain ⟨g2, g3⟩ := hasAt_append.mp hat
    have hfields : HasAt bs' (p + 12) (uint 8 words.length ++ uint 4 mn' ++ uint 4 mx' ++ uint 4 exp) := by
      simp only [hasAt_append, length_uint, List.length_append]
      exact ⟨⟨⟨hb.hasAt f1 (by simp), g2⟩, by simpa using g3⟩, hf.hasAt f4 (by omega)⟩
    have hhead := hb.head head (by omega)
    refine ⟨hb.mono (by omega), ⟨hf.1, fun j hj => hf.2 j (by omega)⟩, fun hr => ?_, .fastTextVocab, by decide, hhead,
      fun hr => ?_⟩
    · exact VocabAt.fastText hhead hfields w1 hr.1 hr.2 l2 i4 i5
    · rw [uint_eq] at hfields
      simp only [loadVocabPart]
      unfold readFastTextVocab
      rw [rd_bind_ok ((readRequired4_iff (by decide) (by decide)).mpr
        ⟨⟨lt_of_lt_of_eq wat.2.2.1 pow_64.symm, by omega, by omega, by omega⟩, hfields, rfl⟩)]
      simp only
      rw [rd_bind_ok w2]
      unfold FtIndexer.new
      rw [range_error hr]
      rfl
  | @explicit words grams mn mx bound mid _ head fields wat i1 i2 i3 i4 i5 i6 i7 i8 i9 i10 =>
    cases hix
    have hle := wordsAt_le wat
    simp only [hasAt_append, length_uint, List.length_append] at fields
    obtain ⟨⟨⟨f1, f2⟩, f3⟩, f4⟩ := fields
    refine ⟨p + 28, by omega, by omega, hasAt_append.mpr ⟨f3, by rw [length_uint]; exact f4⟩, fun bs' mn' mx' hd l1 l2 hat => ?_⟩
    have hb : EqBelow bs bs' (p + 28) := fun j hj => hd.2 j (Or.inl hj)
    have hf : EqFrom bs bs' (p + 36) := ⟨hd.1, fun j hj => hd.2 j (Or.inr (by omega))⟩
    obtain ⟨w1, w2⟩ := words_from wat hf
    obtain ⟨g3, g4⟩ := hasAt_append.mp hat
    have hgrams := hf.hasAt i9 (by omega)
    have hfields : HasAt bs' (p + 12) (uint 8 words.length ++ uint 8 grams.length ++ uint 4 mn' ++ uint 4 mx') := by
      simp only [hasAt_append, length_uint, List.length_append]
      exact ⟨⟨⟨hb.hasAt f1 (by simp), hb.hasAt f2 (by simp)⟩, g3⟩, by simpa using g4⟩
    have hhead := hb.head head (by omega)
    refine ⟨hb.mono (by omega), ⟨hf.1, fun j hj => hf.2 j (by omega)⟩, fun hr => ?_, .explicitVocab, by decide, hhead,
      fun hr => ?_⟩
    · exact VocabAt.explicit hhead hfields w1 hr.1 hr.2 l2 i4 i5 i6 i7 i8 hgrams i10
    · rw [uint_eq] at hfields
      rw [grams_eq] at hgrams
      simp only [loadVocabPart]
      unfold readExplicitVocab
      rw [rd_bind_ok ((readRequired4_iff (by decide) (by decide)).mpr
        ⟨⟨lt_of_lt_of_eq wat.2.2.1 pow_64.symm, by omega, by omega, by omega⟩, hfields, rfl⟩)]
      simp only
      rw [rd_bind_ok w2, rd_bind_ok (readItemsIdx_of (fun g hg => ⟨storable_iff.mp (i7 g hg).1,
        lt_of_lt_of_eq (i7 g hg).2 pow_64.symm⟩) hgrams)]
      unfold ExplIndexer.new
      rw [range_error hr]
      rfl

end FF
