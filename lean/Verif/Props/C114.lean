import Verif.Lemmas.DamageIndex
import Verif.Props.C113
/-! C114: damage to the index of an n-gram in a file. -/

namespace FF
open Fifu

/-- On any file with an explicit vocabulary that loads, take another number in the place of the index of n-gram `i`.  If
the indices of the n-grams are the same set of numbers as before, the file loads with this index for n-gram `i`, and
everything else is as before.  Otherwise loading fails with an `AssertionError`. -/
theorem C114_index (T : Toml) (mmap : Bool) (bs : Bytes) (e : Embeddings F32)
    (hbs : bs.length + 4 < 2 ^ 63) (h : Rd.run (loadFinalfusion T mmap) bs = .ok e)
    (ix : ExplIndexer) (hix : e.vocab.sub = some (.expl ix)) (i : Nat) (hi : i < ix.ngrams.length) :
    ∃ pos k : Nat, ix.index[i]? = some (ix.ngrams[i], (k : Int)) ∧ HasAt bs pos (uint 8 k) ∧
      ∀ bs' k', DiffersWithin bs bs' pos (pos + 8) → k' < 2 ^ 64 → HasAt bs' pos (uint 8 k') →
        ((ix.withIndex i k').Covers → Rd.run (loadFinalfusion T mmap) bs' =
          .ok { e with vocab := { e.vocab with sub := some (.expl (ix.withIndex i k')) } }) ∧
        (¬ (ix.withIndex i k').Covers → Rd.run (loadFinalfusion T mmap) bs' = .error .assertionError) := by
  obtain ⟨p1, p2, p3, p4, a1, a2, a3, a4, a5, a6⟩ := (loadFinalfusion_iff T mmap bs e hbs).mp h
  obtain ⟨pos, k, v0, v1, v2, v3, v4⟩ := vocab_index a3 hix hi
  refine ⟨pos, k, v0, v3, fun bs' k' hd hk' hat => ?_⟩
  obtain ⟨hb, hf, c1, c2⟩ := v4 bs' k' hd hk' hat
  have hbs' : bs'.length + 4 < 2 ^ 63 := by rw [hd.1]; exact hbs
  have b1 := hb.header a1 (metaAt_le a2)
  have b2 := hb.meta a2 (Nat.le_refl _)
  have hmap : mmap → Mappable bs' e.storage p4 := by
    intro hm h0
    rw [hf.1]
    exact a6 hm h0
  refine ⟨fun hc => ?_, fun hc => ?_⟩
  · exact (loadFinalfusion_iff T mmap bs' _ hbs').mpr ⟨p1, p2, p3, p4, b1, b2, c1 hc,
      hf.storage a4 (Nat.le_refl _), hf.norms a5 (storageAt_le a4), hmap⟩
  · rcases c2 hc with ⟨v', rows', k1, k2, k3⟩ | ⟨c, k1, k2, k3⟩
    · refine load_rows_error (norms := e.norms) hbs' b1 b2 k3 (hf.storage a4 (Nat.le_refl _)) ?_ hmap k2
      rw [k1]
      exact hf.norms a5 (storageAt_le a4)
    · exact load_vocab_error hbs' b1 b2 k1 k2 k3

/-- An index that only one n-gram has cannot be damaged without notice: any other number in its place is an
`AssertionError`. -/
theorem C114_single (T : Toml) (mmap : Bool) (bs : Bytes) (e : Embeddings F32)
    (hbs : bs.length + 4 < 2 ^ 63) (h : Rd.run (loadFinalfusion T mmap) bs = .ok e)
    (ix : ExplIndexer) (hix : e.vocab.sub = some (.expl ix)) (i : Nat) (hi : i < ix.ngrams.length)
    (hone : ∀ j p q, ix.index[i]? = some p → ix.index[j]? = some q → p.2 = q.2 → j = i) :
    ∃ pos k : Nat, ix.index[i]? = some (ix.ngrams[i], (k : Int)) ∧ HasAt bs pos (uint 8 k) ∧
      ∀ bs' k', DiffersWithin bs bs' pos (pos + 8) → k' < 2 ^ 64 → HasAt bs' pos (uint 8 k') → k' ≠ k →
        Rd.run (loadFinalfusion T mmap) bs' = .error .assertionError := by
  obtain ⟨pos, k, h1, h2, h3⟩ := C114_index T mmap bs e hbs h ix hix i hi
  refine ⟨pos, k, h1, h2, fun bs' k' hd hk' hat hne => (h3 bs' k' hd hk' hat).2 fun hc => ?_⟩
  have hk : 0 ≤ (k : Int) ∧ (k : Int) < ix.bound :=
    (loaded_covers hbs h hix k).mp (List.mem_map.mpr ⟨_, List.mem_of_getElem? h1, rfl⟩)
  obtain ⟨q, hq, hqk⟩ := List.mem_map.mp ((hc k).mpr hk)
  obtain ⟨j, hj⟩ := List.mem_iff_getElem?.mp hq
  have hj' : (ix.index.modify i fun p => (p.1, (k' : Int)))[j]? = some q := hj
  rw [List.getElem?_modify] at hj'
  by_cases hij : i = j
  · subst hij
    rw [h1] at hj'
    simp at hj'
    subst hj'
    simp only at hqk
    omega
  · simp only [hij, if_false] at hj'
    have hj2 : ix.index[j]? = some q := by simpa using hj'
    exact hij (hone j _ q h1 hj2 hqk.symm).symm

/-- The n-gram has the new index, and any other text has the index that it had. -/
theorem C114_call (ix : ExplIndexer) (hord : ix.index.map Prod.fst = ix.ngrams) (hnd : ix.ngrams.Nodup)
    (i k' : Nat) (g : PyStr) (hi : ix.ngrams[i]? = some g) :
    (ix.withIndex i k').call g = some (k' : Int) ∧ ∀ u, u ≠ g → (ix.withIndex i k').call u = ix.call u := by
  obtain ⟨k, hk⟩ : ∃ k, ix.index[i]? = some (g, k) := by
    rw [← hord, List.getElem?_map] at hi
    obtain ⟨⟨g0, k⟩, h1, h2⟩ := Option.map_eq_some_iff.mp hi
    cases h2
    exact ⟨k, h1⟩
  refine ⟨Dict.get?_of_mem ?_ ?_, fun u hu => get?_modify_val hu hk⟩
  · show ((ix.index.modify i fun p => (p.1, (k' : Int))).map Prod.fst).Nodup
    rw [fst_modify_val, hord]
    exact hnd
  · refine List.mem_of_getElem? (i := i) ?_
    show (ix.index.modify i fun p => (p.1, (k' : Int)))[i]? = _
    rw [List.getElem?_modify, hk]
    simp

/-! ### The hypotheses can be met -/

/-- The indices 0, 1, 0 with another first, second or third: 1, 1, 0 is as good, 2, 1, 0 and 0, 2, 0 are not. -/
example : let ix : ExplIndexer := ⟨[[97], [98], [99]], 1, 1, [([97], 0), ([98], 1), ([99], 0)], 2⟩
    ix.Covers ∧ (ix.withIndex 0 1).Covers ∧ ¬ (ix.withIndex 0 2).Covers ∧ ¬ (ix.withIndex 1 2).Covers := by
  have hmem : ∀ (l : List Int) (b : Int), (∀ x ∈ l, 0 ≤ x ∧ x < b) → (b = 2 ∧ 0 ∈ l ∧ 1 ∈ l) →
      ∀ j, j ∈ l ↔ 0 ≤ j ∧ j < b := by
    rintro l b h1 ⟨rfl, h2, h3⟩ j
    refine ⟨h1 j, fun hj => ?_⟩
    have : j = 0 ∨ j = 1 := by omega
    rcases this with rfl | rfl
    · exact h2
    · exact h3
  refine ⟨hmem _ _ (by decide) (by decide), hmem _ _ (by decide) (by decide), fun h => ?_, fun h => ?_⟩
  · exact absurd ((h 2).mp (by decide)) (by decide)
  · exact absurd ((h 1).mpr (by decide)) (by decide)

/-- The n-gram `a` gets the index of `b`. -/
example : let ix : ExplIndexer := ⟨[[97], [98], [99]], 1, 1, [([97], 0), ([98], 1), ([99], 0)], 2⟩
    ix.call [97] = some 0 ∧ (ix.withIndex 0 1).call [97] = some 1 ∧ (ix.withIndex 0 1).call [99] = some 0 := by
  intro ix
  obtain ⟨h1, h2⟩ := C114_call ix (by decide) (by decide) 0 1 [97] rfl
  exact ⟨by decide, h1, (h2 [99] (by decide)).trans (by decide)⟩

/-- Only `b` has the index 1. -/
example : let ix : ExplIndexer := ⟨[[97], [98], [99]], 1, 1, [([97], 0), ([98], 1), ([99], 0)], 2⟩
    ∀ j p q, ix.index[1]? = some p → ix.index[j]? = some q → p.2 = q.2 → j = 1 := by
  intro ix j p q hp hq hpq
  cases hp
  match j, hq with
  | 0, hq => cases hq; exact absurd hpq (by decide)
  | 1, _ => rfl
  | 2, hq => cases hq; exact absurd hpq (by decide)
  | j + 3, hq => cases hq

/-- The index 0 of the n-gram `a` with another byte: two n-grams with index 1, none with index 0. -/
example : ∃ (pos : Nat) (e : Embeddings F32), C113_file[pos]? = some 0 ∧
    Rd.run (loadFinalfusion Sample.toml false) C113_file = .ok e ∧ C113_ngrams e = [[97], [98]] ∧
    Rd.run (loadFinalfusion Sample.toml false) (C113_file.set pos 1) = .error .assertionError := by
  have key : ∀ (r : Res (Embeddings F32)),
      (match r with | .ok e => decide (C113_ngrams e = [[97], [98]]) | .error _ => false) = true →
      ∃ e, r = .ok e ∧ C113_ngrams e = [[97], [98]] := by
    intro r h
    cases r with
    | error x => simp at h
    | ok e => exact ⟨e, rfl, by simpa using h⟩
  obtain ⟨e, hl, hg⟩ := key (Rd.run (loadFinalfusion Sample.toml false) C113_file) (by decide +kernel)
  exact ⟨66, e, by decide +kernel, hl, hg, Sample.of_errOf (by decide +kernel)⟩

end FF
