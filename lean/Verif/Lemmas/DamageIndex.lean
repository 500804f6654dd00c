import Verif.Spec.DamageIndex
import Verif.Lemmas.DamageNgram
import Verif.Lemmas.DamageBuckets
/-! Replacing the index of an n-gram in a file. -/

namespace FF
open Fifu

private theorem idxEnc_app (a b : List (PyStr × Nat)) : itemsIdxEnc (a ++ b) = itemsIdxEnc a ++ itemsIdxEnc b := by
  rw [← grams_eq, ← grams_eq, ← grams_eq, List.flatMap_append]

/-- The n-grams of a file. -/
theorem index_damage {bs : Bytes} {p i k : Nat} {gs : List (PyStr × Nat)} {g : PyStr}
    (hat : HasAt bs p (itemsIdxEnc gs)) (hi : gs[i]? = some (g, k)) :
    ∃ pos, p ≤ pos ∧ pos + 8 ≤ p + (itemsIdxEnc gs).length ∧ HasAt bs pos (uint 8 k) ∧
      ∀ bs' k', DiffersWithin bs bs' pos (pos + 8) → HasAt bs' pos (uint 8 k') →
        HasAt bs' p (itemsIdxEnc (gs.set i (g, k'))) ∧
        (itemsIdxEnc (gs.set i (g, k'))).length = (itemsIdxEnc gs).length := by
  obtain ⟨hlt, hget⟩ := List.getElem?_eq_some_iff.mp hi
  have hsplit : gs = gs.take i ++ ((g, k) :: gs.drop (i + 1)) := by rw [← hget]; simp
  have henc : itemsIdxEnc gs = itemsIdxEnc (gs.take i) ++
      (itemEnc g ++ (le 8 k ++ itemsIdxEnc (gs.drop (i + 1)))) := by
    conv_lhs => rw [hsplit, idxEnc_app]
    rfl
  rw [henc, hasAt_append, hasAt_append, hasAt_append, length_le] at hat
  obtain ⟨g1, g2, g3, g4⟩ := hat
  have hlen : (itemsIdxEnc gs).length = (itemsIdxEnc (gs.take i)).length + (itemEnc g).length +
      (8 + (itemsIdxEnc (gs.drop (i + 1))).length) := by
    rw [henc]; simp only [List.length_append, length_le]; omega
  rw [uint_eq]
  refine ⟨p + (itemsIdxEnc (gs.take i)).length + (itemEnc g).length, by omega, by rw [hlen]; omega, g3, ?_⟩
  intro bs' k' hd hat'
  have hset : gs.set i (g, k') = gs.take i ++ ((g, k') :: gs.drop (i + 1)) := by
    rw [List.set_eq_take_append_cons_drop, if_pos hlt]
  have henc' : itemsIdxEnc (gs.set i (g, k')) = itemsIdxEnc (gs.take i) ++
      (itemEnc g ++ (le 8 k' ++ itemsIdxEnc (gs.drop (i + 1)))) := by
    rw [hset, idxEnc_app]; rfl
  constructor
  · rw [henc', hasAt_append, hasAt_append, hasAt_append, length_le]
    exact ⟨HasAt.frame g1 fun j _ hj => hd.2 j (Or.inl (by omega)),
      HasAt.frame g2 fun j _ hj => hd.2 j (Or.inl (by omega)), hat',
      HasAt.frame g4 fun j hj _ => hd.2 j (Or.inr (by omega))⟩
  · rw [henc', hlen]; simp only [List.length_append, length_le]; omega

/-- Indices that are not the numbers below a bound. -/
theorem explNew_gap {grams : List (PyStr × Nat)} {mn mx : Nat} (h1 : 0 < mn) (h2 : mn ≤ mx) (h3 : mx < 2 ^ 32)
    (h0 : grams ≠ []) (hnd : (grams.map Prod.fst).Nodup)
    (h : ¬ ∃ bound : Nat, ∀ i, i < bound ↔ i ∈ grams.map Prod.snd) :
    ExplIndexer.new (grams.map Prod.fst) mn mx
      (some (Dict.ofPairs (grams.map fun p => (p.1, (p.2 : Int))))) = .error .assertionError := by
  cases hr : ExplIndexer.new (grams.map Prod.fst) mn mx
      (some (Dict.ofPairs (grams.map fun p => (p.1, (p.2 : Int))))) with
  | ok ix =>
    obtain ⟨_, _, _, _, _, bound, hb, _⟩ := explNew_iff.mp hr
    exact absurd ⟨bound, hb⟩ h
  | error x =>
    have hd := Dict.ofPairs_eq (grams.map fun p => (p.1, (p.2 : Int))) (by rw [List.map_map]; exact hnd)
    rw [hd] at hr
    have e1 : pyAssert (decide ((mx : Int) ≥ mn ∧ (mn : Int) > 0)) = .ok () := by
      unfold pyAssert; rw [if_pos]; simp only [decide_eq_true_eq]; omega
    have e2 : toU32 (mn : Int) = .ok mn := by
      unfold toU32; rw [if_pos (by constructor <;> omega)]; simp
    have e3 : toU32 (mx : Int) = .ok mx := by
      unfold toU32; rw [if_pos (by constructor <;> omega)]; simp
    have e4 : ∃ m, pyMax ((grams.map fun p => (p.1, (p.2 : Int))).map Prod.snd) = .ok m := by
      cases grams with
      | nil => exact absurd rfl h0
      | cons a l => exact ⟨_, rfl⟩
    obtain ⟨m, e4⟩ := e4
    have hass : ∀ c, pyAssert c = .ok () ∨ pyAssert c = .error .assertionError := by
      intro c; cases c
      · exact Or.inr rfl
      · exact Or.inl rfl
    unfold ExplIndexer.new at hr
    rw [e1, e2, e3] at hr
    simp only [bind, Except.bind] at hr
    rcases hass (decide ((grams.map Prod.fst).dedup.length = (grams.map Prod.fst).length)) with h4 | h4
    · rw [h4] at hr
      simp only at hr
      rcases hass ((grams.map Prod.fst).dedup.all (fun g => (Dict.get? (grams.map fun p => (p.1, (p.2 : Int))) g).isSome) &&
        decide ((grams.map fun p => (p.1, (p.2 : Int))).length = (grams.map Prod.fst).length)) with h5 | h5
      · rw [h5, e4] at hr
        simp only at hr
        rcases hass (decide (m + 1 = ((((grams.map fun p => (p.1, (p.2 : Int))).map Prod.snd).dedup.length : Nat) : Int))) with h6 | h6
        · rw [h6] at hr
          cases hr
        · rw [h6] at hr
          cases hr
          rfl
      · rw [h5] at hr
        cases hr
        rfl
    · rw [h4] at hr
      cases hr
      rfl

/-- A vocabulary with another number in the place of the index of an n-gram. -/
theorem vocab_index {bs : Bytes} {p rows stop i : Nat} {v : Vocab} {ix : ExplIndexer}
    (h : VocabAt bs p v rows stop) (hix : v.sub = some (.expl ix)) (hi : i < ix.ngrams.length) :
    ∃ pos k : Nat, ix.index[i]? = some (ix.ngrams[i], (k : Int)) ∧ p ≤ pos ∧ pos + 8 ≤ stop ∧
      HasAt bs pos (uint 8 k) ∧
      ∀ bs' k', DiffersWithin bs bs' pos (pos + 8) → k' < 2 ^ 64 → HasAt bs' pos (uint 8 k') →
        EqBelow bs bs' p ∧ EqFrom bs bs' stop ∧
        ((ix.withIndex i k').Covers → VocabAt bs' p { v with sub := some (.expl (ix.withIndex i k')) } rows stop) ∧
        (¬ (ix.withIndex i k').Covers →
          (∃ v' rows', v'.words = v.words ∧ rows' ≠ rows ∧ VocabAt bs' p v' rows' stop) ∨
          ∃ c : ChunkId, c ≠ .metadata ∧ Head bs' p c.toNat ∧
            loadVocabPart c ⟨bs', p + 12⟩ = .error .assertionError) := by
  cases h with
  | simple => cases hix
  | bucket => cases hix
  | fastText => cases hix
  | @explicit words grams mn mx bound mid _ head fields wat i1 i2 i3 i4 i5 i6 i7 i8 i9 i10 =>
    cases hix
    have hle := wordsAt_le wat
    have hlt : i < grams.length := by simpa using hi
    have hk : grams[i]? = some (grams[i].1, grams[i].2) := List.getElem?_eq_getElem hlt
    rw [grams_eq] at i9 i10
    obtain ⟨pos, p1, p2, p3, p4⟩ := index_damage i9 hk
    refine ⟨pos, grams[i].2, by rw [List.getElem?_map, hk]; simp, by omega, by omega, p3, fun bs' k' hd hk' hat => ?_⟩
    obtain ⟨r2, r3⟩ := p4 bs' k' hd hat
    have hb : EqBelow bs bs' pos := fun j hj => hd.2 j (Or.inl hj)
    have hfields := hb.hasAt fields (by simp; omega)
    have hhead := hb.head head (by omega)
    have hwords : WordsAt bs' (p + 36) words mid := by
      obtain ⟨w1, w2, w3, w4, w5⟩ := wat
      exact ⟨w1, w2, w3, hb.hasAt w4 (by omega), w5⟩
    have r1 : ∀ w ∈ grams.set i (grams[i].1, k'), Storable w.1 ∧ w.2 < 2 ^ 64 := by
      intro u hu
      rcases List.mem_or_eq_of_mem_set hu with hu | rfl
      · exact i7 u hu
      · exact ⟨(i7 _ (List.getElem_mem hlt)).1, hk'⟩
    have hfst : (grams.set i (grams[i].1, k')).map Prod.fst = grams.map Prod.fst := by
      rw [List.map_set]
      refine List.ext_getElem? fun j => ?_
      by_cases hj : i = j
      · subst hj
        rw [List.getElem?_set_self (by simpa using hlt), List.getElem?_map, hk]; rfl
      · rw [List.getElem?_set_ne hj]
    have hindex : (grams.set i (grams[i].1, k')).map (fun g => (g.1, (g.2 : Int))) =
        (grams.map fun g => (g.1, (g.2 : Int))).modify i fun p => (p.1, (k' : Int)) := by
      refine List.ext_getElem? fun j => ?_
      rw [List.getElem?_modify, List.getElem?_map, List.getElem?_map]
      by_cases hj : i = j
      · subst hj
        rw [List.getElem?_set_self hlt, hk]; simp
      · rw [List.getElem?_set_ne hj]; simp [hj]
    have hne : grams.set i (grams[i].1, k') ≠ [] := by
      intro h0; have := congrArg List.length h0; simp at this; exact i4 this
    have hmake : ∀ b : Nat, (∀ j, j < b ↔ j ∈ (grams.set i (grams[i].1, k')).map Prod.snd) →
        VocabAt bs' p ⟨words, words.zipIdx, some (.expl ⟨grams.map Prod.fst, mn, mx,
          (grams.map fun g => (g.1, (g.2 : Int))).modify i fun p => (p.1, (k' : Int)), (b : Int)⟩)⟩ (words.length + b)
          stop := by
      intro b hcov
      have hs := VocabAt.explicit (words := words) (grams := grams.set i (grams[i].1, k')) (bound := b) (stop := stop)
        hhead (by rw [List.length_set]; exact hfields) hwords i1 i2 i3 hne (by rw [hfst]; exact i5)
        (by rw [List.length_set]; exact i6) r1 hcov (by rw [grams_eq]; exact r2) (by rw [grams_eq, r3]; exact i10)
      rw [hfst, hindex] at hs
      exact hs
    have hsnd : ∀ j : Int, j ∈ ((grams.map fun g => (g.1, (g.2 : Int))).modify i fun p => (p.1, (k' : Int))).map Prod.snd ↔
        ∃ n : Nat, j = n ∧ n ∈ (grams.set i (grams[i].1, k')).map Prod.snd := by
      intro j
      rw [← hindex, List.map_map]
      simp only [List.mem_map, Function.comp]
      constructor
      · rintro ⟨a, ha, rfl⟩
        exact ⟨a.2, rfl, a, ha, rfl⟩
      · rintro ⟨n, rfl, a, ha, rfl⟩
        exact ⟨a, ha, rfl⟩
    have hcov : ∀ b : Nat, (∀ j, j < b ↔ j ∈ (grams.set i (grams[i].1, k')).map Prod.snd) ↔
        ∀ j : Int, j ∈ ((grams.map fun g => (g.1, (g.2 : Int))).modify i fun p => (p.1, (k' : Int))).map Prod.snd ↔
          0 ≤ j ∧ j < b := by
      intro b
      constructor
      · intro h j
        rw [hsnd]
        constructor
        · rintro ⟨n, rfl, hn⟩
          have := (h n).mpr hn
          omega
        · rintro ⟨j0, jb⟩
          refine ⟨j.toNat, by omega, (h _).mp (by omega)⟩
      · intro h j
        have := h j
        rw [hsnd] at this
        constructor
        · intro hj
          obtain ⟨n, hn, hm⟩ := this.mpr (by omega)
          have : n = j := by omega
          rwa [this] at hm
        · intro hj
          have := this.mp ⟨j, rfl, hj⟩
          omega
    refine ⟨hb.mono (by omega), ⟨hd.1, fun j hj => hd.2 j (Or.inr (by omega))⟩, fun hc => ?_, fun hc => ?_⟩
    · exact hmake bound ((hcov bound).mpr hc)
    · by_cases hex : ∃ b : Nat, ∀ j, j < b ↔ j ∈ (grams.set i (grams[i].1, k')).map Prod.snd
      · obtain ⟨b, hbv⟩ := hex
        refine Or.inl ⟨_, words.length + b, ?_, ?_, hmake b hbv⟩
        · rfl
        intro he
        have : b = bound := by omega
        subst this
        exact hc ((hcov b).mp hbv)
      · refine Or.inr ⟨.explicitVocab, by decide, hhead, ?_⟩
        rw [uint_eq] at hfields
        simp only [loadVocabPart]
        unfold readExplicitVocab
        rw [rd_bind_ok ((readRequired4_iff (by decide) (by decide)).mpr
          ⟨⟨lt_of_lt_of_eq wat.2.2.1 pow_64.symm, by omega, by omega, by omega⟩, hfields, rfl⟩)]
        simp only
        rw [rd_bind_ok (readItems_wordsAt hwords)]
        have hr := readItemsIdx_of (fun w hw => ⟨storable_iff.mp (r1 w hw).1, lt_of_lt_of_eq (r1 w hw).2 pow_64.symm⟩) r2
        rw [List.length_set] at hr
        rw [rd_bind_ok hr, explNew_gap i1 i2 i3 hne (by rw [hfst]; exact i5) hex]
        rfl

/-- Another value for the key in place `i`. -/
theorem get?_modify_val {β : Type} {g u : PyStr} (hu : u ≠ g) {b' : β} :
    ∀ {d : Dict PyStr β} {i : Nat} {k : β}, d[i]? = some (g, k) →
      Dict.get? (d.modify i fun p => (p.1, b')) u = Dict.get? d u := by
  intro d
  induction d with
  | nil => intro i k h; cases h
  | cons x d ih =>
    intro i k h
    obtain ⟨a, b⟩ := x
    cases i with
    | zero =>
      cases h
      rw [List.modify_zero_cons]
      simp only [Dict.get?, if_neg (Ne.symm hu)]
    | succ i =>
      rw [List.modify_succ_cons]
      simp only [Dict.get?]
      rw [ih (by simpa using h)]

theorem fst_modify_val {β : Type} {b' : β} (d : Dict PyStr β) (i : Nat) :
    (d.modify i fun p => (p.1, b')).map Prod.fst = d.map Prod.fst := by
  refine List.ext_getElem? fun j => ?_
  rw [List.getElem?_map, List.getElem?_modify, List.getElem?_map]
  by_cases hj : i = j
  · subst hj
    cases d[i]? <;> simp
  · simp [hj]

/-- The indices of a loaded vocabulary are the numbers below the bound. -/
theorem loaded_covers {T : Toml} {mmap : Bool} {bs : Bytes} {e : Embeddings F32} {ix : ExplIndexer}
    (hbs : bs.length + 4 < 2 ^ 63) (h : Rd.run (loadFinalfusion T mmap) bs = .ok e)
    (hix : e.vocab.sub = some (.expl ix)) : ix.Covers := by
  obtain ⟨p1, p2, p3, p4, a1, a2, a3, a4, a5, a6⟩ := (loadFinalfusion_iff T mmap bs e hbs).mp h
  generalize e.vocab = v at a3 hix
  generalize e.storage.nRows = rows at a3
  cases a3 with
  | simple => cases hix
  | bucket => cases hix
  | fastText => cases hix
  | @explicit words grams mn mx bound mid _ head fields wat i1 i2 i3 i4 i5 i6 i7 i8 i9 i10 =>
    cases hix
    intro j
    simp only [List.map_map, List.mem_map, Function.comp]
    constructor
    · rintro ⟨a, ha, rfl⟩
      have := (i8 a.2).mpr (List.mem_map.mpr ⟨a, ha, rfl⟩)
      omega
    · rintro ⟨j0, jb⟩
      obtain ⟨a, ha, h2⟩ := List.mem_map.mp ((i8 j.toNat).mp (by omega))
      exact ⟨a, ha, by omega⟩

end FF
