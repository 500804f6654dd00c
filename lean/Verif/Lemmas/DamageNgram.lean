import Verif.Spec.DamageNgram
import Verif.Lemmas.DamageRange
/-! Replacing the bytes of an n-gram in a file. -/

namespace FF
open Fifu

private theorem idxEnc_app (a b : List (PyStr × Nat)) : itemsIdxEnc (a ++ b) = itemsIdxEnc a ++ itemsIdxEnc b := by
  rw [← grams_eq, ← grams_eq, ← grams_eq, List.flatMap_append]

/-- Bytes in the place of an n-gram that are not a text. -/
theorem readItemsIdx_bad {bs buf : Bytes} {x : PyErr} (hx : decode buf = .error x) (hl : buf.length < 256 ^ 4)
    (n : Nat) : ∀ {ws : List (PyStr × Nat)} {p : Nat}, (∀ w ∈ ws, ItemOk w.1 ∧ w.2 < 256 ^ 8) →
    HasAt bs p (itemsIdxEnc ws) → HasAt bs (p + (itemsIdxEnc ws).length) (le 4 buf.length ++ buf) →
    readItemsIdx (ws.length + (n + 1)) ⟨bs, p⟩ = .error x := by
  intro ws
  induction ws with
  | nil =>
    intro p _ _ hb
    simp only [itemsIdxEnc, List.length_nil, Nat.add_zero] at hb
    rw [hasAt_append, length_le] at hb
    rw [List.length_nil, Nat.zero_add]
    unfold readItemsIdx
    rw [rd_bind_ok ((readOne_iff (by decide) (by decide)).mpr ⟨hl, hb.1, rfl⟩)]
    rw [rd_bind_ok (read_hasAt hb.2 (lt_trans hl (by decide)))]
    exact rd_bind_error (by rw [hx]; rfl)
  | cons wi ws ih =>
    intro p hw hb hc
    obtain ⟨w, i⟩ := wi
    have hlen : (itemsIdxEnc ((w, i) :: ws)).length = 4 + (utf8 w).length + 8 + (itemsIdxEnc ws).length := by
      simp only [itemsIdxEnc, itemEnc, List.length_append, length_le]; omega
    rw [hlen] at hc
    unfold itemsIdxEnc itemEnc at hb
    rw [hasAt_append, hasAt_append, hasAt_append] at hb
    obtain ⟨⟨b1, b2⟩, b3, b4⟩ := hb
    rw [length_le] at b2 b4
    have hi := hw (w, i) (by simp)
    rw [List.length_cons, show ws.length + 1 + (n + 1) = (ws.length + (n + 1)) + 1 by omega]
    unfold readItemsIdx
    rw [rd_bind_ok ((readOne_iff (by decide) (by decide)).mpr ⟨hi.1.2, b1, rfl⟩)]
    rw [rd_bind_ok (read_hasAt b2 (lt_trans hi.1.2 (by decide)))]
    rw [rd_bind_ok (rd_lift_iff.mpr ⟨decode_utf8 _ hi.1.1, rfl⟩)]
    rw [List.length_append, length_le, ← Nat.add_assoc] at b3 b4
    rw [rd_bind_ok ((readOne_iff (by decide) (by decide)).mpr ⟨hi.2, b3, rfl⟩)]
    exact rd_bind_error (ih (fun x hx => hw x (by simp [hx])) b4 (by
      rw [show p + 4 + (utf8 w).length + 8 + (itemsIdxEnc ws).length =
        p + (4 + (utf8 w).length + 8 + (itemsIdxEnc ws).length) by omega]; exact hc))

/-- The n-grams of a file. -/
theorem grams_damage {bs : Bytes} {p i k : Nat} {gs : List (PyStr × Nat)} {g : PyStr}
    (hok : ∀ w ∈ gs, ItemOk w.1 ∧ w.2 < 256 ^ 8) (hat : HasAt bs p (itemsIdxEnc gs)) (hi : gs[i]? = some (g, k)) :
    ∃ pos, p ≤ pos ∧ pos + (utf8 g).length ≤ p + (itemsIdxEnc gs).length ∧ HasAt bs pos (utf8 g) ∧
      ∀ bs', DiffersWithin bs bs' pos (pos + (utf8 g).length) →
        (∀ g', ReadsWord bs' pos (utf8 g).length g' →
          (∀ w ∈ gs.set i (g', k), ItemOk w.1 ∧ w.2 < 256 ^ 8) ∧ HasAt bs' p (itemsIdxEnc (gs.set i (g', k))) ∧
          (itemsIdxEnc (gs.set i (g', k))).length = (itemsIdxEnc gs).length) ∧
        ((¬ ∃ g', ReadsWord bs' pos (utf8 g).length g') →
          readItemsIdx gs.length ⟨bs', p⟩ = .error .unicodeDecodeError) := by
  obtain ⟨hlt, hget⟩ := List.getElem?_eq_some_iff.mp hi
  have hsplit : gs = gs.take i ++ ((g, k) :: gs.drop (i + 1)) := by rw [← hget]; simp
  have hstr := hok _ (List.mem_of_getElem? hi)
  have henc : itemsIdxEnc gs = itemsIdxEnc (gs.take i) ++
      ((le 4 (utf8 g).length ++ utf8 g) ++ (le 8 k ++ itemsIdxEnc (gs.drop (i + 1)))) := by
    conv_lhs => rw [hsplit, idxEnc_app]
    rfl
  rw [henc, hasAt_append, hasAt_append, hasAt_append, length_le] at hat
  obtain ⟨g1, ⟨g2, g3⟩, g4⟩ := hat
  have hlen : (itemsIdxEnc gs).length = (itemsIdxEnc (gs.take i)).length + (4 + (utf8 g).length) +
      (8 + (itemsIdxEnc (gs.drop (i + 1))).length) := by
    rw [henc]; simp only [List.length_append, length_le]; omega
  rw [List.length_append, length_le] at g4
  refine ⟨p + (itemsIdxEnc (gs.take i)).length + 4, by omega, by rw [hlen]; omega, g3, ?_⟩
  intro bs' hd
  have k1 : HasAt bs' p (itemsIdxEnc (gs.take i)) := HasAt.frame g1 fun j _ hj => hd.2 j (Or.inl (by omega))
  have k2 : HasAt bs' (p + (itemsIdxEnc (gs.take i)).length) (le 4 (utf8 g).length) :=
    HasAt.frame g2 fun j _ hj => hd.2 j (Or.inl (by rw [length_le] at hj; omega))
  have k4 := HasAt.frame (bs' := bs') g4 fun j hj _ => hd.2 j (Or.inr (by omega))
  constructor
  · rintro g' ⟨c1, c2, c3⟩
    have hset : gs.set i (g', k) = gs.take i ++ ((g', k) :: gs.drop (i + 1)) := by
      rw [List.set_eq_take_append_cons_drop, if_pos hlt]
    have henc' : itemsIdxEnc (gs.set i (g', k)) = itemsIdxEnc (gs.take i) ++
        ((le 4 (utf8 g').length ++ utf8 g') ++ (le 8 k ++ itemsIdxEnc (gs.drop (i + 1)))) := by
      rw [hset, idxEnc_app]; rfl
    refine ⟨?_, ?_, ?_⟩
    · intro u hu
      rcases List.mem_or_eq_of_mem_set hu with hu | rfl
      · exact hok u hu
      · exact ⟨⟨noSurr_iff.mp c1, by rw [c2]; exact hstr.1.2⟩, hstr.2⟩
    · rw [henc', hasAt_append, hasAt_append, hasAt_append, length_le, List.length_append, length_le, c2]
      exact ⟨k1, ⟨k2, c3⟩, k4⟩
    · rw [henc', hlen]; simp only [List.length_append, length_le, c2]; omega
  · intro hno
    let buf := (bs'.drop (p + (itemsIdxEnc (gs.take i)).length + 4)).take (utf8 g).length
    have hbl : buf.length = (utf8 g).length := by
      have hp := List.IsPrefix.length_le g3
      simp only [buf, List.length_take, List.length_drop, hd.1] at hp ⊢
      omega
    have hbat : HasAt bs' (p + (itemsIdxEnc (gs.take i)).length + 4) buf := List.take_prefix _ _
    cases hdec : decode buf with
    | ok w' =>
      obtain ⟨q1, q2⟩ := utf8_of_decode buf hdec
      refine absurd ⟨w', noSurr_iff.mpr q2, ?_, ?_⟩ hno
      · rw [q1]; exact hbl
      · rw [q1]; exact hbat
    | error x =>
      obtain rfl := decode_err hdec
      have := readItemsIdx_bad hdec (by rw [hbl]; exact hstr.1.2) (gs.length - i - 1) (ws := gs.take i) (p := p)
        (fun u hu => hok u (List.mem_of_mem_take hu)) k1
        (by rw [hasAt_append, length_le, hbl]; exact ⟨k2, hbat⟩)
      rw [List.length_take, Nat.min_eq_left (by omega), show i + (gs.length - i - 1 + 1) = gs.length by omega] at this
      exact this

/-- N-grams that are not distinct. -/
theorem explNew_dup {gs : List PyStr} {mn mx : Nat} {index : Dict PyStr Int} (h1 : 0 < mn) (h2 : mn ≤ mx)
    (h3 : mx < 2 ^ 32) (h : ¬ gs.Nodup) : ExplIndexer.new gs mn mx (some index) = .error .assertionError := by
  have e1 : pyAssert (decide ((mx : Int) ≥ mn ∧ (mn : Int) > 0)) = .ok () := by
    unfold pyAssert; rw [if_pos]; simp only [decide_eq_true_eq]; omega
  have e2 : toU32 (mn : Int) = .ok mn := by
    unfold toU32; rw [if_pos (by constructor <;> omega)]; simp
  have e3 : toU32 (mx : Int) = .ok mx := by
    unfold toU32; rw [if_pos (by constructor <;> omega)]; simp
  have e4 : pyAssert (decide (gs.dedup.length = gs.length)) = .error .assertionError := by
    unfold pyAssert; rw [if_neg]
    rw [decide_eq_true_eq]
    intro he
    exact h ((List.Sublist.eq_of_length (List.dedup_sublist gs) he) ▸ List.nodup_dedup gs)
  unfold ExplIndexer.new
  rw [e1, e2, e3]
  simp only [bind, Except.bind]
  rw [e4]

/-- A vocabulary with other bytes in the place of an n-gram. -/
theorem vocab_ngram {bs : Bytes} {p rows stop i : Nat} {v : Vocab} {ix : ExplIndexer} {g : PyStr}
    (h : VocabAt bs p v rows stop) (hix : v.sub = some (.expl ix)) (hi : ix.ngrams[i]? = some g) :
    ix.ngrams.Nodup ∧
    ∃ pos, p ≤ pos ∧ pos + (utf8 g).length ≤ stop ∧ HasAt bs pos (utf8 g) ∧
      ∀ bs', DiffersWithin bs bs' pos (pos + (utf8 g).length) →
        EqBelow bs bs' p ∧ EqFrom bs bs' stop ∧
        (∀ g', ReadsWord bs' pos (utf8 g).length g' → (ix.ngrams.set i g').Nodup →
          VocabAt bs' p { v with sub := some (.expl (ix.withNgram i g')) } rows stop) ∧
        ∃ c : ChunkId, c ≠ .metadata ∧ Head bs' p c.toNat ∧
          (∀ g', ReadsWord bs' pos (utf8 g).length g' → ¬ (ix.ngrams.set i g').Nodup →
            loadVocabPart c ⟨bs', p + 12⟩ = .error .assertionError) ∧
          ((¬ ∃ g', ReadsWord bs' pos (utf8 g).length g') →
            loadVocabPart c ⟨bs', p + 12⟩ = .error .unicodeDecodeError) := by
  cases h with
  | simple => cases hix
  | bucket => cases hix
  | fastText => cases hix
  | @explicit words grams mn mx bound mid _ head fields wat i1 i2 i3 i4 i5 i6 i7 i8 i9 i10 =>
    cases hix
    refine ⟨i5, ?_⟩
    have hle := wordsAt_le wat
    have hok : ∀ w ∈ grams, ItemOk w.1 ∧ w.2 < 256 ^ 8 := fun g hg =>
      ⟨storable_iff.mp (i7 g hg).1, lt_of_lt_of_eq (i7 g hg).2 pow_64.symm⟩
    have hk : ∃ k, grams[i]? = some (g, k) := by
      rw [List.getElem?_map] at hi
      obtain ⟨⟨g0, k⟩, h1, h2⟩ := Option.map_eq_some_iff.mp hi
      cases h2
      exact ⟨k, h1⟩
    obtain ⟨k, hk⟩ := hk
    rw [grams_eq] at i9 i10
    obtain ⟨pos, p1, p2, p3, p4⟩ := grams_damage hok i9 hk
    refine ⟨pos, by omega, by omega, p3, fun bs' hd => ?_⟩
    obtain ⟨q1, q2⟩ := p4 bs' hd
    have hb : EqBelow bs bs' pos := fun j hj => hd.2 j (Or.inl hj)
    have hfields := hb.hasAt fields (by simp; omega)
    have hhead := hb.head head (by omega)
    have hwords : WordsAt bs' (p + 36) words mid := by
      obtain ⟨w1, w2, w3, w4, w5⟩ := wat
      exact ⟨w1, w2, w3, hb.hasAt w4 (by omega), w5⟩
    have hlt := (List.getElem?_eq_some_iff.mp hk).1
    have hfst : ∀ g', (grams.set i (g', k)).map Prod.fst = (grams.map Prod.fst).set i g' := fun g' => by
      rw [List.map_set]
    have hsnd : ∀ g', (grams.set i (g', k)).map Prod.snd = grams.map Prod.snd := fun g' => by
      rw [List.map_set]
      refine List.ext_getElem? fun j => ?_
      by_cases hj : i = j
      · subst hj
        rw [List.getElem?_set_self (by simpa using hlt), List.getElem?_map, hk]; rfl
      · rw [List.getElem?_set_ne hj]
    have hindex : ∀ g', (grams.set i (g', k)).map (fun g => (g.1, (g.2 : Int))) =
        (grams.map fun g => (g.1, (g.2 : Int))).modify i fun p => (g', p.2) := fun g' => by
      refine List.ext_getElem? fun j => ?_
      rw [List.getElem?_modify, List.getElem?_map, List.getElem?_map]
      by_cases hj : i = j
      · subst hj
        rw [List.getElem?_set_self hlt, hk]; simp
      · rw [List.getElem?_set_ne hj]; simp [hj]
    refine ⟨hb.mono (by omega), ⟨hd.1, fun j hj => hd.2 j (Or.inr (by omega))⟩, ?_, .explicitVocab, by decide,
      hhead, ?_, ?_⟩
    · intro g' hg' hnd
      obtain ⟨r1, r2, r3⟩ := q1 g' hg'
      have hs := VocabAt.explicit (words := words) (grams := grams.set i (g', k)) (bound := bound) (stop := stop) hhead
        (by rw [List.length_set]; exact hfields) hwords i1 i2 i3
        (by intro h0; have := congrArg List.length h0; simp at this; exact i4 this)
        (by rw [hfst]; exact hnd) (by rw [List.length_set]; exact i6)
        (fun w hw => ⟨storable_iff.mpr (r1 w hw).1, lt_of_lt_of_eq (r1 w hw).2 pow_64⟩) (by rw [hsnd]; exact i8)
        (by rw [grams_eq]; exact r2) (by rw [grams_eq, r3]; exact i10)
      rw [hfst, hindex] at hs
      exact hs
    all_goals
      have hwr := readItems_wordsAt hwords
      rw [uint_eq] at hfields
      simp only [loadVocabPart]
      unfold readExplicitVocab
      rw [rd_bind_ok ((readRequired4_iff (by decide) (by decide)).mpr
        ⟨⟨lt_of_lt_of_eq wat.2.2.1 pow_64.symm, by omega, by omega, by omega⟩, hfields, rfl⟩)]
      simp only
      rw [rd_bind_ok hwr]
    · intro g' hg' hnd
      obtain ⟨r1, r2, r3⟩ := q1 g' hg'
      have hr := readItemsIdx_of r1 r2
      rw [List.length_set] at hr
      rw [rd_bind_ok hr, explNew_dup i1 i2 i3 (by rw [hfst]; exact hnd)]
      rfl
    · intro hno
      exact rd_bind_error (q2 hno)

/-- Texts other than the old and the new key are looked up as before. -/
theorem get?_modify_key {β : Type} {g g' u : PyStr} (hu : u ≠ g) (hu' : u ≠ g') :
    ∀ {d : Dict PyStr β} {i : Nat} {k : β}, d[i]? = some (g, k) →
      Dict.get? (d.modify i fun p => (g', p.2)) u = Dict.get? d u := by
  intro d
  induction d with
  | nil => intro i k h; cases h
  | cons x d ih =>
    intro i k h
    obtain ⟨a, b⟩ := x
    cases i with
    | zero =>
      cases h
      rw [List.modify_zero_cons]
      unfold Dict.get?
      rw [if_neg (Ne.symm hu'), if_neg (Ne.symm hu)]
    | succ i =>
      rw [List.modify_succ_cons]
      unfold Dict.get?
      rw [ih (i := i) (k := k) h]

theorem keys_modify {β : Type} {g' : PyStr} (d : Dict PyStr β) (i : Nat) :
    (d.modify i fun p => (g', p.2)).map Prod.fst = (d.map Prod.fst).set i g' := by
  refine List.ext_getElem? fun j => ?_
  rw [List.getElem?_map, List.getElem?_modify, List.getElem?_set, List.getElem?_map, List.length_map]
  by_cases hj : i = j
  · subst hj
    by_cases hl : i < d.length
    · rw [List.getElem?_eq_getElem hl]; simp [hl]
    · rw [List.getElem?_eq_none (by omega)]; simp [hl]
  · simp [hj]

end FF
