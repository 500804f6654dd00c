import Verif.Lemmas.Damage
import Verif.Lemmas.Scalars
/-! Replacing the bytes of a word in a file. -/

namespace FF
open Fifu

theorem EqFrom.storage {bs bs' : Bytes} {p q n : Nat} {st : Storage F32} (hb : EqFrom bs bs' n)
    (h : StorageAt bs p st q) (hn : n ≤ p) : StorageAt bs' p st q := by
  have hhead : ∀ {id}, Head bs p id → Head bs' p id := by
    rintro id ⟨len, h1, h2⟩
    exact ⟨len, h1, hb.hasAt h2 hn⟩
  cases h with
  | nd head fields a b shape c d elements se =>
    exact .nd (hhead head) (hb.hasAt fields (by omega)) a b shape c d (hb.hasAt elements (by omega)) se
  | quant head fields a b c d e f g i j k elements se =>
    exact .quant (hhead head) (hb.hasAt fields (by omega)) a b c d e f g i j k
      (hb.hasAt elements (by omega)) se

private theorem wordsEnc_app (a b : List PyStr) : wordsEnc (a ++ b) = wordsEnc a ++ wordsEnc b := by
  rw [← words_eq, ← words_eq, ← words_eq, List.flatMap_append]

/-- Bytes in the place of a word that are not a text. -/
theorem readItems_bad {bs buf : Bytes} {x : PyErr} (hx : decode buf = .error x) (hl : buf.length < 256 ^ 4)
    (n : Nat) : ∀ {ws : List PyStr} {p : Nat}, (∀ w ∈ ws, ItemOk w) → HasAt bs p (wordsEnc ws) →
    HasAt bs (p + (wordsEnc ws).length) (le 4 buf.length ++ buf) →
    readItems (ws.length + (n + 1)) ⟨bs, p⟩ = .error x := by
  intro ws
  induction ws with
  | nil =>
    intro p _ _ hb
    simp only [wordsEnc, List.length_nil, Nat.add_zero] at hb
    rw [hasAt_append, length_le] at hb
    rw [List.length_nil, Nat.zero_add]
    unfold readItems
    rw [rd_bind_ok ((readOne_iff (by decide) (by decide)).mpr ⟨hl, hb.1, rfl⟩)]
    rw [rd_bind_ok (read_hasAt hb.2 (lt_trans hl (by decide)))]
    exact rd_bind_error (by rw [hx]; rfl)
  | cons w ws ih =>
    intro p hw hb hc
    have hlen : (wordsEnc (w :: ws)).length = 4 + (utf8 w).length + (wordsEnc ws).length := by
      simp only [wordsEnc, itemEnc, List.length_append, length_le]
    rw [hlen] at hc
    unfold wordsEnc itemEnc at hb
    rw [hasAt_append, hasAt_append] at hb
    obtain ⟨⟨b1, b2⟩, b3⟩ := hb
    rw [length_le] at b2
    have hi := hw w (by simp)
    rw [List.length_cons, show ws.length + 1 + (n + 1) = (ws.length + (n + 1)) + 1 by omega]
    unfold readItems
    rw [rd_bind_ok ((readOne_iff (by decide) (by decide)).mpr ⟨hi.2, b1, rfl⟩)]
    rw [rd_bind_ok (read_hasAt b2 (lt_trans hi.2 (by decide)))]
    rw [rd_bind_ok (rd_lift_iff.mpr ⟨decode_utf8 _ hi.1, rfl⟩)]
    rw [List.length_append, length_le, ← Nat.add_assoc] at b3
    exact rd_bind_error (ih (fun x hx => hw x (by simp [hx])) b3 (by
      rw [show p + 4 + (utf8 w).length + (wordsEnc ws).length =
        p + (4 + (utf8 w).length + (wordsEnc ws).length) by omega]; exact hc))

/-- The words of a file. -/
theorem words_damage {bs : Bytes} {p stop i : Nat} {ws : List PyStr} {w : PyStr} (h : WordsAt bs p ws stop)
    (hi : ws[i]? = some w) :
    ∃ pos, p ≤ pos ∧ pos + (utf8 w).length ≤ stop ∧ HasAt bs pos (utf8 w) ∧
      ∀ bs', DiffersWithin bs bs' pos (pos + (utf8 w).length) →
        (∀ w', ReadsWord bs' pos (utf8 w).length w' →
          readItems ws.length ⟨bs', p⟩ = .ok (ws.set i w', ⟨bs', stop⟩) ∧
          ((ws.set i w').Nodup → WordsAt bs' p (ws.set i w') stop)) ∧
        ((¬ ∃ w', ReadsWord bs' pos (utf8 w).length w') →
          readItems ws.length ⟨bs', p⟩ = .error .unicodeDecodeError) := by
  obtain ⟨h1, h2, h3, h4, rfl⟩ := h
  obtain ⟨hlt, rfl⟩ := List.getElem?_eq_some_iff.mp hi
  have hsplit : ws = ws.take i ++ (ws[i] :: ws.drop (i + 1)) := by simp
  have hstr := storable_iff.mp (h2 _ (List.getElem_mem hlt))
  have henc : wordsEnc ws = wordsEnc (ws.take i) ++
      ((le 4 (utf8 ws[i]).length ++ utf8 ws[i]) ++ wordsEnc (ws.drop (i + 1))) := by
    conv_lhs => rw [hsplit, wordsEnc_app]
    rfl
  rw [words_eq, henc, hasAt_append, hasAt_append, hasAt_append, length_le] at h4
  obtain ⟨g1, ⟨g2, g3⟩, g4⟩ := h4
  have hlen : (wordsEnc ws).length = (wordsEnc (ws.take i)).length + (4 + (utf8 ws[i]).length) +
      (wordsEnc (ws.drop (i + 1))).length := by
    rw [henc]; simp only [List.length_append, length_le]; omega
  rw [List.length_append, length_le] at g4
  refine ⟨p + (wordsEnc (ws.take i)).length + 4, by omega, by rw [words_eq, hlen]; omega, g3, ?_⟩
  intro bs' hd
  have k1 : HasAt bs' p (wordsEnc (ws.take i)) := HasAt.frame g1 fun j _ hj => hd.2 j (Or.inl (by omega))
  have k2 : HasAt bs' (p + (wordsEnc (ws.take i)).length) (le 4 (utf8 ws[i]).length) :=
    HasAt.frame g2 fun j _ hj => hd.2 j (Or.inl (by rw [length_le] at hj; omega))
  have k4 := HasAt.frame (bs' := bs') g4 fun j hj _ => hd.2 j (Or.inr (by omega))
  constructor
  · rintro w' ⟨c1, c2, c3⟩
    have hset : ws.set i w' = ws.take i ++ (w' :: ws.drop (i + 1)) := by
      rw [List.set_eq_take_append_cons_drop, if_pos hlt]
    have henc' : wordsEnc (ws.set i w') = wordsEnc (ws.take i) ++
        ((le 4 (utf8 w').length ++ utf8 w') ++ wordsEnc (ws.drop (i + 1))) := by
      rw [hset, wordsEnc_app]; rfl
    have hl' : (wordsEnc (ws.set i w')).length = (wordsEnc ws).length := by
      rw [henc', hlen]; simp only [List.length_append, length_le, c2]; omega
    have hok : ∀ u ∈ ws.set i w', ItemOk u := by
      intro u hu
      rcases List.mem_or_eq_of_mem_set hu with hu | rfl
      · exact storable_iff.mp (h2 u hu)
      · exact ⟨noSurr_iff.mp c1, by rw [c2]; exact hstr.2⟩
    have hat : HasAt bs' p (wordsEnc (ws.set i w')) := by
      rw [henc', hasAt_append, hasAt_append, hasAt_append, length_le, List.length_append, length_le, c2]
      exact ⟨k1, ⟨k2, c3⟩, k4⟩
    have hr := readItems_of hok hat
    rw [List.length_set, hl'] at hr
    rw [words_eq]
    refine ⟨hr, fun hnd => ⟨hnd, fun u hu => storable_iff.mpr (hok u hu), by rw [List.length_set]; exact h3,
      by rw [words_eq]; exact hat, by rw [words_eq, hl']⟩⟩
  · intro hno
    let buf := (bs'.drop (p + (wordsEnc (ws.take i)).length + 4)).take (utf8 ws[i]).length
    have hbl : buf.length = (utf8 ws[i]).length := by
      have hp := List.IsPrefix.length_le g3
      simp only [buf, List.length_take, List.length_drop, hd.1] at hp ⊢
      omega
    have hbat : HasAt bs' (p + (wordsEnc (ws.take i)).length + 4) buf := List.take_prefix _ _
    cases hdec : decode buf with
    | ok w' =>
      obtain ⟨q1, q2⟩ := utf8_of_decode buf hdec
      refine absurd ⟨w', noSurr_iff.mpr q2, ?_, ?_⟩ hno
      · rw [q1]; exact hbl
      · rw [q1]; exact hbat
    | error x =>
      obtain rfl := decode_err hdec
      have := readItems_bad hdec (by rw [hbl]; exact hstr.2) (ws.length - i - 1) (ws := ws.take i) (p := p)
        (fun u hu => storable_iff.mp (h2 u (List.mem_of_mem_take hu))) k1
        (by rw [hasAt_append, length_le, hbl]; exact ⟨k2, hbat⟩)
      rw [List.length_take, Nat.min_eq_left (by omega), show i + (ws.length - i - 1 + 1) = ws.length by omega] at this
      exact this

private theorem vocab_dup {words : List PyStr} {sub : Option Indexer} (h : ¬ words.Nodup) :
    Vocab.new words sub = .error .assertionError := by
  cases hv : Vocab.new words sub with
  | ok v => exact absurd (Vocab.new_iff.mp hv).1 h
  | error x =>
    unfold Vocab.new validateItems pyAssert at hv
    by_cases h1 : words.length = (Dict.ofPairs (enumItems words)).length
    · exfalso
      simp [h1, bind, Except.bind, pure, Except.pure] at hv
    · simp [h1, bind, Except.bind, pure, Except.pure] at hv
      rw [← hv]

/-- A vocabulary with other bytes in the place of a word. -/
theorem vocab_damage {bs : Bytes} {p rows stop i : Nat} {v : Vocab} {w : PyStr} (h : VocabAt bs p v rows stop)
    (hi : v.words[i]? = some w) :
    ∃ pos, p ≤ pos ∧ pos + (utf8 w).length ≤ stop ∧ HasAt bs pos (utf8 w) ∧
      ∀ bs', DiffersWithin bs bs' pos (pos + (utf8 w).length) →
        EqBelow bs bs' p ∧ EqFrom bs bs' stop ∧
        (∀ w', ReadsWord bs' pos (utf8 w).length w' → (v.words.set i w').Nodup →
          VocabAt bs' p (v.withWord i w') rows stop) ∧
        ∃ c : ChunkId, c ≠ .metadata ∧ Head bs' p c.toNat ∧
          (∀ w', ReadsWord bs' pos (utf8 w).length w' → ¬ (v.words.set i w').Nodup →
            loadVocabPart c ⟨bs', p + 12⟩ = .error .assertionError) ∧
          ((¬ ∃ w', ReadsWord bs' pos (utf8 w).length w') →
            loadVocabPart c ⟨bs', p + 12⟩ = .error .unicodeDecodeError) := by
  cases h with
  | @simple words _ head count wat =>
    obtain ⟨pos, p1, p2, p3, p4⟩ := words_damage wat hi
    refine ⟨pos, by omega, p2, p3, fun bs' hd => ?_⟩
    obtain ⟨q1, q2⟩ := p4 bs' hd
    have hb : EqBelow bs bs' pos := fun j hj => hd.2 j (Or.inl hj)
    have hcount := hb.hasAt count (by simp; omega)
    have hhead := hb.head head (by omega)
    refine ⟨hb.mono (by omega), ⟨hd.1, fun j hj => hd.2 j (Or.inr (by omega))⟩, ?_, .simpleVocab, by decide,
      hhead, ?_, ?_⟩
    · intro w' hw' hnd
      have hs := VocabAt.simple (words := words.set i w') hhead (by rw [List.length_set]; exact hcount)
        ((q1 w' hw').2 hnd)
      rw [List.length_set] at hs
      exact hs
    all_goals
      rw [uint_eq] at hcount
      simp only [loadVocabPart]
      unfold readSimpleVocab
      rw [rd_bind_ok ((readOne_iff (by decide) (by decide)).mpr
        ⟨lt_of_lt_of_eq wat.2.2.1 pow_64.symm, hcount, rfl⟩)]
    · intro w' hw' hnd
      rw [rd_bind_ok (q1 w' hw').1, vocab_dup hnd]; rfl
    · intro hno
      exact rd_bind_error (q2 hno)
  | @bucket words mn mx exp _ head fields wat i1 i2 i3 i4 i5 =>
    obtain ⟨pos, p1, p2, p3, p4⟩ := words_damage wat hi
    refine ⟨pos, by omega, p2, p3, fun bs' hd => ?_⟩
    obtain ⟨q1, q2⟩ := p4 bs' hd
    have hb : EqBelow bs bs' pos := fun j hj => hd.2 j (Or.inl hj)
    have hfields := hb.hasAt fields (by simp; omega)
    have hhead := hb.head head (by omega)
    refine ⟨hb.mono (by omega), ⟨hd.1, fun j hj => hd.2 j (Or.inr (by omega))⟩, ?_, .bucketVocab, by decide,
      hhead, ?_, ?_⟩
    · intro w' hw' hnd
      have hs := VocabAt.bucket (words := words.set i w') hhead (by rw [List.length_set]; exact hfields)
        ((q1 w' hw').2 hnd) i1 i2 i3 i4 i5
      rw [List.length_set] at hs
      exact hs
    all_goals
      rw [uint_eq] at hfields
      simp only [loadVocabPart]
      unfold readBucketVocab
      rw [rd_bind_ok ((readRequired4_iff (by decide) (by decide)).mpr
        ⟨⟨lt_of_lt_of_eq wat.2.2.1 pow_64.symm, by omega, by omega, by omega⟩, hfields, rfl⟩)]
      simp only
    · intro w' hw' hnd
      rw [rd_bind_ok (q1 w' hw').1,
        rd_bind_ok (rd_lift_iff.mpr ⟨fifuNew_iff.mpr ⟨rfl, i1, i2, i3, i4, i5⟩, rfl⟩), vocab_dup hnd]; rfl
    · intro hno
      exact rd_bind_error (q2 hno)
  | @fastText words mn mx exp _ head fields wat i1 i2 i3 i4 i5 =>
    obtain ⟨pos, p1, p2, p3, p4⟩ := words_damage wat hi
    refine ⟨pos, by omega, p2, p3, fun bs' hd => ?_⟩
    obtain ⟨q1, q2⟩ := p4 bs' hd
    have hb : EqBelow bs bs' pos := fun j hj => hd.2 j (Or.inl hj)
    have hfields := hb.hasAt fields (by simp; omega)
    have hhead := hb.head head (by omega)
    refine ⟨hb.mono (by omega), ⟨hd.1, fun j hj => hd.2 j (Or.inr (by omega))⟩, ?_, .fastTextVocab, by decide,
      hhead, ?_, ?_⟩
    · intro w' hw' hnd
      have hs := VocabAt.fastText (words := words.set i w') hhead (by rw [List.length_set]; exact hfields)
        ((q1 w' hw').2 hnd) i1 i2 i3 i4 i5
      rw [List.length_set] at hs
      exact hs
    all_goals
      rw [uint_eq] at hfields
      simp only [loadVocabPart]
      unfold readFastTextVocab
      rw [rd_bind_ok ((readRequired4_iff (by decide) (by decide)).mpr
        ⟨⟨lt_of_lt_of_eq wat.2.2.1 pow_64.symm, by omega, by omega, by omega⟩, hfields, rfl⟩)]
      simp only
    · intro w' hw' hnd
      rw [rd_bind_ok (q1 w' hw').1,
        rd_bind_ok (rd_lift_iff.mpr ⟨ftNew_iff.mpr ⟨rfl, i1, i2, i3, i4, i5⟩, rfl⟩), vocab_dup hnd]; rfl
    · intro hno
      exact rd_bind_error (q2 hno)
  | @explicit words grams mn mx bound mid _ head fields wat i1 i2 i3 i4 i5 i6 i7 i8 i9 i10 =>
    obtain ⟨pos, p1, p2, p3, p4⟩ := words_damage wat hi
    refine ⟨pos, by omega, by omega, p3, fun bs' hd => ?_⟩
    obtain ⟨q1, q2⟩ := p4 bs' hd
    have hb : EqBelow bs bs' pos := fun j hj => hd.2 j (Or.inl hj)
    have hf : EqFrom bs bs' mid := ⟨hd.1, fun j hj => hd.2 j (Or.inr (by omega))⟩
    have hfields := hb.hasAt fields (by simp; omega)
    have hhead := hb.head head (by omega)
    have hgrams := hf.hasAt i9 (Nat.le_refl _)
    refine ⟨hb.mono (by omega), ⟨hd.1, fun j hj => hd.2 j (Or.inr (by omega))⟩, ?_, .explicitVocab, by decide,
      hhead, ?_, ?_⟩
    · intro w' hw' hnd
      have hs := VocabAt.explicit (words := words.set i w') hhead (by rw [List.length_set]; exact hfields)
        ((q1 w' hw').2 hnd) i1 i2 i3 i4 i5 i6 i7 i8 hgrams i10
      rw [List.length_set] at hs
      exact hs
    all_goals
      rw [uint_eq] at hfields
      rw [grams_eq] at hgrams
      simp only [loadVocabPart]
      unfold readExplicitVocab
      rw [rd_bind_ok ((readRequired4_iff (by decide) (by decide)).mpr
        ⟨⟨lt_of_lt_of_eq wat.2.2.1 pow_64.symm, by omega, by omega, by omega⟩, hfields, rfl⟩)]
      simp only
    · intro w' hw' hnd
      rw [rd_bind_ok (q1 w' hw').1, rd_bind_ok (readItemsIdx_of (fun g hg => ⟨storable_iff.mp (i7 g hg).1,
        lt_of_lt_of_eq (i7 g hg).2 pow_64.symm⟩) hgrams),
        rd_bind_ok (rd_lift_iff.mpr ⟨explNew_iff.mpr ⟨i4, i5, i1, i2, i3, _, i8, rfl⟩, rfl⟩), vocab_dup hnd]
      rfl
    · intro hno
      exact rd_bind_error (q2 hno)

/-- A file whose vocabulary cannot be read. -/
theorem load_vocab_error {T : Toml} {mmap : Bool} {bs : Bytes} {p1 p2 : Nat} {md : Option Meta} {c : ChunkId}
    {x : PyErr} (hlen : bs.length + 4 < 2 ^ 63) (hh : HeaderAt bs p1) (m1 : MetaAt T bs p1 md p2)
    (hc : c ≠ .metadata) (hd : Head bs p2 c.toNat) (h : loadVocabPart c ⟨bs, p2 + 12⟩ = .error x) :
    Rd.run (loadFinalfusion T mmap) bs = .error x := by
  obtain ⟨ids, h1⟩ := readHeader_iff.mpr ⟨p1, hh, rfl⟩
  have hmeta : loadMetaPart T ⟨bs, p1⟩ = .ok ((c, md), ⟨bs, p2 + 12⟩) := by
    unfold loadMetaPart
    obtain ⟨n, s1, k⟩ := head_iff.mpr hd
    have := (readRequiredChunkHeader_iff.mp k).2.2
    subst this
    cases md with
    | none =>
      have : p2 = p1 := m1
      subst this
      rw [rd_bind_ok k]
      simp only
      rw [if_neg hc]
      rfl
    | some m =>
      have h4 := (readMetadata_iff (by omega)).mpr ⟨p2, m1, rfl⟩
      have hk : ∃ n s, readRequiredChunkHeader ⟨bs, p1⟩ = .ok ((.metadata, n), s) := by
        rw [head_iff]
        obtain ⟨text, _, _, h6, _⟩ := m1
        refine ⟨(utf8 text).length, ?_, ?_⟩
        · have := List.IsPrefix.length_le h6
          simp only [List.length_append, List.length_drop] at this
          omega
        · rw [hasAt_append] at h6
          exact h6.1
      obtain ⟨n', s1, k'⟩ := hk
      have := (readRequiredChunkHeader_iff.mp k').2.2
      subst this
      rw [rd_bind_ok k']
      simp only
      rw [if_pos trivial, rd_bind_ok h4, rd_bind_ok k]
      rfl
  have : loadFinalfusion T mmap ⟨bs, 0⟩ = .error x := by
    unfold loadFinalfusion
    rw [rd_bind_ok h1, rd_bind_ok hmeta]
    exact rd_bind_error h
  unfold Rd.run
  rw [this]

end FF
