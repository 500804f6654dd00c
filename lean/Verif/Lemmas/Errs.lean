import Verif.Lemmas.Keeps
/-! Which exceptions a reader can raise. -/

namespace FF

variable {α β : Type} {P : PyErr → Prop}

/-- Every exception raised by the reader satisfies `P`. -/
def Errs (P : PyErr → Prop) (m : Rd α) : Prop := ∀ s e, m s = .error e → P e

/-- Every exception raised by the computation satisfies `P`. -/
def ErrsR (P : PyErr → Prop) (r : Res α) : Prop := ∀ e, r = .error e → P e

theorem Errs.pure (a : α) : Errs P (pure a : Rd α) := by
  intro s e h; cases h

theorem Errs.fail {e : PyErr} (h : P e) : Errs P (Rd.fail e : Rd α) := by
  intro s e' h'; cases h'; exact h

theorem Errs.lift {r : Res α} (h : ErrsR P r) : Errs P (Rd.lift r) := by
  intro s e h'
  cases r with
  | ok a => cases h'
  | error e' => cases h'; exact h _ rfl

theorem Errs.bind {m : Rd α} {f : α → Rd β} (h1 : Errs P m) (h2 : ∀ a, Errs P (f a)) :
    Errs P (m >>= f) := by
  intro s e h
  rw [rd_bind] at h
  cases hm : m s with
  | error e' => rw [hm] at h; cases h; exact h1 s _ hm
  | ok p => obtain ⟨a, s'⟩ := p; rw [hm] at h; exact h2 a s' e h

theorem Errs.ite {c : Prop} [Decidable c] {m1 m2 : Rd α} (h1 : Errs P m1) (h2 : Errs P m2) :
    Errs P (if c then m1 else m2) := by
  split
  · exact h1
  · exact h2

theorem Errs.guard {c : Prop} [Decidable c] {e : PyErr} {f : PUnit → Rd α} (he : P e)
    (h : ∀ u, Errs P (f u)) : Errs P (if c then Rd.fail e >>= f else f PUnit.unit) := by
  split
  · exact (Errs.fail he).bind h
  · exact h _

theorem ErrsR.ok (a : α) : ErrsR P (.ok a : Res α) := by intro e h; cases h

theorem ErrsR.error {e : PyErr} (h : P e) : ErrsR P (.error e : Res α) := by
  intro e' h'; cases h'; exact h

theorem ErrsR.bind {r : Res α} {f : α → Res β} (h1 : ErrsR P r) (h2 : ∀ a, ErrsR P (f a)) :
    ErrsR P (r >>= f) := by
  intro e h
  cases r with
  | error e' => cases h; exact h1 _ rfl
  | ok a => exact h2 a e h

theorem ErrsR.assert (h : P .assertionError) (c : Bool) : ErrsR P (pyAssert c) := by
  unfold pyAssert
  split
  · exact ErrsR.ok _
  · exact ErrsR.error h

/-- The exceptions `load_finalfusion` can raise, apart from those of the TOML parser. -/
structure IoErrs (P : PyErr → Prop) : Prop where
  format : P .formatError
  value : P .valueError
  assertion : P .assertionError
  overflow : P .overflowError
  unicode : P .unicodeDecodeError
  os : P .osError
  zeroDiv : P .zeroDivisionError

section
variable (hP : IoErrs P)
include hP

theorem read_errs (n : Nat) : Errs P (read n) := by
  intro s e h
  unfold read at h
  split at h
  · cases h
  · cases h; exact hP.overflow

omit hP in
theorem tell_errs : Errs P tell := by
  intro s e h; cases h

omit hP in
theorem seekSet_errs (n : Nat) : Errs P (seekSet n) := by
  intro s e h; cases h

theorem seekCur_errs (n : Nat) : Errs P (seekCur n) := by
  intro s e h
  unfold seekCur at h
  split at h
  · split at h
    · cases h
    · cases h; exact hP.os
  · cases h; exact hP.value

theorem seekBack_errs (n : Nat) : Errs P (seekBack n) := by
  intro s e h
  unfold seekBack at h
  split at h
  · cases h
  · cases h; exact hP.os

theorem fromFileF32_errs (n : Nat) : Errs P (fromFileF32 n) := by
  intro s e h
  unfold fromFileF32 at h
  split at h
  · simp only at h
    split at h <;> cases h
  · split at h
    · cases h; exact hP.value
    · cases h; exact hP.overflow

theorem fromFileU8_errs (n : Nat) : Errs P (fromFileU8 n) := by
  intro s e h
  unfold fromFileU8 at h
  split at h
  · cases h
  · cases h; exact hP.overflow

theorem memmapF32_errs (a b c : Nat) : Errs P (memmapF32 a b c) := by
  intro s e h
  unfold memmapF32 at h
  simp only at h
  split at h
  · cases h
  · cases h; exact hP.value

theorem memmapU8_errs (a b c : Nat) : Errs P (memmapU8 a b c) := by
  intro s e h
  unfold memmapU8 at h
  simp only at h
  split at h
  · cases h
  · cases h; exact hP.value

theorem readBinary_errs (ws : List Nat) : Errs P (readBinary ws) := by
  unfold readBinary
  refine (read_errs hP _).bind fun buf => ?_
  refine Errs.ite (Errs.pure _) ?_
  exact Errs.guard hP.format fun _ => Errs.pure _

theorem readRequired_errs (ws : List Nat) : Errs P (readRequired ws) := by
  unfold readRequired
  refine (readBinary_errs hP _).bind fun r => ?_
  split
  · exact Errs.fail hP.format
  · exact Errs.pure _

theorem readOne_errs (w : Nat) : Errs P (readOne w) := by
  unfold readOne
  refine (readRequired_errs hP _).bind fun r => ?_
  split
  · exact Errs.pure _
  · exact Errs.fail hP.value

theorem readHeader_errs : Errs P readHeader := by
  unfold readHeader
  refine (read_errs hP _).bind fun m => ?_
  refine Errs.guard hP.format fun _ => ?_
  refine (readOne_errs hP _).bind fun v => ?_
  refine Errs.guard hP.format fun _ => ?_
  exact (readOne_errs hP _).bind fun n => readRequired_errs hP _

theorem fromNat_errs (n : Nat) : ErrsR P (ChunkId.fromNat n) := by
  unfold ChunkId.fromNat
  split <;> first | exact ErrsR.ok _ | exact ErrsR.error hP.value

theorem typeId_errs (n : Nat) : ErrsR P (TypeId.fromNat n) := by
  unfold TypeId.fromNat
  split
  · exact ErrsR.ok _
  · split
    · exact ErrsR.ok _
    · exact ErrsR.error hP.value

theorem readChunkHeader_errs : Errs P readChunkHeader := by
  unfold readChunkHeader
  refine (readBinary_errs hP _).bind fun r => ?_
  split
  · exact Errs.pure _
  · exact (Errs.lift (fromNat_errs hP _)).bind fun _ => Errs.pure _
  · exact Errs.fail hP.value

theorem readRequiredChunkHeader_errs : Errs P readRequiredChunkHeader := by
  unfold readRequiredChunkHeader
  refine (readChunkHeader_errs hP).bind fun r => ?_
  split
  · exact Errs.fail hP.format
  · exact Errs.pure _

theorem decodeAux_errs (k : Nat) (bs : Bytes) : ErrsR P (decodeAux k bs) := by
  induction bs generalizing k with
  | nil => cases k <;> exact ErrsR.ok _
  | cons b bs ih =>
    cases k with
    | succ k => exact ih k
    | zero =>
      unfold decodeAux
      split
      · rename_i c k _
        intro e h
        cases hd : decodeAux k bs with
        | ok s => rw [hd] at h; cases h
        | error e' => rw [hd] at h; cases h; exact ih k _ hd
      · exact ErrsR.error hP.unicode

theorem decode_errs (bs : Bytes) : ErrsR P (decode bs) := decodeAux_errs hP 0 bs

theorem readItems_errs (n : Nat) : Errs P (readItems n) := by
  induction n with
  | zero => exact Errs.pure _
  | succ n ih =>
    unfold readItems
    exact (readOne_errs hP _).bind fun _ => (read_errs hP _).bind fun _ =>
      (Errs.lift (decode_errs hP _)).bind fun _ => ih.bind fun _ => Errs.pure _

theorem readItemsIdx_errs (n : Nat) : Errs P (readItemsIdx n) := by
  induction n with
  | zero => exact Errs.pure _
  | succ n ih =>
    unfold readItemsIdx
    exact (readOne_errs hP _).bind fun _ => (read_errs hP _).bind fun _ =>
      (Errs.lift (decode_errs hP _)).bind fun _ => (readOne_errs hP _).bind fun _ =>
      ih.bind fun _ => Errs.pure _

theorem vocabNew_errs (ws : List PyStr) (sub : Option Indexer) : ErrsR P (Vocab.new ws sub) := by
  unfold Vocab.new validateItems
  exact ((ErrsR.assert hP.assertion _).bind fun _ => (ErrsR.assert hP.assertion _).bind fun _ =>
    ErrsR.ok _).bind fun _ => ErrsR.ok _

theorem toU32_errs (n : Int) : ErrsR P (toU32 n) := by
  unfold toU32
  split
  · exact ErrsR.ok _
  · exact ErrsR.error hP.overflow

theorem fifuNew_errs (b mn mx : Int) : ErrsR P (FifuIndexer.new b mn mx) := by
  unfold FifuIndexer.new
  exact (ErrsR.assert hP.assertion _).bind fun _ => (ErrsR.assert hP.assertion _).bind fun _ =>
    (toU32_errs hP _).bind fun _ => (toU32_errs hP _).bind fun _ => ErrsR.ok _

theorem ftNew_errs (b mn mx : Int) : ErrsR P (FtIndexer.new b mn mx) := by
  unfold FtIndexer.new
  exact (ErrsR.assert hP.assertion _).bind fun _ => (ErrsR.assert hP.assertion _).bind fun _ =>
    (toU32_errs hP _).bind fun _ => (toU32_errs hP _).bind fun _ => ErrsR.ok _

theorem pyMax_errs (l : List Int) : ErrsR P (pyMax l) := by
  cases l with
  | nil => exact ErrsR.error hP.value
  | cons a l => exact ErrsR.ok _

theorem explNew_errs (gs : List PyStr) (mn mx : Int) (d : Option (Dict PyStr Int)) :
    ErrsR P (ExplIndexer.new gs mn mx d) := by
  unfold ExplIndexer.new
  refine (ErrsR.assert hP.assertion _).bind fun _ =>
    (toU32_errs hP _).bind fun _ => (toU32_errs hP _).bind fun _ => ?_
  cases d with
  | none => exact (ErrsR.assert hP.assertion _).bind fun _ => ErrsR.ok _
  | some d => exact (ErrsR.assert hP.assertion _).bind fun _ =>
      (ErrsR.assert hP.assertion _).bind fun _ => (pyMax_errs hP _).bind fun _ =>
      (ErrsR.assert hP.assertion _).bind fun _ => ErrsR.ok _

theorem readSimpleVocab_errs : Errs P readSimpleVocab := by
  unfold readSimpleVocab
  exact (readOne_errs hP _).bind fun _ => (readItems_errs hP _).bind fun _ =>
    Errs.lift (vocabNew_errs hP _ _)

theorem readBucketVocab_errs : Errs P readBucketVocab := by
  unfold readBucketVocab
  refine (readRequired_errs hP _).bind fun r => ?_
  split
  · exact (readItems_errs hP _).bind fun _ => (Errs.lift (fifuNew_errs hP _ _ _)).bind fun _ =>
      Errs.lift (vocabNew_errs hP _ _)
  · exact Errs.fail hP.value

theorem readFastTextVocab_errs : Errs P readFastTextVocab := by
  unfold readFastTextVocab
  refine (readRequired_errs hP _).bind fun r => ?_
  split
  · exact (readItems_errs hP _).bind fun _ => (Errs.lift (ftNew_errs hP _ _ _)).bind fun _ =>
      Errs.lift (vocabNew_errs hP _ _)
  · exact Errs.fail hP.value

theorem readExplicitVocab_errs : Errs P readExplicitVocab := by
  unfold readExplicitVocab
  refine (readRequired_errs hP _).bind fun r => ?_
  split
  · exact (readItems_errs hP _).bind fun _ => (readItemsIdx_errs hP _).bind fun _ =>
      (Errs.lift (explNew_errs hP _ _ _ _)).bind fun _ => Errs.lift (vocabNew_errs hP _ _)
  · exact Errs.fail hP.value

theorem loadVocabPart_errs (c : ChunkId) : Errs P (loadVocabPart c) := by
  unfold loadVocabPart
  split
  · exact readSimpleVocab_errs hP
  · exact readBucketVocab_errs hP
  · exact readFastTextVocab_errs hP
  · exact readExplicitVocab_errs hP
  · exact Errs.fail hP.format

theorem readMetadata_errs (T : Toml) (hT : ∀ s, ErrsR P (T.loads s)) : Errs P (readMetadata T) := by
  unfold readMetadata
  refine (seekBack_errs hP _).bind fun _ => (readRequired_errs hP _).bind fun r => ?_
  split
  · refine (Errs.lift (fromNat_errs hP _)).bind fun _ =>
      (Errs.lift (ErrsR.assert hP.assertion _)).bind fun _ => (read_errs hP _).bind fun _ => ?_
    refine Errs.guard hP.format fun _ => ?_
    exact (Errs.lift (decode_errs hP _)).bind fun _ => Errs.lift (hT _)
  · exact Errs.fail hP.value

theorem loadMetaPart_errs (T : Toml) (hT : ∀ s, ErrsR P (T.loads s)) : Errs P (loadMetaPart T) := by
  unfold loadMetaPart
  refine (readRequiredChunkHeader_errs hP).bind fun p => ?_
  exact Errs.ite ((readMetadata_errs hP T hT).bind fun _ =>
    (readRequiredChunkHeader_errs hP).bind fun _ => Errs.pure _) (Errs.pure _)

theorem reshape2_errs {K : Type} (n r c : Nat) (xs : List K) : ErrsR P (reshape2 n r c xs) := by
  unfold reshape2
  split
  · exact ErrsR.ok _
  · exact ErrsR.error hP.value

theorem reshape3_errs {K : Type} (n a b c : Nat) (xs : List K) : ErrsR P (reshape3 n a b c xs) := by
  unfold reshape3
  split
  · exact ErrsR.ok _
  · exact ErrsR.error hP.value

theorem readArrayHeader_errs : Errs P readArrayHeader := by
  unfold readArrayHeader
  refine (readRequired_errs hP _).bind fun r => ?_
  split
  · refine (readOne_errs hP _).bind fun _ => (Errs.lift (typeId_errs hP _)).bind fun _ => ?_
    refine Errs.guard hP.format fun _ => ?_
    exact tell_errs.bind fun _ => (seekCur_errs hP _).bind fun _ => Errs.pure _
  · exact Errs.fail hP.value

theorem loadNd_errs (mm : Bool) : Errs P (loadNd mm) := by
  unfold loadNd
  cases mm
  · refine Errs.bind (m := readNdArray) ?_ fun _ => Errs.pure _
    unfold readNdArray
    exact (readArrayHeader_errs hP).bind fun _ => (fromFileF32_errs hP _).bind fun _ =>
      Errs.lift (reshape2_errs hP _ _ _ _)
  · refine Errs.bind (m := mmapNdArray) ?_ fun _ => Errs.pure _
    unfold mmapNdArray
    exact (readArrayHeader_errs hP).bind fun _ => tell_errs.bind fun _ =>
      (seekCur_errs hP _).bind fun _ => memmapF32_errs hP _ _ _

theorem readProjection_errs (a b : Nat) : Errs P (readProjection a b) := by
  unfold readProjection
  exact Errs.ite ((fromFileF32_errs hP _).bind fun _ => (Errs.lift (reshape2_errs hP _ _ _ _)).bind
    fun _ => Errs.pure _) (Errs.pure _)

theorem readQNorms_errs (a b : Nat) : Errs P (readQNorms a b) := by
  unfold readQNorms
  exact Errs.ite ((fromFileF32_errs hP _).bind fun _ => Errs.pure _) (Errs.pure _)

theorem pqNew_errs {K : Type} (a b : Nat) (q : List (List (List K))) (p : Option (Mat K)) :
    ErrsR P (PQ.new a b q p) := by
  unfold PQ.new
  cases p with
  | none => exact ErrsR.ok _
  | some p => exact (ErrsR.assert hP.assertion _).bind fun _ => ErrsR.ok _

theorem readQuantizedTail_errs (a b c d e f : Nat) : Errs P (readQuantizedTail a b c d e f) := by
  unfold readQuantizedTail
  exact tell_errs.bind fun _ => (seekCur_errs hP _).bind fun _ => (readProjection_errs hP _ _).bind
    fun _ => (fromFileF32_errs hP _).bind fun _ => (Errs.lift (reshape3_errs hP _ _ _ _ _)).bind
    fun _ => (readQNorms_errs hP _ _).bind fun _ => (Errs.lift (pqNew_errs hP _ _ _ _)).bind
    fun _ => Errs.pure _

theorem readQuantizedHeader_errs : Errs P readQuantizedHeader := by
  unfold readQuantizedHeader
  refine (readOne_errs hP _).bind fun _ => (readOne_errs hP _).bind fun _ =>
    (readOne_errs hP _).bind fun _ => (readOne_errs hP _).bind fun _ =>
    (readOne_errs hP _).bind fun _ => (readOne_errs hP _).bind fun _ => ?_
  refine Errs.guard hP.zeroDiv fun _ => ?_
  refine (Errs.lift (ErrsR.assert hP.assertion _)).bind fun _ => (readOne_errs hP _).bind fun _ => ?_
  refine Errs.guard hP.format fun _ => ?_
  refine (readOne_errs hP _).bind fun _ => ?_
  refine Errs.guard hP.format fun _ => ?_
  exact readQuantizedTail_errs hP _ _ _ _ _ _

theorem loadQuant_errs (mm : Bool) : Errs P (loadQuant mm) := by
  unfold loadQuant
  cases mm
  · refine Errs.bind (m := readQuantized) ?_ fun _ => Errs.pure _
    unfold readQuantized
    exact (readQuantizedHeader_errs hP).bind fun _ => (fromFileU8_errs hP _).bind fun _ =>
      (Errs.lift (reshape2_errs hP _ _ _ _)).bind fun _ => Errs.pure _
  · refine Errs.bind (m := mmapQuantized) ?_ fun _ => Errs.pure _
    unfold mmapQuantized
    exact (readQuantizedHeader_errs hP).bind fun _ => tell_errs.bind fun _ =>
      (seekCur_errs hP _).bind fun _ => (memmapU8_errs hP _ _ _).bind fun _ => Errs.pure _

theorem loadStoragePart_errs (mm : Bool) : Errs P (loadStoragePart mm) := by
  unfold loadStoragePart
  refine (readRequiredChunkHeader_errs hP).bind fun p => ?_
  obtain ⟨c, n⟩ := p
  cases c
  case ndArray => exact loadNd_errs hP mm
  case quantizedArray => exact loadQuant_errs hP mm
  all_goals exact Errs.fail hP.format

theorem readNorms_errs : Errs P readNorms := by
  unfold readNorms
  refine (readRequired_errs hP _).bind fun r => ?_
  split
  · refine (Errs.lift (typeId_errs hP _)).bind fun _ => ?_
    refine Errs.guard hP.format fun _ => ?_
    exact tell_errs.bind fun _ => (seekCur_errs hP _).bind fun _ => fromFileF32_errs hP _
  · exact Errs.fail hP.value

theorem loadNormsPart_errs : Errs P loadNormsPart := by
  unfold loadNormsPart
  refine (readChunkHeader_errs hP).bind fun p => ?_
  split
  · exact Errs.pure _
  · exact (readNorms_errs hP).bind fun _ => Errs.pure _
  · exact Errs.fail hP.format

theorem checkRequirements_errs {K : Type} (st : Storage K) (v : Vocab) (n : Option (List K)) :
    ErrsR P (checkRequirements st v n) := by
  unfold checkRequirements
  refine (ErrsR.assert hP.assertion _).bind fun _ => ?_
  cases n with
  | none => exact ErrsR.ok _
  | some n =>
    unfold normsCompat
    exact (ErrsR.assert hP.assertion _).bind fun _ => ErrsR.assert hP.assertion _

theorem loadFinalfusion_errs (T : Toml) (mm : Bool) (hT : ∀ s, ErrsR P (T.loads s)) :
    Errs P (loadFinalfusion T mm) := by
  unfold loadFinalfusion
  exact (readHeader_errs hP).bind fun _ => (loadMetaPart_errs hP T hT).bind fun _ =>
    (loadVocabPart_errs hP _).bind fun _ => (loadStoragePart_errs hP _).bind fun _ =>
    (loadNormsPart_errs hP).bind fun _ =>
    Errs.lift ((checkRequirements_errs hP _ _ _).bind fun _ => ErrsR.ok _)

end

/-! ### `find_chunk` terminates -/

theorem readChunkHeader_pos {s s' : RFile} {c : ChunkId} {n : Nat}
    (h : readChunkHeader s = .ok (some (c, n), s')) :
    s'.data = s.data ∧ s'.pos = s.pos + 12 ∧ s.pos + 12 ≤ s.data.length := by
  unfold readChunkHeader at h
  obtain ⟨r, s1, h1, h⟩ := rd_bind_inv h
  have hs : s' = s1 := by
    revert h
    split
    · intro h; cases h
    · intro h
      obtain ⟨_, s2, h2, h'⟩ := rd_bind_inv h
      clear h
      obtain ⟨_, rfl⟩ := rd_lift_inv h2
      cases h'; rfl
    · intro h; cases h
  subst hs
  rw [readBinary_eq _ _ (by decide)] at h1
  simp only at h1
  split at h1
  · cases h1; cases h
  · split at h1
    · cases h1
    · rename_i hlen
      cases h1
      have hl : ((s.data.drop s.pos).take (calcsize [4, 8])).length = 12 := by
        simpa [calcsize] using hlen
      refine ⟨rfl, by simp only [hl], ?_⟩
      rw [List.length_take, List.length_drop] at hl
      omega

theorem findChunkLoop_fuel (ids : List ChunkId) (fuel : Nat) (s : RFile)
    (h0 : 1 ≤ fuel) (h : s.data.length + 1 ≤ fuel + s.pos) :
    findChunkLoop ids fuel s ≠ .error .outOfFuel := by
  have hP : IoErrs (· ≠ .outOfFuel) := by constructor <;> decide
  induction fuel generalizing s with
  | zero => omega
  | succ n ih =>
    unfold findChunkLoop
    intro he
    rw [rd_bind] at he
    cases hm : readChunkHeader s with
    | error e => rw [hm] at he; cases he; exact readChunkHeader_errs hP s _ hm rfl
    | ok p =>
      obtain ⟨r, s1⟩ := p
      rw [hm] at he
      rcases r with _ | ⟨c, size⟩
      · cases he
      · simp only at he
        split at he
        · cases he
        · obtain ⟨hd, hp, hle⟩ := readChunkHeader_pos hm
          rw [rd_bind] at he
          cases hk : seekCur size s1 with
          | error e => rw [hk] at he; cases he; exact seekCur_errs hP _ _ _ hk rfl
          | ok p =>
            obtain ⟨u, s2⟩ := p
            rw [hk] at he
            refine ih s2 (by omega) ?_ he
            unfold seekCur at hk
            split at hk
            · split at hk
              · cases hk
                simp only
                rw [hd, hp]; omega
              · cases hk
            · cases hk

end FF
