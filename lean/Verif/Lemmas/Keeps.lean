import Verif.Lemmas.EmbIO
/-! Readers never change the file content. -/

namespace FF

variable {α β : Type}

/-- The reader leaves the content of the file alone. -/
def Keeps (m : Rd α) : Prop := ∀ s a s', m s = .ok (a, s') → s'.data = s.data

theorem Keeps.pure (a : α) : Keeps (pure a : Rd α) := by
  intro s b s' h; cases h; rfl

theorem Keeps.fail (e : PyErr) : Keeps (Rd.fail e : Rd α) := by
  intro s b s' h; cases h

theorem Keeps.lift (r : Res α) : Keeps (Rd.lift r) := by
  intro s b s' h
  rw [(rd_lift_inv h).2]

theorem Keeps.bind {m : Rd α} {f : α → Rd β} (h1 : Keeps m) (h2 : ∀ a, Keeps (f a)) :
    Keeps (m >>= f) := by
  intro s b s'' h
  obtain ⟨a, s', ha, hb⟩ := rd_bind_inv h
  rw [h2 a s' b s'' hb, h1 s a s' ha]

theorem Keeps.ite {c : Prop} [Decidable c] {m1 m2 : Rd α} (h1 : Keeps m1) (h2 : Keeps m2) :
    Keeps (if c then m1 else m2) := by
  split
  · exact h1
  · exact h2

theorem Keeps.guard {c : Prop} [Decidable c] {e : PyErr} {f : PUnit → Rd α}
    (h : ∀ u, Keeps (f u)) : Keeps (if c then Rd.fail e >>= f else f PUnit.unit) := by
  split
  · exact (Keeps.fail _).bind h
  · exact h _

theorem read_keeps (n : Nat) : Keeps (read n) := by
  intro s b s' h
  unfold read at h
  split at h
  · cases h; rfl
  · cases h

theorem tell_keeps : Keeps tell := by
  intro s b s' h; cases h; rfl

theorem seekSet_keeps (n : Nat) : Keeps (seekSet n) := by
  intro s b s' h; cases h; rfl

theorem seekCur_keeps (n : Nat) : Keeps (seekCur n) := by
  intro s b s' h
  unfold seekCur at h
  split at h
  · split at h
    · cases h; rfl
    · cases h
  · cases h

theorem seekBack_keeps (n : Nat) : Keeps (seekBack n) := by
  intro s b s' h
  unfold seekBack at h
  split at h
  · cases h; rfl
  · cases h

theorem fromFileF32_keeps (n : Nat) : Keeps (fromFileF32 n) := by
  intro s b s' h
  unfold fromFileF32 at h
  split at h
  · simp only at h
    split at h
    · cases h; rfl
    · cases h; rfl
  · split at h
    · cases h
    · cases h

theorem fromFileU8_keeps (n : Nat) : Keeps (fromFileU8 n) := by
  intro s b s' h
  unfold fromFileU8 at h
  split at h
  · cases h; rfl
  · cases h

theorem readBinary_keeps (ws : List Nat) : Keeps (readBinary ws) := by
  unfold readBinary
  refine (read_keeps _).bind fun buf => ?_
  refine Keeps.ite (Keeps.pure _) ?_
  exact Keeps.guard fun _ => Keeps.pure _

theorem readRequired_keeps (ws : List Nat) : Keeps (readRequired ws) := by
  unfold readRequired
  refine (readBinary_keeps _).bind fun r => ?_
  split
  · exact Keeps.fail _
  · exact Keeps.pure _

theorem readOne_keeps (w : Nat) : Keeps (readOne w) := by
  unfold readOne
  refine (readRequired_keeps _).bind fun r => ?_
  split
  · exact Keeps.pure _
  · exact Keeps.fail _

theorem readHeader_keeps : Keeps readHeader := by
  unfold readHeader
  refine (read_keeps _).bind fun m => ?_
  refine Keeps.guard fun _ => ?_
  refine (readOne_keeps _).bind fun v => ?_
  refine Keeps.guard fun _ => ?_
  exact (readOne_keeps _).bind fun n => readRequired_keeps _

theorem readChunkHeader_keeps : Keeps readChunkHeader := by
  unfold readChunkHeader
  refine (readBinary_keeps _).bind fun r => ?_
  split
  · exact Keeps.pure _
  · exact (Keeps.lift _).bind fun _ => Keeps.pure _
  · exact Keeps.fail _

theorem readRequiredChunkHeader_keeps : Keeps readRequiredChunkHeader := by
  unfold readRequiredChunkHeader
  refine readChunkHeader_keeps.bind fun r => ?_
  split
  · exact Keeps.fail _
  · exact Keeps.pure _

theorem findChunkLoop_keeps (ids : List ChunkId) (fuel : Nat) : Keeps (findChunkLoop ids fuel) := by
  induction fuel with
  | zero => exact Keeps.fail _
  | succ n ih =>
    unfold findChunkLoop
    refine readChunkHeader_keeps.bind fun r => ?_
    split
    · exact Keeps.pure _
    · refine Keeps.ite (Keeps.pure _) ?_
      exact (seekCur_keeps _).bind fun _ => ih

theorem findChunk_keeps (ids : List ChunkId) : Keeps (findChunk ids) := by
  intro s a s' h
  unfold findChunk at h
  exact ((seekSet_keeps 0).bind fun _ => readHeader_keeps.bind fun _ =>
    findChunkLoop_keeps ids _) s a s' h

theorem readItems_keeps (n : Nat) : Keeps (readItems n) := by
  induction n with
  | zero => exact Keeps.pure _
  | succ n ih =>
    unfold readItems
    exact (readOne_keeps _).bind fun _ => (read_keeps _).bind fun _ => (Keeps.lift _).bind fun _ =>
      ih.bind fun _ => Keeps.pure _

theorem readItemsIdx_keeps (n : Nat) : Keeps (readItemsIdx n) := by
  induction n with
  | zero => exact Keeps.pure _
  | succ n ih =>
    unfold readItemsIdx
    exact (readOne_keeps _).bind fun _ => (read_keeps _).bind fun _ => (Keeps.lift _).bind fun _ =>
      (readOne_keeps _).bind fun _ => ih.bind fun _ => Keeps.pure _

theorem readSimpleVocab_keeps : Keeps readSimpleVocab := by
  unfold readSimpleVocab
  exact (readOne_keeps _).bind fun _ => (readItems_keeps _).bind fun _ => Keeps.lift _

theorem readBucketVocab_keeps : Keeps readBucketVocab := by
  unfold readBucketVocab
  refine (readRequired_keeps _).bind fun r => ?_
  split
  · exact (readItems_keeps _).bind fun _ => (Keeps.lift _).bind fun _ => Keeps.lift _
  · exact Keeps.fail _

theorem readFastTextVocab_keeps : Keeps readFastTextVocab := by
  unfold readFastTextVocab
  refine (readRequired_keeps _).bind fun r => ?_
  split
  · exact (readItems_keeps _).bind fun _ => (Keeps.lift _).bind fun _ => Keeps.lift _
  · exact Keeps.fail _

theorem readExplicitVocab_keeps : Keeps readExplicitVocab := by
  unfold readExplicitVocab
  refine (readRequired_keeps _).bind fun r => ?_
  split
  · exact (readItems_keeps _).bind fun _ => (readItemsIdx_keeps _).bind fun _ =>
      (Keeps.lift _).bind fun _ => Keeps.lift _
  · exact Keeps.fail _

theorem loadVocabPart_keeps (c : ChunkId) : Keeps (loadVocabPart c) := by
  unfold loadVocabPart
  split
  · exact readSimpleVocab_keeps
  · exact readBucketVocab_keeps
  · exact readFastTextVocab_keeps
  · exact readExplicitVocab_keeps
  · exact Keeps.fail _

theorem readMetadata_keeps (T : Toml) : Keeps (readMetadata T) := by
  unfold readMetadata
  refine (seekBack_keeps _).bind fun _ => (readRequired_keeps _).bind fun r => ?_
  split
  · refine (Keeps.lift _).bind fun _ => (Keeps.lift _).bind fun _ => (read_keeps _).bind fun _ => ?_
    refine Keeps.guard fun _ => ?_
    exact (Keeps.lift _).bind fun _ => Keeps.lift _
  · exact Keeps.fail _

theorem loadMetaPart_keeps (T : Toml) : Keeps (loadMetaPart T) := by
  unfold loadMetaPart
  refine readRequiredChunkHeader_keeps.bind fun p => ?_
  exact Keeps.ite ((readMetadata_keeps T).bind fun _ => readRequiredChunkHeader_keeps.bind fun _ =>
    Keeps.pure _) (Keeps.pure _)

theorem readArrayHeader_keeps : Keeps readArrayHeader := by
  unfold readArrayHeader
  refine (readRequired_keeps _).bind fun r => ?_
  split
  · refine (readOne_keeps _).bind fun _ => (Keeps.lift _).bind fun _ => ?_
    refine Keeps.guard fun _ => ?_
    exact tell_keeps.bind fun _ => (seekCur_keeps _).bind fun _ => Keeps.pure _
  · exact Keeps.fail _

theorem readNdArray_keeps : Keeps readNdArray := by
  unfold readNdArray
  exact readArrayHeader_keeps.bind fun _ => (fromFileF32_keeps _).bind fun _ => Keeps.lift _

theorem readProjection_keeps (a b : Nat) : Keeps (readProjection a b) := by
  unfold readProjection
  exact Keeps.ite ((fromFileF32_keeps _).bind fun _ => (Keeps.lift _).bind fun _ => Keeps.pure _)
    (Keeps.pure _)

theorem readQNorms_keeps (a b : Nat) : Keeps (readQNorms a b) := by
  unfold readQNorms
  exact Keeps.ite ((fromFileF32_keeps _).bind fun _ => Keeps.pure _) (Keeps.pure _)

theorem readQuantizedTail_keeps (a b c d e f : Nat) : Keeps (readQuantizedTail a b c d e f) := by
  unfold readQuantizedTail
  exact tell_keeps.bind fun _ => (seekCur_keeps _).bind fun _ => (readProjection_keeps _ _).bind
    fun _ => (fromFileF32_keeps _).bind fun _ => (Keeps.lift _).bind fun _ =>
    (readQNorms_keeps _ _).bind fun _ => (Keeps.lift _).bind fun _ => Keeps.pure _

theorem readQuantizedHeader_keeps : Keeps readQuantizedHeader := by
  unfold readQuantizedHeader
  refine (readOne_keeps _).bind fun _ => (readOne_keeps _).bind fun _ => (readOne_keeps _).bind
    fun _ => (readOne_keeps _).bind fun _ => (readOne_keeps _).bind fun _ => (readOne_keeps _).bind
    fun _ => ?_
  refine Keeps.guard fun _ => ?_
  refine (Keeps.lift _).bind fun _ => (readOne_keeps _).bind fun _ => ?_
  refine Keeps.guard fun _ => ?_
  refine (readOne_keeps _).bind fun _ => ?_
  refine Keeps.guard fun _ => ?_
  exact readQuantizedTail_keeps _ _ _ _ _ _

theorem readQuantized_keeps : Keeps readQuantized := by
  unfold readQuantized
  exact readQuantizedHeader_keeps.bind fun _ => (fromFileU8_keeps _).bind fun _ =>
    (Keeps.lift _).bind fun _ => Keeps.pure _

theorem readNorms_keeps : Keeps readNorms := by
  unfold readNorms
  refine (readRequired_keeps _).bind fun r => ?_
  split
  · refine (Keeps.lift _).bind fun _ => ?_
    refine Keeps.guard fun _ => ?_
    exact tell_keeps.bind fun _ => (seekCur_keeps _).bind fun _ => fromFileF32_keeps _
  · exact Keeps.fail _

end FF
