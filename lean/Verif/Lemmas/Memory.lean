import Verif.Model.Memory
import Verif.Lemmas.FfRead
import Verif.Lemmas.FfStorage
import Verif.Lemmas.FfVocab
/-!
# Readers with a budget and without
-/

namespace FF

variable {α β : Type}

theorem mrd_bind (m : MRd α) (f : α → MRd β) (s : Nat × RFile) :
    (m >>= f) s = match m s with
      | .ok (a, s') => f a s'
      | .error e => .error e := by
  show (StateT.bind m f s) = _
  unfold StateT.bind
  cases m s <;> rfl

/-- `l` does what `m` does, or runs out of memory. -/
def Limits (m : Rd α) (l : MRd α) : Prop := ∀ b s,
  (∃ a b' s', b' ≤ b ∧ l (b, s) = .ok (a, (b', s')) ∧ m s = .ok (a, s')) ∨
  (∃ e, l (b, s) = .error (.py e) ∧ m s = .error e) ∨ l (b, s) = .error .memory

namespace Limits

theorem of (m : Rd α) : Limits m (MRd.of m) := by
  intro b s
  unfold MRd.of
  cases h : m s with
  | error e => exact .inr (.inl ⟨e, by simp, rfl⟩)
  | ok p => exact .inl ⟨p.1, b, p.2, le_refl _, by simp, rfl⟩

theorem request (n : Nat) (m : Rd α) : Limits m (MRd.request n m) := by
  intro b s
  unfold MRd.request
  by_cases h : n ≤ b
  · rw [if_pos h]
    rcases of m (b - n) s with ⟨a, b', s', hb, h1, h2⟩ | ⟨e, h1, h2⟩ | h1
    · exact .inl ⟨a, b', s', by omega, h1, h2⟩
    · exact .inr (.inl ⟨e, h1, h2⟩)
    · exact .inr (.inr h1)
  · rw [if_neg h]
    exact .inr (.inr rfl)

theorem pure (a : α) : Limits (Pure.pure a) (Pure.pure a) := fun b s => .inl ⟨a, b, s, le_refl _, rfl, rfl⟩

theorem bind {m : Rd α} {l : MRd α} {f : α → Rd β} {g : α → MRd β} (h : Limits m l)
    (hf : ∀ a, Limits (f a) (g a)) : Limits (m >>= f) (l >>= g) := by
  intro b s
  rw [mrd_bind, rd_bind]
  rcases h b s with ⟨a, b', s', hb, h1, h2⟩ | ⟨e, h1, h2⟩ | h1
  · rw [h1, h2]
    rcases hf a b' s' with ⟨c, b2, s2, hb2, k1, k2⟩ | ⟨e, k1, k2⟩ | k1
    · exact .inl ⟨c, b2, s2, le_trans hb2 hb, k1, k2⟩
    · exact .inr (.inl ⟨e, k1, k2⟩)
    · exact .inr (.inr k1)
  · rw [h1, h2]; exact .inr (.inl ⟨e, rfl, rfl⟩)
  · rw [h1]; exact .inr (.inr rfl)

theorem ite {c : Prop} [Decidable c] {m1 m2 : Rd α} {l1 l2 : MRd α} (h1 : Limits m1 l1) (h2 : Limits m2 l2) :
    Limits (if c then m1 else m2) (if c then l1 else l2) := by
  split <;> assumption

theorem guard {c : Prop} [Decidable c] {e : PyErr} {f : PUnit → Rd α} {g : PUnit → MRd α}
    (h : ∀ u, Limits (f u) (g u)) : Limits (if c then Rd.fail e >>= f else f PUnit.unit)
      (if c then MRd.of (Rd.fail e) >>= g else g PUnit.unit) := by
  split
  · exact bind (of _) h
  · exact h _

theorem read (n : Nat) : Limits (FF.read n) (Mem.read n) := by
  unfold Mem.read
  split
  · exact request _ _
  · exact of _

theorem fromFileF32 (n : Nat) : Limits (FF.fromFileF32 n) (Mem.fromFileF32 n) := by
  unfold Mem.fromFileF32
  split
  · exact request _ _
  · exact of _

theorem fromFileU8 (n : Nat) : Limits (FF.fromFileU8 n) (Mem.fromFileU8 n) := by
  unfold Mem.fromFileU8
  split
  · exact request _ _
  · exact of _

theorem readBinary (ws : List Nat) : Limits (FF.readBinary ws) (Mem.readBinary ws) := by
  refine bind (read _) fun buf => ?_
  split
  · exact pure _
  · exact guard fun _ => pure _

theorem readRequired (ws : List Nat) : Limits (FF.readRequired ws) (Mem.readRequired ws) := by
  refine bind (readBinary _) fun o => ?_
  cases o
  · exact of _
  · exact pure _

theorem readOne (w : Nat) : Limits (FF.readOne w) (Mem.readOne w) := by
  refine bind (readRequired _) fun vs => ?_
  rcases vs with _ | ⟨v, _ | ⟨_, _⟩⟩
  · exact of _
  · exact pure _
  · exact of _

theorem readHeader : Limits FF.readHeader Mem.readHeader :=
  bind (read _) fun _ => guard fun _ => bind (readOne _) fun _ => guard fun _ => bind (readOne _) fun _ => readRequired _

theorem readChunkHeader : Limits FF.readChunkHeader Mem.readChunkHeader := by
  refine bind (readBinary _) fun o => ?_
  rcases o with _ | ⟨_ | ⟨i, _ | ⟨n, _ | ⟨_, _⟩⟩⟩⟩
  · exact pure _
  · exact of _
  · exact of _
  · exact bind (of _) fun _ => pure _
  · exact of _

theorem readRequiredChunkHeader : Limits FF.readRequiredChunkHeader Mem.readRequiredChunkHeader := by
  refine bind readChunkHeader fun o => ?_
  cases o
  · exact of _
  · exact pure _

theorem findChunkLoop (ids : List ChunkId) (fuel : Nat) :
    Limits (FF.findChunkLoop ids fuel) (Mem.findChunkLoop ids fuel) := by
  induction fuel with
  | zero => exact of _
  | succ fuel ih =>
    refine bind readChunkHeader fun o => ?_
    rcases o with _ | ⟨c, size⟩
    · exact pure _
    · show Limits (if c ∈ ids then _ else _) (if c ∈ ids then _ else _)
      exact ite (pure _) (bind (of _) fun _ => ih)

theorem findChunk (ids : List ChunkId) : Limits (FF.findChunk ids) (Mem.findChunk ids) := by
  intro b s
  exact bind (of (seekSet 0)) (fun _ => bind readHeader fun _ => findChunkLoop ids (s.data.length + 1)) b s

theorem readItems (n : Nat) : Limits (FF.readItems n) (Mem.readItems n) := by
  induction n with
  | zero => exact pure _
  | succ n ih =>
    exact bind (readOne _) fun _ => bind (read _) fun _ => bind (of _) fun _ => bind ih fun _ => pure _

theorem readItemsIdx (n : Nat) : Limits (FF.readItemsIdx n) (Mem.readItemsIdx n) := by
  induction n with
  | zero => exact pure _
  | succ n ih =>
    exact bind (readOne _) fun _ => bind (read _) fun _ => bind (of _) fun _ => bind (readOne _) fun _ =>
      bind ih fun _ => pure _

theorem readSimpleVocab : Limits FF.readSimpleVocab Mem.readSimpleVocab :=
  bind (readOne _) fun _ => bind (readItems _) fun _ => of _

theorem readBucketVocab : Limits FF.readBucketVocab Mem.readBucketVocab := by
  refine bind (readRequired _) fun xs => ?_
  split
  · exact bind (readItems _) fun _ => bind (of _) fun _ => of _
  · rename_i hx
    split
    · exact (hx _ _ _ _ rfl).elim
    · exact of _

theorem readFastTextVocab : Limits FF.readFastTextVocab Mem.readFastTextVocab := by
  refine bind (readRequired _) fun xs => ?_
  split
  · exact bind (readItems _) fun _ => bind (of _) fun _ => of _
  · rename_i hx
    split
    · exact (hx _ _ _ _ rfl).elim
    · exact of _

theorem readExplicitVocab : Limits FF.readExplicitVocab Mem.readExplicitVocab := by
  refine bind (readRequired _) fun xs => ?_
  split
  · exact bind (readItems _) fun _ => bind (readItemsIdx _) fun _ => bind (of _) fun _ => of _
  · rename_i hx
    split
    · exact (hx _ _ _ _ rfl).elim
    · exact of _

theorem readVocabChunk (c : ChunkId) : Limits (FF.readVocabChunk c) (Mem.readVocabChunk c) := by
  cases c <;> first
    | exact readSimpleVocab
    | exact readBucketVocab
    | exact readFastTextVocab
    | exact readExplicitVocab
    | exact of _

theorem loadVocab : Limits FF.loadVocab Mem.loadVocab := by
  refine bind (findChunk _) fun o => ?_
  cases o
  · exact of _
  · exact readVocabChunk _

theorem readMetadata (T : Toml) : Limits (FF.readMetadata T) (Mem.readMetadata T) := by
  refine bind (of _) fun _ => bind (readRequired _) fun xs => ?_
  split
  · exact bind (of _) fun _ => bind (of _) fun _ => bind (read _) fun _ => guard fun _ => bind (of _) fun _ => of _
  · rename_i hx
    split
    · exact (hx _ _ rfl).elim
    · exact of _

theorem loadMetadata (T : Toml) : Limits (FF.loadMetadata T) (Mem.loadMetadata T) := by
  refine bind (findChunk _) fun o => ?_
  rcases o with _ | c
  · exact of _
  · cases c <;> first
      | exact readMetadata T
      | exact of _

theorem readArrayHeader : Limits FF.readArrayHeader Mem.readArrayHeader := by
  refine bind (readRequired _) fun xs => ?_
  split
  · exact bind (readOne _) fun _ => bind (of _) fun _ => guard fun _ => bind (of _) fun _ => bind (of _) fun _ => pure _
  · rename_i hx
    split
    · exact (hx _ _ rfl).elim
    · exact of _

theorem readNdArray : Limits FF.readNdArray Mem.readNdArray :=
  bind readArrayHeader fun _ => bind (fromFileF32 _) fun _ => of _

theorem mmapNdArray : Limits FF.mmapNdArray Mem.mmapNdArray :=
  bind readArrayHeader fun _ => bind (of _) fun _ => bind (of _) fun _ => of _

theorem readProjection (a b : Nat) : Limits (FF.readProjection a b) (Mem.readProjection a b) :=
  ite (bind (fromFileF32 _) fun _ => bind (of _) fun _ => pure _) (pure _)

theorem readQNorms (a b : Nat) : Limits (FF.readQNorms a b) (Mem.readQNorms a b) :=
  ite (bind (fromFileF32 _) fun _ => pure _) (pure _)

theorem readQuantizedTail (a b c d e f : Nat) :
    Limits (FF.readQuantizedTail a b c d e f) (Mem.readQuantizedTail a b c d e f) :=
  bind (of _) fun _ => bind (of _) fun _ => bind (readProjection _ _) fun _ => bind (fromFileF32 _) fun _ =>
    bind (of _) fun _ => bind (readQNorms _ _) fun _ => bind (of _) fun _ => pure _

theorem readQuantizedHeader : Limits FF.readQuantizedHeader Mem.readQuantizedHeader :=
  bind (readOne _) fun _ => bind (readOne _) fun _ => bind (readOne _) fun _ => bind (readOne _) fun _ =>
    bind (readOne _) fun _ => bind (readOne _) fun _ => guard fun _ => bind (of _) fun _ => bind (readOne _) fun _ =>
      guard fun _ => bind (readOne _) fun _ => guard fun _ => readQuantizedTail _ _ _ _ _ _

theorem readQuantized : Limits FF.readQuantized Mem.readQuantized :=
  bind readQuantizedHeader fun _ => bind (fromFileU8 _) fun _ => bind (of _) fun _ => pure _

theorem mmapQuantized : Limits FF.mmapQuantized Mem.mmapQuantized :=
  bind readQuantizedHeader fun _ => bind (of _) fun _ => bind (of _) fun _ => bind (of _) fun _ => pure _

theorem loadNd (mmap : Bool) : Limits (FF.loadNd mmap) (Mem.loadNd mmap) := by
  cases mmap
  · exact bind readNdArray fun _ => pure _
  · exact bind mmapNdArray fun _ => pure _

theorem loadQuant (mmap : Bool) : Limits (FF.loadQuant mmap) (Mem.loadQuant mmap) := by
  cases mmap
  · exact bind readQuantized fun _ => pure _
  · exact bind mmapQuantized fun _ => pure _

theorem loadStorage (mmap : Bool) : Limits (FF.loadStorage mmap) (Mem.loadStorage mmap) := by
  refine bind (findChunk _) fun o => ?_
  rcases o with _ | c
  · exact of _
  · cases c <;> first
      | exact loadNd mmap
      | exact loadQuant mmap
      | exact of _

theorem readNorms : Limits FF.readNorms Mem.readNorms := by
  refine bind (readRequired _) fun xs => ?_
  split
  · exact bind (of _) fun _ => guard fun _ => bind (of _) fun _ => bind (of _) fun _ => fromFileF32 _
  · rename_i hx
    split
    · exact (hx _ _ rfl).elim
    · exact of _

theorem loadNorms : Limits FF.loadNorms Mem.loadNorms := by
  refine bind (findChunk _) fun o => ?_
  rcases o with _ | c
  · exact of _
  · cases c <;> first
      | exact readNorms
      | exact of _

theorem loadMetaPart (T : Toml) : Limits (FF.loadMetaPart T) (Mem.loadMetaPart T) := by
  refine bind readRequiredChunkHeader fun p => ?_
  exact ite (bind (readMetadata T) fun _ => bind readRequiredChunkHeader fun _ => pure _) (pure _)

theorem loadVocabPart (c : ChunkId) : Limits (FF.loadVocabPart c) (Mem.loadVocabPart c) := by
  cases c <;> first
    | exact readSimpleVocab
    | exact readBucketVocab
    | exact readFastTextVocab
    | exact readExplicitVocab
    | exact of _

theorem loadStoragePart (mmap : Bool) : Limits (FF.loadStoragePart mmap) (Mem.loadStoragePart mmap) := by
  refine bind readRequiredChunkHeader fun p => ?_
  obtain ⟨c, n⟩ := p
  cases c <;> first
    | exact loadNd mmap
    | exact loadQuant mmap
    | exact of _

theorem loadNormsPart : Limits FF.loadNormsPart Mem.loadNormsPart := by
  refine bind readChunkHeader fun o => ?_
  rcases o with _ | ⟨c, n⟩
  · exact pure _
  · cases c <;> first
      | exact bind readNorms fun _ => pure _
      | exact of _

theorem loadFinalfusion (T : Toml) (mmap : Bool) : Limits (FF.loadFinalfusion T mmap) (Mem.loadFinalfusion T mmap) :=
  bind readHeader fun _ => bind (loadMetaPart T) fun _ => bind (loadVocabPart _) fun _ =>
    bind (loadStoragePart mmap) fun _ => bind loadNormsPart fun _ => of _

theorem run {m : Rd α} {l : MRd α} (h : Limits m l) (n : Nat) (bs : Bytes) :
    l.run n bs = (m.run bs).mapError .py ∨ l.run n bs = .error .memory := by
  unfold MRd.run Rd.run
  rcases h n ⟨bs, 0⟩ with ⟨a, b', s', _, h1, h2⟩ | ⟨e, h1, h2⟩ | h1
  · rw [h1, h2]; exact .inl rfl
  · rw [h1, h2]; exact .inl rfl
  · rw [h1]; exact .inr rfl

end Limits

end FF
