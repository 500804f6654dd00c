import Verif.Model.Optimized
import Verif.Lemmas.FfRead
/-!
# Readers with and without assertions
-/

namespace FF

/-- `r` is `r'`, or raises because of an assertion; `z`: or while computing its condition. -/
def Res.Asserts {α : Type} (z : Bool) (r r' : Res α) : Prop :=
  r = r' ∨ r = .error .assertionError ∨ (z = true ∧ r = .error .zeroDivisionError)

/-- The same for readers -/
def Rd.Asserts {α : Type} (z : Bool) (m m' : Rd α) : Prop := ∀ s : RFile,
  m s = m' s ∨ m s = .error .assertionError ∨ (z = true ∧ m s = .error .zeroDivisionError)

namespace Asserts

variable {z : Bool}

theorem rfl' {α : Type} (r : Res α) : Res.Asserts z r r := .inl rfl

theorem rd_rfl {α : Type} (m : Rd α) : Rd.Asserts z m m := fun _ => .inl rfl

theorem assert {α : Type} (c : Bool) {r r' : Res α} (h : Res.Asserts z r r') :
    Res.Asserts z (do pyAssert c; r) r' := by
  unfold pyAssert
  cases c
  · exact .inr (.inl rfl)
  · exact h

theorem bind {α β : Type} {r r' : Res α} {f f' : α → Res β} (h : Res.Asserts z r r')
    (hf : ∀ a, Res.Asserts z (f a) (f' a)) : Res.Asserts z (r >>= f) (r' >>= f') := by
  rcases h with rfl | rfl | ⟨hz, rfl⟩
  · cases r with
    | error x => exact .inl rfl
    | ok a => exact hf a
  · exact .inr (.inl rfl)
  · exact .inr (.inr ⟨hz, rfl⟩)

theorem rd_bind {α β : Type} {m m' : Rd α} {f f' : α → Rd β} (h : Rd.Asserts z m m')
    (hf : ∀ a, Rd.Asserts z (f a) (f' a)) : Rd.Asserts z (m >>= f) (m' >>= f') := by
  intro s
  have e : ∀ (n : Rd α) (g : α → Rd β), (n >>= g) s = match n s with
      | .ok (a, s') => g a s'
      | .error x => .error x := by
    intro n g
    show (StateT.bind n g s) = _
    unfold StateT.bind
    cases n s <;> rfl
  rw [e, e]
  rcases h s with h | h | ⟨hz, h⟩
  · rw [h]
    cases m' s with
    | error x => exact .inl rfl
    | ok p => exact hf p.1 p.2
  · rw [h]; exact .inr (.inl rfl)
  · rw [h]; exact .inr (.inr ⟨hz, rfl⟩)

theorem lift {α : Type} {r r' : Res α} (h : Res.Asserts z r r') : Rd.Asserts z (Rd.lift r) (Rd.lift r') := by
  intro s
  rcases h with rfl | rfl | ⟨hz, rfl⟩
  · exact .inl rfl
  · exact .inr (.inl rfl)
  · exact .inr (.inr ⟨hz, rfl⟩)

theorem rd_assert {α : Type} (c : Bool) {m m' : Rd α} (h : Rd.Asserts z m m') :
    Rd.Asserts z (do Rd.lift (pyAssert c); m) m' := by
  cases c
  · intro s; exact .inr (.inl rfl)
  · intro s; exact h s

theorem validateItems (ws : List PyStr) : Res.Asserts z (FF.validateItems ws) (Opt.validateItems ws) :=
  assert _ (assert _ (rfl' _))

theorem vocab (ws : List PyStr) (sub : Option Indexer) : Res.Asserts z (Vocab.new ws sub) (Opt.vocab ws sub) :=
  bind (validateItems ws) fun _ => rfl' _

theorem fifu (b mn mx : Int) : Res.Asserts z (FifuIndexer.new b mn mx) (Opt.fifu b mn mx) := by
  unfold FifuIndexer.new
  refine assert _ ?_
  by_cases h : 0 < b ∧ b < 64
  · refine assert _ (bind (rfl' _) fun a => bind (rfl' _) fun c => ?_)
    rw [if_neg (by omega), if_neg (by omega)]
    exact rfl' _
  · refine .inr (.inl ?_)
    rw [decide_eq_false h]
    rfl

theorem ft (b mn mx : Int) : Res.Asserts z (FtIndexer.new b mn mx) (Opt.ft b mn mx) := by
  unfold FtIndexer.new
  refine assert _ ?_
  by_cases h : 0 < b ∧ b ≤ 2 ^ 32 - 1
  · refine assert _ (bind (rfl' _) fun a => bind (rfl' _) fun c => ?_)
    rw [if_neg (by omega)]
    exact rfl' _
  · refine .inr (.inl ?_)
    rw [decide_eq_false h]
    rfl

theorem expl (gs : List PyStr) (mn mx : Int) (ix : Dict PyStr Int) :
    Res.Asserts z (ExplIndexer.new gs mn mx (some ix)) (Opt.expl gs mn mx ix) :=
  assert _ (bind (rfl' _) fun _ => bind (rfl' _) fun _ => assert _ (assert _ (bind (rfl' _) fun _ =>
    assert _ (rfl' _))))

theorem readSimpleVocab : Rd.Asserts z FF.readSimpleVocab Opt.readSimpleVocab :=
  rd_bind (rd_rfl _) fun _ => rd_bind (rd_rfl _) fun _ => lift (vocab _ _)

theorem readBucketVocab : Rd.Asserts z FF.readBucketVocab Opt.readBucketVocab := by
  refine rd_bind (rd_rfl _) fun xs => ?_
  split
  · exact rd_bind (rd_rfl _) fun _ => rd_bind (lift (fifu _ _ _)) fun _ => lift (vocab _ _)
  · rename_i hx
    split
    · exact (hx _ _ _ _ rfl).elim
    · exact rd_rfl _

theorem readFastTextVocab : Rd.Asserts z FF.readFastTextVocab Opt.readFastTextVocab := by
  refine rd_bind (rd_rfl _) fun xs => ?_
  split
  · exact rd_bind (rd_rfl _) fun _ => rd_bind (lift (ft _ _ _)) fun _ => lift (vocab _ _)
  · rename_i hx
    split
    · exact (hx _ _ _ _ rfl).elim
    · exact rd_rfl _

theorem readExplicitVocab : Rd.Asserts z FF.readExplicitVocab Opt.readExplicitVocab := by
  refine rd_bind (rd_rfl _) fun xs => ?_
  split
  · exact rd_bind (rd_rfl _) fun _ => rd_bind (rd_rfl _) fun _ => rd_bind (lift (expl _ _ _ _)) fun _ =>
      lift (vocab _ _)
  · rename_i hx
    split
    · exact (hx _ _ _ _ rfl).elim
    · exact rd_rfl _

theorem loadVocab : Rd.Asserts z FF.loadVocab Opt.loadVocab := by
  refine rd_bind (rd_rfl _) fun c => ?_
  cases c with
  | none => exact rd_rfl _
  | some c =>
    cases c <;> first
      | exact readSimpleVocab
      | exact readBucketVocab
      | exact readFastTextVocab
      | exact readExplicitVocab
      | exact rd_rfl _

/-- After a chunk header has been read, `Metadata.read_chunk` reads it again: the assertion holds. -/
theorem readMetadata (T : Toml) {s s' : RFile} {n : Nat} (h : readRequiredChunkHeader s = .ok ((.metadata, n), s')) :
    FF.readMetadata T s' = Opt.readMetadata T s' := by
  obtain ⟨bs, p⟩ := s
  obtain ⟨hn, hat, rfl⟩ := readRequiredChunkHeader_iff.mp h
  have hsb : seekBack (calcsize [4, 8]) ⟨bs, p + 12⟩ = .ok ((), ⟨bs, p⟩) := by
    unfold seekBack
    rw [if_pos (by simp [calcsize])]
    simp [calcsize]
  have hr : readRequired [4, 8] ⟨bs, p⟩ = .ok ([ChunkId.metadata.toNat, n], ⟨bs, p + 12⟩) := by
    refine (readRequired_iff (by decide) (by decide)).mpr ⟨rfl, ?_, ?_, rfl⟩
    · intro q hq
      simp only [List.zip_cons_cons, List.zip_nil_left, List.mem_cons, List.not_mem_nil, or_false] at hq
      rcases hq with rfl | rfl
      · decide
      · exact hn
    · simpa [packRaw] using hat
  unfold FF.readMetadata Opt.readMetadata
  rw [rd_bind_ok hsb, rd_bind_ok hsb, rd_bind_ok hr, rd_bind_ok hr]
  rfl

theorem pq (n sub : Nat) (qs : List (List (List F32))) (p : Option (Mat F32)) :
    Res.Asserts z (PQ.new n sub qs p) (Opt.pq n sub qs p) := by
  cases p with
  | none => exact rfl' _
  | some p => exact assert _ (rfl' _)

theorem readQuantizedTail (a b c d e f : Nat) (hc : c ≠ 0) :
    Rd.Asserts z (FF.readQuantizedTail a b c d e f) (Opt.readQuantizedTail a b c d e f) := by
  unfold Opt.readQuantizedTail
  refine rd_bind (rd_rfl _) fun _ => rd_bind (rd_rfl _) fun _ => rd_bind (rd_rfl _) fun _ => ?_
  rw [if_neg hc]
  exact rd_bind (rd_rfl _) fun _ => rd_bind (rd_rfl _) fun _ => rd_bind (rd_rfl _) fun _ =>
    rd_bind (lift (pq _ _ _ _)) fun _ => rd_rfl _

theorem readQuantizedHeader : Rd.Asserts true FF.readQuantizedHeader Opt.readQuantizedHeader := by
  refine rd_bind (rd_rfl _) fun _ => rd_bind (rd_rfl _) fun _ => rd_bind (rd_rfl _) fun c =>
    rd_bind (rd_rfl _) fun _ => rd_bind (rd_rfl _) fun _ => rd_bind (rd_rfl _) fun _ => ?_
  by_cases hc : c = 0
  · rw [if_pos hc]
    exact fun s => .inr (.inr ⟨rfl, rfl⟩)
  · rw [if_neg hc]
    refine rd_assert _ (rd_bind (rd_rfl _) fun _ => ?_)
    split
    · refine rd_bind (rd_rfl _) fun _ => rd_bind (rd_rfl _) fun _ => ?_
      dsimp only
      split
      · exact rd_bind (rd_rfl _) fun _ => readQuantizedTail _ _ _ _ _ _ hc
      · exact readQuantizedTail _ _ _ _ _ _ hc
    · refine rd_bind (rd_rfl _) fun _ => ?_
      dsimp only
      split
      · exact rd_bind (rd_rfl _) fun _ => readQuantizedTail _ _ _ _ _ _ hc
      · exact readQuantizedTail _ _ _ _ _ _ hc

theorem loadQuant (mmap : Bool) : Rd.Asserts true (FF.loadQuant mmap) (Opt.loadQuant mmap) := by
  cases mmap
  · exact rd_bind (rd_bind readQuantizedHeader fun _ => rd_rfl _) fun _ => rd_rfl _
  · exact rd_bind (rd_bind readQuantizedHeader fun _ => rd_rfl _) fun _ => rd_rfl _

theorem loadStorage (mmap : Bool) : Rd.Asserts true (FF.loadStorage mmap) (Opt.loadStorage mmap) := by
  refine rd_bind (rd_rfl _) fun c => ?_
  cases c with
  | none => exact rd_rfl _
  | some c =>
    cases c <;> first
      | exact loadQuant mmap
      | exact rd_rfl _

theorem checks {K : Type} (st : Storage K) (v : Vocab) (ns : Option (List K)) :
    Res.Asserts z (checkRequirements st v ns) (.ok ()) := by
  refine assert _ ?_
  cases ns with
  | none => exact rfl' _
  | some n =>
    refine assert _ ?_
    unfold pyAssert
    split
    · exact rfl' _
    · exact .inr (.inl rfl)

theorem embeddings {K : Type} (st : Storage K) (v : Vocab) (ns : Option (List K)) (m : Option Meta) :
    Res.Asserts z (Embeddings.new st v ns m) (Opt.embeddings st v ns m) :=
  bind (checks st v ns) fun _ => rfl' _

theorem loadMetaPart (T : Toml) : FF.loadMetaPart T = Opt.loadMetaPart T := by
  funext s
  unfold FF.loadMetaPart Opt.loadMetaPart
  rw [FF.rd_bind, FF.rd_bind]
  cases h : readRequiredChunkHeader s with
  | error x => rfl
  | ok p =>
    obtain ⟨⟨c, n⟩, s'⟩ := p
    dsimp only
    by_cases hc : c = .metadata
    · subst hc
      rw [if_pos rfl, if_pos rfl, FF.rd_bind, FF.rd_bind, readMetadata T h]
    · rw [if_neg hc, if_neg hc]

theorem loadFinalfusion (T : Toml) (mmap : Bool) :
    Rd.Asserts true (FF.loadFinalfusion T mmap) (Opt.loadFinalfusion T mmap) := by
  refine rd_bind (rd_rfl _) fun _ => rd_bind ?_ fun p => rd_bind ?_ fun v => rd_bind ?_ fun st =>
    rd_bind (rd_rfl _) fun ns => lift (embeddings _ _ _ _)
  · rw [loadMetaPart]
    exact rd_rfl _
  · cases p.1 <;> first
      | exact readSimpleVocab
      | exact readBucketVocab
      | exact readFastTextVocab
      | exact readExplicitVocab
      | exact rd_rfl _
  · refine rd_bind (rd_rfl _) fun p => ?_
    rcases p with ⟨c, _⟩
    cases c <;> first
      | exact loadQuant mmap
      | exact rd_rfl _

section
variable {K : Type} [NumOps K]

theorem loadWord2vec [Codec K] (lossy : Bool) :
    Rd.Asserts z (FF.loadWord2vec lossy : Rd (Embeddings K)) (Opt.loadWord2vec lossy) :=
  rd_bind (rd_rfl _) fun _ => rd_bind (rd_rfl _) fun _ => rd_bind (rd_rfl _) fun _ => rd_bind (rd_rfl _) fun _ =>
    rd_bind (rd_rfl _) fun _ => rd_bind (lift (vocab _ _)) fun _ => lift (embeddings _ _ _ _)

theorem loadTextLines [NumText K] (file : Lines) (r c : Int) :
    Res.Asserts z (FF.loadTextLines file r c : Res (Embeddings K)) (Opt.loadTextLines file r c) :=
  bind (rfl' _) fun _ => bind (rfl' _) fun _ => bind (vocab _ _) fun _ => embeddings _ _ _ _

theorem loadTextDims [NumText K] [TextIO] (lossy : Bool) (bs : Bytes) :
    Res.Asserts z (FF.loadTextDims lossy bs : Res (Embeddings K)) (Opt.loadTextDims lossy bs) := by
  refine bind (rfl' _) fun p => ?_
  cases p with
  | none => exact rfl' _
  | some p => exact bind (rfl' _) fun _ => loadTextLines _ _ _

theorem loadText [NumText K] [TextIO] (lossy : Bool) (bs : Bytes) :
    Res.Asserts z (FF.loadText lossy bs : Res (Embeddings K)) (Opt.loadText lossy bs) := by
  refine bind (rfl' _) fun p => ?_
  cases p with
  | none => exact rfl' _
  | some p => exact bind (rfl' _) fun _ => loadTextLines _ _ _

end

end Asserts

theorem Rd.Asserts.run_ {α : Type} {z : Bool} {m m' : Rd α} (h : Rd.Asserts z m m') (bs : Bytes) :
    Res.Asserts z (Rd.run m bs) (Rd.run m' bs) := by
  unfold Rd.run
  rcases h ⟨bs, 0⟩ with h | h | ⟨hz, h⟩ <;> rw [h]
  · exact .inl rfl
  · exact .inr (.inl rfl)
  · exact .inr (.inr ⟨hz, rfl⟩)

end FF
