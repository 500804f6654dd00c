import Verif.Spec.Documented
import Verif.Model.Steps
import Verif.Lemmas.MemoryCompat
import Verif.Lemmas.LoadInv
import Verif.Lemmas.FtLayout
import Verif.Lemmas.FfRead
/-!
# Readers with a budget of steps
-/

namespace FF

variable {α β : Type}

/-- With `k` steps for every byte that is left and `d` further ones, `t` does what `m` does.  It takes `k` steps for each
byte it moves forward and `d` further ones, without `x a`, which it saves. -/
def Takes (k d : Nat) (x : α → Nat) (m : Rd α) (t : MRd α) : Prop := ∀ b s, k * s.left + d ≤ b →
  match m s with
  | .ok (a, s') => ∃ b', t (b, s) = .ok (a, (b', s')) ∧ b + k * s'.left + x a ≤ b' + k * s.left + d
  | .error e => t (b, s) = .error (.py e)

/-- The same, for something with no steps after it -/
def Finishes (k d : Nat) (m : Rd α) (t : MRd α) : Prop := ∀ b s, k * s.left + d ≤ b →
  match m s with
  | .ok (a, s') => ∃ b', t (b, s) = .ok (a, (b', s'))
  | .error e => t (b, s) = .error (.py e)

/-- Moving forward only -/
def Onward (m : Rd α) : Prop := ∀ s a s', m s = .ok (a, s') → s'.left ≤ s.left

namespace Takes

variable {k d d1 d2 : Nat}

theorem bind {m : Rd α} {t : MRd α} {f : α → Rd β} {g : α → MRd β} {x : α → Nat} {y : β → Nat} (h : Takes k d1 x m t)
    (hf : ∀ a, Takes k (d2 + x a) y (f a) (g a)) : Takes k (d1 + d2) y (m >>= f) (t >>= g) := by
  intro b s hb
  have h1 := h b s (by omega)
  rw [mrd_bind, rd_bind]
  cases hm : m s with
  | error e =>
    rw [hm] at h1
    simp only at h1
    rw [h1]
  | ok p =>
    obtain ⟨a, s'⟩ := p
    rw [hm] at h1
    obtain ⟨b', e1, e2⟩ := h1
    rw [e1]
    have h2 := hf a b' s' (by omega)
    simp only
    cases hfa : f a s' with
    | error e => rw [hfa] at h2; exact h2
    | ok q =>
      obtain ⟨c, s''⟩ := q
      rw [hfa] at h2
      obtain ⟨b'', e3, e4⟩ := h2
      exact ⟨b'', e3, by omega⟩

theorem mono {m : Rd α} {t : MRd α} {x y : α → Nat} (h : Takes k d1 x m t) (hd : d1 ≤ d2) (hx : ∀ a, y a ≤ x a) :
    Takes k d2 y m t := by
  intro b s hb
  have h1 := h b s (by omega)
  cases hm : m s with
  | error e => rw [hm] at h1; exact h1
  | ok p =>
    obtain ⟨a, s'⟩ := p
    rw [hm] at h1
    obtain ⟨b', e1, e2⟩ := h1
    have := hx a
    exact ⟨b', e1, by omega⟩

theorem of {m : Rd α} (h : Onward m) : Takes k 0 (fun _ => 0) m (MRd.of m) := by
  intro b s _
  unfold MRd.of
  cases hm : m s with
  | error e => rfl
  | ok p =>
    obtain ⟨a, s'⟩ := p
    have := Nat.mul_le_mul_left k (h s a s' hm)
    exact ⟨b, rfl, by simp only; omega⟩

theorem rounds (n : Nat) : Takes k n (fun _ => 0) (Pure.pure ()) (Steps.rounds n) := by
  intro b s hb
  have hn : n ≤ b := by omega
  refine ⟨b - n, ?_, by simp only; omega⟩
  unfold Steps.rounds MRd.request
  rw [if_pos hn]
  rfl

theorem pure (a : α) : Takes k 0 (fun _ => 0) (Pure.pure a) (Pure.pure a) := fun b s _ => ⟨b, rfl, by simp only; omega⟩

theorem save (a : α) (x : α → Nat) : Takes k (x a) x (Pure.pure a) (Pure.pure a) := fun b s _ => ⟨b, rfl, by omega⟩

theorem fail (e : PyErr) (x : α → Nat) : Takes k 0 x (Rd.fail e : Rd α) (MRd.of (Rd.fail e)) := fun _ _ _ => rfl

/-- Rounds before something -/
theorem after {m : Rd α} {t : MRd α} {x : α → Nat} (n : Nat) (h : Takes k d x m t) :
    Takes k (n + d) x m (Steps.rounds n >>= fun _ => t) := by
  have := bind (rounds n) fun _ => (h : Takes k (d + 0) x m t)
  exact this

/-- Something that moves forward by at least `x a` bytes saves that many steps. -/
theorem moved {m : Rd α} {x : α → Nat} (h : ∀ s a s', m s = .ok (a, s') → s'.left + x a ≤ s.left) :
    Takes k 0 (fun a => k * x a) m (MRd.of m) := by
  intro b s _
  unfold MRd.of
  cases hm : m s with
  | error e => rfl
  | ok p =>
    obtain ⟨a, s'⟩ := p
    have := Nat.mul_le_mul_left k (h s a s' hm)
    rw [Nat.mul_add] at this
    exact ⟨b, rfl, by simp only; omega⟩

end Takes

namespace Finishes

variable {k d d1 d2 : Nat}

theorem of (m : Rd α) : Finishes k 0 m (MRd.of m) := by
  intro b s _
  unfold MRd.of
  cases hm : m s with
  | error e => rfl
  | ok p => exact ⟨b, rfl⟩

theorem takes {m : Rd α} {t : MRd α} {x : α → Nat} (h : Takes k d x m t) : Finishes k d m t := by
  intro b s hb
  have h1 := h b s hb
  cases hm : m s with
  | error e => rw [hm] at h1; exact h1
  | ok p =>
    rw [hm] at h1
    obtain ⟨b', e1, _⟩ := h1
    exact ⟨b', e1⟩

theorem mono {m : Rd α} {t : MRd α} (h : Finishes k d1 m t) (hd : d1 ≤ d2) : Finishes k d2 m t :=
  fun b s hb => h b s (by omega)

theorem bind {m : Rd α} {t : MRd α} {f : α → Rd β} {g : α → MRd β} {x : α → Nat} (h : Takes k d1 x m t)
    (hf : ∀ a, Finishes k (d2 + x a) (f a) (g a)) : Finishes k (d1 + d2) (m >>= f) (t >>= g) := by
  intro b s hb
  have h1 := h b s (by omega)
  rw [mrd_bind, rd_bind]
  cases hm : m s with
  | error e =>
    rw [hm] at h1
    simp only at h1
    rw [h1]
  | ok p =>
    obtain ⟨a, s'⟩ := p
    rw [hm] at h1
    obtain ⟨b', e1, e2⟩ := h1
    rw [e1]
    exact hf a b' s' (by omega)

theorem run {m : Rd α} {t : MRd α} (h : Finishes k d m t) {bs : Bytes} {n : Nat} (hn : k * bs.length + d ≤ n) :
    MRd.run t n bs = (Rd.run m bs).mapError .py := by
  have h1 := h n ⟨bs, 0⟩ (by simpa [RFile.left] using hn)
  unfold MRd.run Rd.run
  cases hm : m ⟨bs, 0⟩ with
  | error e =>
    rw [hm] at h1
    simp only at h1
    rw [h1]
    rfl
  | ok p =>
    rw [hm] at h1
    obtain ⟨b', e1⟩ := h1
    rw [e1]
    rfl

end Finishes

theorem of_bind (m : Rd α) (f : α → Rd β) : MRd.of (m >>= f) = MRd.of m >>= fun a => MRd.of (f a) := by
  funext ⟨b, s⟩
  rw [mrd_bind]
  unfold MRd.of
  rw [rd_bind]
  cases m s with
  | error e => rfl
  | ok p => rfl

/-! ### Moving forward -/

namespace Onward

theorem bind {m : Rd α} {f : α → Rd β} (h : Onward m) (hf : ∀ a, Onward (f a)) : Onward (m >>= f) := by
  intro s a s' hs
  obtain ⟨b, s1, h1, h2⟩ := rd_bind_inv hs
  exact (hf b s1 a s' h2).trans (h s b s1 h1)

theorem pure (a : α) : Onward (Pure.pure a : Rd α) := by
  intro s a' s' h
  cases h
  exact le_refl _

theorem fail (e : PyErr) : Onward (Rd.fail e : Rd α) := fun _ _ _ h => by cases h

theorem lift (r : Res α) : Onward (Rd.lift r) := by
  intro s a s' h
  rw [(rd_lift_inv h).2]

theorem read (n : Nat) : Onward (FF.read n) := by
  intro s a s' h
  rw [(read_inv h).2]
  unfold RFile.left
  simp only
  omega

theorem guard {c : Prop} [Decidable c] {e : PyErr} {f : PUnit → Rd α} (h : ¬ c → Onward (f ⟨⟩)) :
    Onward (if c then Rd.fail e >>= f else f ⟨⟩) := by
  by_cases hc : c
  · rw [if_pos hc]
    intro s a s' hs
    cases hs
  · rw [if_neg hc]
    exact h hc

theorem ite {c : Prop} [Decidable c] {m1 m2 : Rd α} (h1 : Onward m1) (h2 : Onward m2) : Onward (if c then m1 else m2) := by
  split
  · exact h1
  · exact h2

theorem seekCur (n : Nat) : Onward (FF.seekCur n) := by
  intro s a s' h
  unfold FF.seekCur at h
  split at h
  · split at h <;> cases h
    unfold RFile.left
    simp only
    omega
  · cases h

theorem readBinary (ws : List Nat) : Onward (FF.readBinary ws) :=
  bind (read _) fun _ => ite (pure _) (guard fun _ => pure _)

theorem readRequired (ws : List Nat) : Onward (FF.readRequired ws) := by
  refine bind (readBinary _) fun o => ?_
  cases o with
  | none => exact fail _
  | some v => exact pure _

theorem readOne (w : Nat) : Onward (FF.readOne w) := by
  refine bind (readRequired _) fun vs => ?_
  rcases vs with _ | ⟨v, _ | ⟨_, _⟩⟩
  · exact fail _
  · exact pure _
  · exact fail _

theorem readHeader : Onward FF.readHeader :=
  bind (read _) fun _ => guard fun _ => bind (readOne _) fun _ => guard fun _ => bind (readOne _) fun _ => readRequired _

theorem readChunkHeader : Onward FF.readChunkHeader := by
  refine bind (readBinary _) fun o => ?_
  rcases o with _ | _ | ⟨a, _ | ⟨b, _ | ⟨_, _⟩⟩⟩
  · exact pure _
  · exact fail _
  · exact fail _
  · exact bind (lift _) fun _ => pure _
  · exact fail _

theorem readRequiredChunkHeader : Onward FF.readRequiredChunkHeader := by
  refine bind readChunkHeader fun o => ?_
  cases o with
  | none => exact fail _
  | some v => exact pure _

end Onward

/-! ### Reading -/

theorem read_moves {n : Nat} {s s' : RFile} {b : Bytes} (h : read n s = .ok (b, s')) : s'.left + b.length = s.left := by
  obtain ⟨h1, h2⟩ := read_inv h
  have : b.length ≤ s.data.length - s.pos := by
    rw [h1, List.length_take, List.length_drop]
    omega
  rw [h2]
  unfold RFile.left
  simp only
  omega

theorem readOne_moves {w n : Nat} {s s' : RFile} (h0 : 0 < w) (hw : w < maxSize) (h : readOne w s = .ok (n, s')) :
    s'.left + w = s.left := by
  obtain ⟨_, h1, h2⟩ := readOne_ate h0 hw h
  have hl := congrArg List.length h2
  simp only [List.length_append, List.length_drop, length_le] at hl
  unfold RFile.left
  rw [h1]
  omega

theorem Onward.readMetadata (T : Toml) : Onward (FF.readMetadata T) := by
  intro s a s' h
  have h' : FF.readMetadata T s = .ok (a, s') := h
  unfold FF.readMetadata at h'
  obtain ⟨u, s1, h1, h2⟩ := rd_bind_inv h'
  obtain ⟨vs, s2, h3, h4⟩ := rd_bind_inv h2
  have e1 : s1.left ≤ s.left + 12 := by
    unfold seekBack at h1
    split at h1 <;> cases h1
    unfold RFile.left
    simp only
    have : calcsize [4, 8] = 12 := rfl
    omega
  have e2 : s2.left + 12 = s1.left := by
    obtain ⟨_, enc, ⟨k1, k2⟩, k3, _⟩ := readRequired_ate (by decide) h3
    have hl := congrArg List.length k2
    have : calcsize [4, 8] = 12 := rfl
    simp only [List.length_append, List.length_drop, k3] at hl
    unfold RFile.left
    rw [k1]
    omega
  have e3 : s'.left ≤ s2.left := by
    revert h4
    rcases vs with _ | ⟨x, _ | ⟨y, _ | ⟨_, _⟩⟩⟩
    · exact Onward.fail _ _ _ _
    · exact Onward.fail _ _ _ _
    · exact (Onward.bind (.lift _) fun _ => .bind (.lift _) fun _ => .bind (.read _) fun _ => .guard fun _ =>
        .bind (.lift _) fun _ => .lift _) _ _ _
    · exact Onward.fail _ _ _ _
  omega

theorem Onward.loadMetaPart (T : Toml) : Onward (FF.loadMetaPart T) :=
  bind readRequiredChunkHeader fun _ => ite (bind (readMetadata T) fun _ => bind readRequiredChunkHeader fun _ => pure _) (pure _)

/-! ### finalfusion files -/

namespace Takes

theorem cast {k d d' : Nat} {x : α → Nat} {m : Rd α} {t : MRd α} (h : Takes k d x m t) (hd : d ≤ d') : Takes k d' x m t :=
  h.mono hd fun _ => le_refl _

/-- Steps that are saved already -/
theorem keep {k d : Nat} {x : α → Nat} {m : Rd α} {t : MRd α} (c : Nat) (h : Takes k d x m t) :
    Takes k (d + c) (fun a => x a + c) m t := by
  intro b s hb
  have h1 := h b s (by omega)
  cases hm : m s with
  | error e => rw [hm] at h1; exact h1
  | ok p =>
    obtain ⟨a, s'⟩ := p
    rw [hm] at h1
    obtain ⟨b', e1, e2⟩ := h1
    exact ⟨b', e1, by simp only; omega⟩

/-- Something without loops before -/
theorem step {k d : Nat} {m : Rd α} {f : α → Rd β} {g : α → MRd β} {y : β → Nat} (h : Onward m)
    (hf : ∀ a, Takes k d y (f a) (g a)) : Takes k d y (m >>= f) (MRd.of m >>= g) :=
  (bind (d2 := d) (of h) hf).cast (by omega)

theorem readOne {k w : Nat} (h0 : 0 < w) (hw : w < maxSize) : Takes k 0 (fun _ => k * w) (FF.readOne w) (MRd.of (FF.readOne w)) :=
  moved (x := fun _ => w) fun _ _ _ h => le_of_eq (readOne_moves h0 hw h)

theorem findChunkLoop (ids : List ChunkId) (fuel : Nat) :
    Takes 1 1 (fun _ => 0) (FF.findChunkLoop ids fuel) (Steps.findChunkLoop ids fuel) := by
  induction fuel with
  | zero => exact (fail _ _).cast (by omega)
  | succ fuel ih =>
    refine after (d := 0) 1 ?_
    have hc : Takes 1 0 (fun o => if o.isSome then 12 else 0) FF.readChunkHeader (MRd.of FF.readChunkHeader) := by
      have := moved (k := 1) (m := FF.readChunkHeader) (x := fun o => if o.isSome then 12 else 0) (by
        intro s a s' h
        cases a with
        | none => exact Onward.readChunkHeader s _ s' h
        | some p =>
          obtain ⟨c, n⟩ := p
          obtain ⟨bs, q⟩ := s
          obtain ⟨_, ⟨rest, hr⟩, rfl⟩ := readChunkHeader_some.mp h
          simp only [Option.isSome_some, if_true, RFile.left]
          have := congrArg List.length hr
          simp only [List.length_append, length_le, List.length_drop] at this
          omega)
      exact this.mono (le_refl _) fun a => by simp
    refine bind (d2 := 0) hc fun o => ?_
    rcases o with _ | ⟨c, size⟩
    · exact pure _
    · show Takes 1 12 _ _ _
      by_cases hm : c ∈ ids
      · simp only [hm, if_true]
        exact (pure _).cast (by omega)
      · simp only [hm, if_false]
        exact (bind (d2 := 1) (of (Onward.seekCur size)) fun _ => ih).cast (by omega)

theorem readItems (n : Nat) : Takes 1 1 List.length (FF.readItems n) (Steps.readItems n) := by
  induction n with
  | zero => exact (save [] List.length).cast (by simp)
  | succ n ih =>
    refine after (d := 0) 1 ?_
    refine bind (d2 := 0) (readOne (by decide) (by decide)) fun l => ?_
    refine cast (d := 1 + 1) ?_ (by omega)
    exact step (.read _) fun _ => step (.lift _) fun w => bind ih fun ws =>
      (save (w :: ws) List.length).cast (by simp)

theorem readItemsIdx (n : Nat) : Takes 1 1 List.length (FF.readItemsIdx n) (Steps.readItemsIdx n) := by
  induction n with
  | zero => exact (save [] List.length).cast (by simp)
  | succ n ih =>
    refine after (d := 0) 1 ?_
    refine bind (d2 := 0) (readOne (by decide) (by decide)) fun l => ?_
    refine cast (d := 1 + 1) ?_ (by omega)
    exact step (.read _) fun _ => step (.lift _) fun w => step (.readOne _) fun i =>
      bind ih fun ws => (save ((w, i) :: ws) List.length).cast (by simp)

theorem newVocab {k : Nat} (ws : List PyStr) (sub : Option Indexer) :
    Takes k ws.length (fun _ => 0) (Rd.lift (Vocab.new ws sub)) (Steps.newVocab ws sub) :=
  after (d := 0) _ (of (Onward.lift _))

theorem newExplicit {k : Nat} (gs : List PyStr) (lo hi : Nat) (index : Dict PyStr Int) :
    Takes k gs.length (fun _ => 0) (Rd.lift (ExplIndexer.new gs lo hi (some index))) (Steps.newExplicit gs lo hi index) :=
  after (d := 0) _ (of (Onward.lift _))

theorem readSimpleVocab : Takes 1 1 (fun _ => 0) FF.readSimpleVocab Steps.readSimpleVocab :=
  (bind (d2 := 1) (of (Onward.readOne _)) fun n => bind (d2 := 0) (readItems n) fun ws =>
    (newVocab ws none).cast (by omega)).cast (by omega)

theorem readBucketVocab : Takes 1 1 (fun _ => 0) FF.readBucketVocab Steps.readBucketVocab := by
  refine cast (bind (d2 := 1) (of (Onward.readRequired _)) fun xs => ?_) (Nat.le_of_eq (Nat.zero_add 1))
  rcases xs with _ | ⟨a, _ | ⟨b, _ | ⟨c, _ | ⟨d, _ | ⟨_, _⟩⟩⟩⟩⟩
  all_goals try exact (fail _ _).cast (by omega)
  exact bind (d2 := 0) (readItems a) fun ws => (bind (of (Onward.lift _)) fun _ => newVocab ws _).cast (by omega)

theorem readFastTextVocab : Takes 1 1 (fun _ => 0) FF.readFastTextVocab Steps.readFastTextVocab := by
  refine cast (bind (d2 := 1) (of (Onward.readRequired _)) fun xs => ?_) (Nat.le_of_eq (Nat.zero_add 1))
  rcases xs with _ | ⟨a, _ | ⟨b, _ | ⟨c, _ | ⟨d, _ | ⟨_, _⟩⟩⟩⟩⟩
  all_goals try exact (fail _ _).cast (by omega)
  exact bind (d2 := 0) (readItems a) fun ws => (bind (of (Onward.lift _)) fun _ => newVocab ws _).cast (by omega)

theorem readExplicitVocab : Takes 1 2 (fun _ => 0) FF.readExplicitVocab Steps.readExplicitVocab := by
  refine cast (bind (d2 := 2) (of (Onward.readRequired _)) fun xs => ?_) (Nat.le_of_eq (Nat.zero_add 2))
  rcases xs with _ | ⟨a, _ | ⟨b, _ | ⟨c, _ | ⟨d, _ | ⟨_, _⟩⟩⟩⟩⟩
  all_goals try exact (fail _ _).cast (by omega)
  refine bind (d2 := 1) (readItems a) fun ws => ?_
  refine cast (bind (d2 := ws.length) (readItemsIdx b) fun items => ?_) (by omega)
  refine cast (bind (d2 := ws.length) (newExplicit (items.map Prod.fst) c d _) fun ix => ?_) (by simp; omega)
  exact (newVocab ws _).cast (by omega)

theorem readVocabChunk (c : ChunkId) : Takes 1 2 (fun _ => 0) (FF.readVocabChunk c) (Steps.readVocabChunk c) := by
  cases c
  all_goals first
    | exact readSimpleVocab.cast (by omega)
    | exact readBucketVocab.cast (by omega)
    | exact readFastTextVocab.cast (by omega)
    | exact readExplicitVocab.cast (by omega)
    | exact (fail _ _).cast (by omega)

theorem loadVocabPart (c : ChunkId) : Takes 1 2 (fun _ => 0) (FF.loadVocabPart c) (Steps.loadVocabPart c) := by
  cases c
  all_goals first
    | exact readSimpleVocab.cast (by omega)
    | exact readBucketVocab.cast (by omega)
    | exact readFastTextVocab.cast (by omega)
    | exact readExplicitVocab.cast (by omega)
    | exact (fail _ _).cast (by omega)

end Takes

namespace Finishes

theorem loadFinalfusion (T : Toml) (mmap : Bool) :
    Finishes 1 2 (FF.loadFinalfusion T mmap) (Steps.loadFinalfusion T mmap) := by
  refine mono (bind (d2 := 2) (.of Onward.readHeader) fun _ => ?_) (Nat.le_of_eq (Nat.zero_add 2))
  refine mono (bind (d2 := 2) (.of (Onward.loadMetaPart T)) fun p => ?_) (Nat.le_of_eq (Nat.zero_add 2))
  refine mono (bind (d2 := 0) (Takes.loadVocabPart p.1) fun v => ?_) (le_refl _)
  simp only [← of_bind]
  exact of _

end Finishes

/-! ### Single chunks -/

theorem findChunk_start (ids : List ChunkId) (f : Option ChunkId → Rd α) (bs : Bytes) :
    (FF.findChunk ids >>= f) ⟨bs, 0⟩ =
      (FF.readHeader >>= fun _ => FF.findChunkLoop ids (bs.length + 1) >>= f) ⟨bs, 0⟩ := by
  have : FF.findChunk ids ⟨bs, 0⟩ = (FF.readHeader >>= fun _ => FF.findChunkLoop ids (bs.length + 1)) ⟨bs, 0⟩ := rfl
  rw [rd_bind, this, rd_bind, rd_bind]
  cases FF.readHeader ⟨bs, 0⟩ with
  | error e => rfl
  | ok p =>
    simp only
    rw [rd_bind]

theorem stepsFindChunk_start (ids : List ChunkId) (f : Option ChunkId → MRd α) (bs : Bytes) (b : Nat) :
    (Steps.findChunk ids >>= f) (b, ⟨bs, 0⟩) =
      (MRd.of FF.readHeader >>= fun _ => Steps.findChunkLoop ids (bs.length + 1) >>= f) (b, ⟨bs, 0⟩) := by
  have : Steps.findChunk ids (b, ⟨bs, 0⟩) =
      (MRd.of FF.readHeader >>= fun _ => Steps.findChunkLoop ids (bs.length + 1)) (b, ⟨bs, 0⟩) := rfl
  rw [mrd_bind, this, mrd_bind, mrd_bind]
  cases MRd.of FF.readHeader (b, ⟨bs, 0⟩) with
  | error e => rfl
  | ok p =>
    simp only
    rw [mrd_bind]

/-- Looking for a chunk, and then something else -/
theorem findChunk_run {d : Nat} {ids : List ChunkId} {f : Option ChunkId → Rd α} {g : Option ChunkId → MRd α}
    (h : ∀ o, Finishes 1 d (f o) (g o)) {bs : Bytes} {n : Nat} (hn : bs.length + (d + 1) ≤ n) :
    MRd.run (Steps.findChunk ids >>= g) n bs = (Rd.run (FF.findChunk ids >>= f) bs).mapError .py := by
  have he : Finishes 1 (d + 1) (FF.readHeader >>= fun _ => FF.findChunkLoop ids (bs.length + 1) >>= f)
      (MRd.of FF.readHeader >>= fun _ => Steps.findChunkLoop ids (bs.length + 1) >>= g) := by
    refine Finishes.mono (Finishes.bind (d2 := 1 + d) (.of Onward.readHeader) fun _ => ?_) (by omega)
    exact Finishes.bind (d2 := d) (Takes.findChunkLoop ids _) h
  have := he.run (bs := bs) (n := n) (by omega)
  unfold MRd.run Rd.run at this ⊢
  rw [findChunk_start, stepsFindChunk_start]
  exact this

/-! ### word2vec files -/

theorem Onward.readLine : Onward FF.readLine := by
  intro s a s' h
  cases h
  unfold RFile.left
  simp only
  omega

theorem Onward.fromFileF32 (n : Nat) : Onward (FF.fromFileF32 n) := by
  intro s a s' h
  unfold FF.fromFileF32 at h
  split at h
  · simp only at h
    split at h <;> cases h <;> unfold RFile.left <;> simp only <;> omega
  · split at h <;> cases h

theorem Takes.readDelim (d : UInt8) : Takes 3 1 (fun _ => 3) (FF.readDelim d) (Steps.readDelim d) := by
  intro b s hb
  unfold Steps.readDelim MRd.request MRd.of
  cases ht : takeUntil d (s.data.drop s.pos) with
  | none =>
    have hs : FF.readDelim d s = .error .eofError := by unfold FF.readDelim; rw [ht]
    rw [hs]
    have hl : ((none : Option Bytes).getD (s.data.drop s.pos)).length + 1 ≤ b := by
      rw [Option.getD_none, List.length_drop]
      unfold RFile.left at hb
      omega
    simp only [ht]
    rw [if_pos hl]
  | some w =>
    have hs : FF.readDelim d s = .ok (w, ⟨s.data, s.pos + w.length + 1⟩) := by unfold FF.readDelim; rw [ht]
    have h1 := congrArg List.length (readDelim_ate hs).2.2
    simp only [List.length_append, List.length_drop, List.length_cons, List.length_nil] at h1
    rw [hs]
    unfold RFile.left at hb ⊢
    have hl : ((some w).getD (s.data.drop s.pos)).length + 1 ≤ b := by
      rw [Option.getD_some]
      omega
    simp only [ht]
    rw [if_pos hl]
    refine ⟨_, rfl, ?_⟩
    simp only [Option.getD_some] at hl ⊢
    omega

section
variable {K : Type} [NumOps K] [Codec K]

omit [NumOps K] in
theorem Takes.w2vRows (lossy : Bool) (cols n : Nat) :
    Takes 3 2 List.length (FF.w2vRows lossy cols n : Rd (List (PyStr × List K))) (Steps.w2vRows lossy cols n) := by
  induction n with
  | zero => exact (save [] List.length).cast (by simp)
  | succ n ih =>
    refine after (d := 1) 1 ?_
    refine bind (d2 := 0) (readDelim 32) fun bs => ?_
    exact step (.lift _) fun w => step (.fromFileF32 _) fun xs => step (.lift _) fun r => bind (d2 := 1) ih fun rs =>
      (save ((strip w, r) :: rs) List.length).cast (by simp)

theorem Finishes.step {k d : Nat} {m : Rd α} {f : α → Rd β} {g : α → MRd β} (h : Onward m)
    (hf : ∀ a, Finishes k d (f a) (g a)) : Finishes k d (m >>= f) (MRd.of m >>= g) :=
  (bind (d2 := d) (.of h) hf).mono (by omega)

theorem Finishes.loadWord2vec (lossy : Bool) :
    Finishes 3 2 (FF.loadWord2vec lossy : Rd (Embeddings K)) (Steps.loadWord2vec lossy) :=
  step .readLine fun _ => step (.lift _) fun _ => step (.lift _) fun _ => step (.lift _) fun shape =>
    bind (d2 := 0) (.w2vRows _ _ _) fun rows => mono (bind (d2 := 0) (.newVocab _ _) fun _ => of _) (by simp)

/-! ### fastText files -/

theorem Onward.readSigned (ws : List Nat) : Onward (FF.readSigned ws) := bind (readRequired _) fun _ => pure _

theorem Onward.readFtHeader : Onward FF.readFtHeader := by
  refine bind (readSigned _) fun xs => ?_
  rcases xs with _ | ⟨a, _ | ⟨b, _ | ⟨_, _⟩⟩⟩
  · exact fail _
  · exact fail _
  · exact guard fun _ => ite (fail _) (pure _)
  · exact fail _

theorem Onward.readFtCfg : Onward FF.readFtCfg := by
  refine bind (readRequired _) fun xs => ?_
  split
  · exact bind (lift _) fun _ => bind (lift _) fun _ => pure _
  · exact fail _

theorem Takes.guard {k d : Nat} {c : Prop} [Decidable c] {e : PyErr} {f : PUnit → Rd α} {g : PUnit → MRd α} {x : α → Nat}
    (h : Takes k d x (f ⟨⟩) (g ⟨⟩)) :
    Takes k d x (if c then Rd.fail e >>= f else f ⟨⟩) (if c then MRd.of (Rd.fail e) >>= g else g ⟨⟩) := by
  by_cases hc : c
  · rw [if_pos hc, if_pos hc]
    intro b s _
    rfl
  · rw [if_neg hc, if_neg hc]
    exact h

theorem Takes.readFtWord (lossy : Bool) : Takes 3 1 (fun _ => 3) (FF.readFtWord lossy) (Steps.readFtWord lossy) := by
  refine bind (d2 := 0) (readDelim 0) fun w => step (.readOne _) fun _ => step (.readOne _) fun _ => guard ?_
  exact keep 3 (of (Onward.lift _))

theorem Takes.readFtWords (lossy : Bool) (n : Nat) :
    Takes 3 2 List.length (FF.readFtWords lossy n) (Steps.readFtWords lossy n) := by
  induction n with
  | zero => exact (save [] List.length).cast (by simp)
  | succ n ih =>
    refine after (d := 1) 1 ?_
    refine bind (d2 := 0) (readFtWord lossy) fun w => ?_
    exact bind (d2 := 1) ih fun ws => (save (w :: ws) List.length).cast (by simp)

theorem Takes.readFtVocab (n lo hi : Int) (lossy : Bool) :
    Takes 3 2 (fun _ => 0) (FF.readFtVocab n lo hi lossy) (Steps.readFtVocab n lo hi lossy) := by
  refine step (.readSigned _) fun xs => ?_
  rcases xs with _ | ⟨a, _ | ⟨b, _ | ⟨c, _ | ⟨_, _⟩⟩⟩⟩
  all_goals try exact (fail _ _).cast (by omega)
  exact guard <| step (.readOne _) fun _ => step (.readOne _) fun _ => guard <|
    bind (d2 := 0) (readFtWords lossy _) fun ws => cast (step (.lift _) fun ix => bind (d2 := 0) (newVocab ws _) fun v => pure _)
      (by omega)

/-- The steps for the averages of all words -/
def ftRounds (ix : FtIndexer) (ws : List PyStr) : Nat :=
  (ws.map fun w => 1 + Steps.ngramRounds ix.minN ix.maxN (bracketed true w)).sum

omit [Codec K] in
theorem precomputeWords_lift (v : Vocab) (ix : Indexer) (cols i : Nat) (w : PyStr) (ws : List PyStr) (rows : List (List K)) :
    (Rd.lift (FF.precomputeWords v ix cols i (w :: ws) rows) : Rd (List (List K))) =
      Rd.lift (v.subwordIndices ix w) >>= fun sub => Rd.lift (npTake rows ((i : Int) :: sub)) >>= fun sel =>
        Rd.lift (npSet rows i (vdiv (addReduce cols sel) (NumOps.ofNat sel.length))) >>= fun rows =>
          Rd.lift (FF.precomputeWords v ix cols (i + 1) ws rows) := by
  rw [FF.precomputeWords]
  funext s
  rw [rd_bind]
  cases v.subwordIndices ix w with
  | error e => rfl
  | ok sub =>
    show _ = (Rd.lift (npTake rows ((i : Int) :: sub)) >>= _) s
    rw [rd_bind]
    cases hsel : npTake rows ((i : Int) :: sub) with
    | error e =>
      show Rd.lift (npTake rows ((i : Int) :: sub) >>= _) s = _
      rw [hsel]
      rfl
    | ok sel =>
      show Rd.lift (npTake rows ((i : Int) :: sub) >>= _) s = (Rd.lift (npSet rows i _) >>= _) s
      rw [hsel, rd_bind]
      show Rd.lift (npSet rows i _ >>= _) s = _
      cases npSet rows i (vdiv (addReduce cols sel) (NumOps.ofNat sel.length)) with
      | error e => rfl
      | ok r => rfl

omit [Codec K] in
theorem Takes.precomputeWords (v : Vocab) (ix : FtIndexer) (cols i : Nat) (ws : List PyStr) (rows : List (List K)) :
    Takes 0 (ftRounds ix ws) (fun _ => 0) (Rd.lift (FF.precomputeWords v (.ft ix) cols i ws rows))
      (Steps.precomputeWords v ix cols i ws rows) := by
  induction ws generalizing i rows with
  | nil => exact pure _
  | cons w ws ih =>
    rw [precomputeWords_lift]
    exact after (d := ftRounds ix ws) _ <| step (.lift _) fun sub => step (.lift _) fun sel => step (.lift _) fun r => ih _ _

/-- Without steps for what is left of the file, anything will do. -/
theorem Takes.free (m : Rd α) : Takes 0 0 (fun _ => 0) m (MRd.of m) := by
  intro b s _
  unfold MRd.of
  cases m s with
  | error e => rfl
  | ok p => exact ⟨b, rfl, by simp⟩

theorem Takes.go {d : Nat} {m : Rd α} {f : α → Rd β} {g : α → MRd β} {y : β → Nat}
    (hf : ∀ a, Takes 0 d y (f a) (g a)) : Takes 0 d y (m >>= f) (MRd.of m >>= g) :=
  (bind (d2 := d) (free m) hf).cast (by omega)

theorem Takes.readFtStorage (v : Vocab) (ix : FtIndexer) :
    Takes 0 (ftRounds ix v.words) (fun _ => 0) (FF.readFtStorage v ix : Rd (Mat K)) (Steps.readFtStorage v ix) := by
  refine go fun q => guard <| go fun xs => ?_
  rcases xs with _ | ⟨a, _ | ⟨b, _ | ⟨_, _⟩⟩⟩
  all_goals try exact (fail _ _).cast (by omega)
  exact go fun ys => go fun m => bind (d2 := 0) (precomputeWords v ix m.cols 0 v.words m.rows) fun rs => pure _

theorem Takes.ftBegin (lossy : Bool) :
    Takes 3 2 (fun _ => 0)
      (FF.readFtHeader >>= fun _ => FF.readFtCfg >>= fun cfg => FF.readFtVocab cfg.buckets cfg.minN cfg.maxN lossy >>= fun p =>
        Pure.pure (cfg, p))
      (MRd.of FF.readFtHeader >>= fun _ => MRd.of FF.readFtCfg >>= fun cfg =>
        Steps.readFtVocab cfg.buckets cfg.minN cfg.maxN lossy >>= fun p => Pure.pure (cfg, p)) :=
  step .readFtHeader fun _ => step .readFtCfg fun _ => bind (d2 := 0) (readFtVocab _ _ _ lossy) fun _ => pure _

end

end FF
