import Verif.Lemmas.Memory
/-!
# What successful readers request
-/

namespace FF

variable {α β : Type}

/-- With `c` bytes or more, `l` succeeds and uses up `c` of them. -/
def Spends (l : MRd α) (s : RFile) (a : α) (s' : RFile) (c : Nat) : Prop :=
  ∀ b, c ≤ b → l (b, s) = .ok (a, (b - c, s'))

/-- Whenever `m` succeeds, it has moved forward, and `l` has requested at most the bytes it has passed and `k` more;
except that some read came to the end of the file, and the result satisfies `P`. -/
def Costs (k : Nat) (P : α → Prop) (m : Rd α) (l : MRd α) : Prop := ∀ s a s', m s = .ok (a, s') →
  s'.data = s.data ∧ s.pos ≤ s'.pos ∧ ((s.data.length ≤ s'.pos ∧ P a) ∨
    ∃ c, min s.pos s.data.length + c ≤ min s'.pos s.data.length + k ∧ Spends l s a s' c)

/-- No read of `m` comes to the end of the file. -/
abbrev Full (k : Nat) (m : Rd α) (l : MRd α) : Prop := Costs k (fun _ => False) m l

theorem Spends.of {m : Rd α} {s s' : RFile} {a : α} (h : m s = .ok (a, s')) : Spends (MRd.of m) s a s' 0 := by
  intro b _
  show (match m s with
    | .ok (a, f) => Except.ok (a, (b, f))
    | .error e => .error (Stop.py e)) = _
  rw [h]
  rfl

theorem Spends.request {n : Nat} {m : Rd α} {s s' : RFile} {a : α} (h : m s = .ok (a, s')) :
    Spends (MRd.request n m) s a s' n := by
  intro b hb
  unfold MRd.request
  rw [if_pos hb]
  exact Spends.of h _ (Nat.zero_le _)

theorem Spends.bind {l : MRd α} {g : α → MRd β} {s s1 s2 : RFile} {a : α} {b : β} {c d : Nat} (h : Spends l s a s1 c)
    (hg : Spends (g a) s1 b s2 d) : Spends (l >>= g) s b s2 (c + d) := by
  intro n hn
  rw [mrd_bind, h n (by omega)]
  show g a (n - c, s1) = _
  rw [hg (n - c) (by omega), Nat.sub_sub]

namespace Costs

theorem weaken {k k' : Nat} {P Q : α → Prop} {m : Rd α} {l : MRd α} (h : Costs k P m l) (hk : k ≤ k')
    (hP : ∀ a, P a → Q a) : Costs k' Q m l := by
  intro s a s' hm
  obtain ⟨h1, h2, h3⟩ := h s a s' hm
  refine ⟨h1, h2, h3.imp (fun h => ⟨h.1, hP a h.2⟩) ?_⟩
  rintro ⟨c, hc, hs⟩
  exact ⟨c, by omega, hs⟩

theorem of {m : Rd α} (h : ∀ s a s', m s = .ok (a, s') → s'.data = s.data ∧ s.pos ≤ s'.pos) :
    Full 0 m (MRd.of m) := by
  intro s a s' hm
  obtain ⟨h1, h2⟩ := h s a s' hm
  exact ⟨h1, h2, .inr ⟨0, by omega, Spends.of hm⟩⟩

theorem lift (r : Res α) : Full 0 (Rd.lift r) (MRd.of (Rd.lift r)) := by
  refine of fun s a s' h => ?_
  obtain ⟨_, rfl⟩ := rd_lift_inv h
  exact ⟨rfl, le_refl _⟩

theorem fail (e : PyErr) : Full 0 (Rd.fail e : Rd α) (MRd.of (Rd.fail e)) := of fun _ _ _ h => by cases h

theorem fail_bind {e : PyErr} {P : β → Prop} (f : α → Rd β) (g : α → MRd β) :
    Costs 0 P (Rd.fail e >>= f) (MRd.of (Rd.fail e) >>= g) := by
  intro s a s' h
  obtain ⟨_, _, h1, _⟩ := rd_bind_inv h
  cases h1

theorem tell : Full 0 FF.tell (MRd.of FF.tell) := by
  refine of fun s a s' h => ?_
  cases h
  exact ⟨rfl, le_refl _⟩

theorem seekCur (n : Nat) : Full 0 (FF.seekCur n) (MRd.of (FF.seekCur n)) := by
  refine of fun s a s' h => ?_
  obtain ⟨_, _, rfl⟩ := seekCur_inv h
  exact ⟨rfl, Nat.le_add_right _ _⟩

theorem pure (a : α) : Full 0 (Pure.pure a) (Pure.pure a) := by
  intro s b s' h
  cases h
  exact ⟨rfl, le_refl _, .inr ⟨0, by omega, fun _ _ => rfl⟩⟩

theorem bind {k1 k2 : Nat} {P : α → Prop} {Q : β → Prop} {m : Rd α} {l : MRd α} {f : α → Rd β} {g : α → MRd β}
    (h : Costs k1 P m l) (hf : ∀ a, Costs k2 Q (f a) (g a))
    (hP : ∀ a, P a → ∀ s b s', s.data.length ≤ s.pos → f a s = .ok (b, s') → Q b) :
    Costs (k1 + k2) Q (m >>= f) (l >>= g) := by
  intro s b s2 hm
  obtain ⟨a, s1, h1, h2⟩ := rd_bind_inv hm
  obtain ⟨d1, p1, c1⟩ := h s a s1 h1
  obtain ⟨d2, p2, c2⟩ := hf a s1 b s2 h2
  refine ⟨d2.trans d1, le_trans p1 p2, ?_⟩
  rcases c1 with ⟨e1, ha⟩ | ⟨c, hc, hs⟩
  · exact .inl ⟨le_trans e1 p2, hP a ha s1 b s2 (by rw [d1]; exact e1) h2⟩
  · rcases c2 with ⟨e2, hb⟩ | ⟨d, hd, hs2⟩
    · exact .inl ⟨by rw [← d1]; exact e2, hb⟩
    · rw [d1] at hd
      exact .inr ⟨c + d, by omega, hs.bind hs2⟩

theorem full_bind {k1 k2 : Nat} {Q : β → Prop} {m : Rd α} {l : MRd α} {f : α → Rd β} {g : α → MRd β}
    (h : Full k1 m l) (hf : ∀ a, Costs k2 Q (f a) (g a)) : Costs (k1 + k2) Q (m >>= f) (l >>= g) :=
  bind h hf fun _ h => h.elim

/-- Nothing is requested first. -/
theorem free_bind {k : Nat} {Q : β → Prop} {m : Rd α} {l : MRd α} {f : α → Rd β} {g : α → MRd β}
    (h : Full 0 m l) (hf : ∀ a, Costs k Q (f a) (g a)) : Costs k Q (m >>= f) (l >>= g) :=
  weaken (full_bind h hf) (by omega) fun _ h => h

theorem any_bind {k : Nat} {P : α → Prop} {m : Rd α} {l : MRd α} {f : α → Rd β} {g : α → MRd β}
    (h : Costs 0 P m l) (hf : ∀ a, Costs k (fun _ => True) (f a) (g a)) :
    Costs k (fun _ => True) (m >>= f) (l >>= g) :=
  weaken (bind h hf fun _ _ _ _ _ _ _ => trivial) (by omega) fun _ h => h

theorem any {k : Nat} {P : α → Prop} {m : Rd α} {l : MRd α} (h : Costs k P m l) : Costs k (fun _ => True) m l :=
  h.weaken (le_refl _) fun _ _ => trivial

theorem ite {k : Nat} {P : α → Prop} {c : Prop} [Decidable c] {m1 m2 : Rd α} {l1 l2 : MRd α} (h1 : Costs k P m1 l1)
    (h2 : Costs k P m2 l2) : Costs k P (if c then m1 else m2) (if c then l1 else l2) := by
  split <;> assumption

theorem guard {k : Nat} {P : α → Prop} {c : Prop} [Decidable c] {e : PyErr} {f : PUnit → Rd α} {g : PUnit → MRd α}
    (h : ∀ u, Costs k P (f u) (g u)) : Costs k P (if c then Rd.fail e >>= f else f PUnit.unit)
      (if c then MRd.of (Rd.fail e) >>= g else g PUnit.unit) := by
  split
  · exact free_bind (fail e) h
  · exact h _

theorem read_full {n : Nat} {s s' : RFile} {buf : Bytes} (h : FF.read n s = .ok (buf, s')) (hl : buf.length = n) :
    s'.data = s.data ∧ s'.pos = s.pos + n ∧ (n = 0 ∨ s.pos + n ≤ s.data.length) ∧ Spends (Mem.read n) s buf s' n := by
  have h0 := h
  unfold FF.read at h
  split at h
  · rename_i hn
    cases h
    refine ⟨rfl, by simp only [hl], ?_, ?_⟩
    · rw [List.length_take, List.length_drop] at hl
      omega
    · unfold Mem.read
      rw [if_pos hn]
      exact Spends.request h0
  · cases h

theorem read (n : Nat) : Costs 0 (fun _ => True) (FF.read n) (Mem.read n) := by
  intro s buf s' h
  by_cases hl : buf.length = n
  · obtain ⟨h1, h2, h3, h4⟩ := read_full h hl
    exact ⟨h1, by omega, .inr ⟨n, by omega, h4⟩⟩
  · unfold FF.read at h
    split at h
    · cases h
      simp only
      rw [List.length_take, List.length_drop] at hl ⊢
      exact ⟨trivial, by omega, .inl ⟨by omega, trivial⟩⟩
    · cases h

/-- `_read_binary`: an empty read costs what was asked for. -/
theorem readBinary (ws : List Nat) (s s' : RFile) (o : Option (List Nat)) (h : FF.readBinary ws s = .ok (o, s')) :
    s'.data = s.data ∧ s.pos ≤ s'.pos ∧ ∃ c, min s.pos s.data.length + c ≤
      min s'.pos s.data.length + (if o.isSome then 0 else calcsize ws) ∧ Spends (Mem.readBinary ws) s o s' c := by
  obtain ⟨buf, s1, h1, h2⟩ := rd_bind_inv h
  have hsp : ∀ c, Spends (Mem.read (calcsize ws)) s buf s1 c → s1 = s' →
      (∀ b, (do
        if buf.length = 0 then return none
        if buf.length ≠ calcsize ws then MRd.of (Rd.fail .formatError)
        return some (unpack ws buf) : MRd (Option (List Nat))) (b, s1) = .ok (o, (b, s'))) →
      Spends (Mem.readBinary ws) s o s' c := by
    intro c hc _ hr
    have := Spends.bind (g := fun buf => (do
        if buf.length = 0 then return none
        if buf.length ≠ calcsize ws then MRd.of (Rd.fail .formatError)
        return some (unpack ws buf) : MRd (Option (List Nat)))) (d := 0) hc (fun b _ => hr b)
    exact this
  by_cases h0 : buf.length = 0
  · rw [if_pos h0] at h2
    cases h2
    have h1' := h1
    unfold FF.read at h1
    split at h1
    · rename_i hn
      have hs : s' = ⟨s.data, s.pos + buf.length⟩ := by cases h1; rfl
      subst hs
      refine ⟨rfl, by simp only; omega, calcsize ws, by simp [h0], ?_⟩
      refine hsp _ ?_ rfl fun b => by rw [if_pos h0]; rfl
      unfold Mem.read
      rw [if_pos hn]
      exact Spends.request h1'
    · cases h1
  · rw [if_neg h0] at h2
    by_cases hl : buf.length = calcsize ws
    · rw [if_neg (by simp [hl])] at h2
      cases h2
      obtain ⟨k1, k2, k3, k4⟩ := read_full h1 hl
      refine ⟨k1, by omega, calcsize ws, by simp; omega, hsp _ k4 rfl fun b => ?_⟩
      rw [if_neg h0, if_neg (by simp [hl])]
      rfl
    · rw [if_pos hl] at h2
      obtain ⟨_, _, h3, _⟩ := rd_bind_inv h2
      cases h3

theorem readRequired (ws : List Nat) : Full 0 (FF.readRequired ws) (Mem.readRequired ws) := by
  intro s vs s' h
  obtain ⟨o, s1, h1, h2⟩ := rd_bind_inv h
  obtain ⟨d, p, c, hc, hs⟩ := readBinary ws s s1 o h1
  cases o with
  | none => cases h2
  | some v =>
    cases h2
    exact ⟨d, p, .inr ⟨c, by simpa using hc, Spends.bind (d := 0) hs fun _ _ => rfl⟩⟩

theorem readOne (w : Nat) : Full 0 (FF.readOne w) (Mem.readOne w) := by
  refine free_bind (readRequired _) fun vs => ?_
  rcases vs with _ | ⟨v, _ | ⟨_, _⟩⟩
  · exact fail _
  · exact pure _
  · exact fail _

theorem readHeader : Full 0 FF.readHeader Mem.readHeader := by
  refine (bind (P := fun buf => buf ≠ magic) (k1 := 0) (k2 := 0) ?_ (fun _ => guard fun _ => free_bind (readOne _) fun _ =>
    guard fun _ => free_bind (readOne _) fun _ => readRequired _) ?_)
  · intro s buf s' h
    obtain ⟨h1, h2, h3⟩ := read 4 s buf s' h
    refine ⟨h1, h2, ?_⟩
    by_cases hl : buf.length = 4
    · obtain ⟨k1, k2, k3, k4⟩ := read_full h hl
      exact .inr ⟨4, by omega, k4⟩
    · rcases h3 with ⟨h3, _⟩ | h3
      · exact .inl ⟨h3, fun hb => hl (by rw [hb]; rfl)⟩
      · exact .inr h3
  · intro buf hb s b s' _ h
    rw [if_pos hb] at h
    obtain ⟨_, _, h3, _⟩ := rd_bind_inv h
    cases h3

/-- Reading past the end costs the twelve bytes of a chunk header. -/
theorem readChunkHeader (s s' : RFile) (o : Option (ChunkId × Nat)) (h : FF.readChunkHeader s = .ok (o, s')) :
    s'.data = s.data ∧ s.pos ≤ s'.pos ∧ ∃ c, min s.pos s.data.length + c ≤
      min s'.pos s.data.length + (if o.isSome then 0 else 12) ∧ Spends Mem.readChunkHeader s o s' c := by
  obtain ⟨v, s1, h1, h2⟩ := rd_bind_inv h
  obtain ⟨d, p, c, hc, hs⟩ := readBinary [4, 8] s s1 v h1
  rcases v with _ | ⟨_ | ⟨i, _ | ⟨n, _ | ⟨_, _⟩⟩⟩⟩
  · cases h2
    exact ⟨d, p, c, by simpa [calcsize] using hc, Spends.bind (d := 0) hs fun _ _ => rfl⟩
  · cases h2
  · cases h2
  · obtain ⟨c', s2, h3, h4⟩ := rd_bind_inv h2
    have h3' := h3
    obtain ⟨_, rfl⟩ := rd_lift_inv h3
    cases h4
    refine ⟨d, p, c, by simpa using hc, Spends.bind (d := 0) hs ?_⟩
    exact Spends.bind (c := 0) (d := 0) (Spends.of h3') fun _ _ => rfl
  · cases h2

theorem readRequiredChunkHeader : Full 0 FF.readRequiredChunkHeader Mem.readRequiredChunkHeader := by
  intro s vs s' h
  obtain ⟨o, s1, h1, h2⟩ := rd_bind_inv h
  obtain ⟨d, p, c, hc, hs⟩ := readChunkHeader s s1 o h1
  cases o with
  | none => cases h2
  | some v =>
    cases h2
    exact ⟨d, p, .inr ⟨c, by simpa using hc, Spends.bind (d := 0) hs fun _ _ => rfl⟩⟩

theorem readItems (n : Nat) : Costs 0 (fun _ => True) (FF.readItems n) (Mem.readItems n) := by
  induction n with
  | zero => exact any (pure _)
  | succ n ih =>
    exact free_bind (readOne _) fun _ => any_bind (read _) fun _ => free_bind (lift _) fun _ => any_bind ih fun _ =>
      any (pure _)

theorem readItemsIdx (n : Nat) : Costs 0 (fun _ => True) (FF.readItemsIdx n) (Mem.readItemsIdx n) := by
  induction n with
  | zero => exact any (pure _)
  | succ n ih =>
    exact free_bind (readOne _) fun _ => any_bind (read _) fun _ => free_bind (lift _) fun _ =>
      free_bind (readOne _) fun _ => any_bind ih fun _ => any (pure _)

theorem loadVocabPart (c : ChunkId) : Costs 0 (fun _ => True) (FF.loadVocabPart c) (Mem.loadVocabPart c) := by
  cases c with
  | simpleVocab => exact free_bind (readOne _) fun _ => any_bind (readItems _) fun _ => any (lift _)
  | bucketVocab =>
    refine free_bind (readRequired _) fun xs => ?_
    split
    · exact any_bind (readItems _) fun _ => free_bind (lift _) fun _ => any (lift _)
    · rename_i hx
      split
      · exact (hx _ _ _ _ rfl).elim
      · exact any (fail _)
  | fastTextVocab =>
    refine free_bind (readRequired _) fun xs => ?_
    split
    · exact any_bind (readItems _) fun _ => free_bind (lift _) fun _ => any (lift _)
    · rename_i hx
      split
      · exact (hx _ _ _ _ rfl).elim
      · exact any (fail _)
  | explicitVocab =>
    refine free_bind (readRequired _) fun xs => ?_
    split
    · exact any_bind (readItems _) fun _ => any_bind (readItemsIdx _) fun _ => free_bind (lift _) fun _ => any (lift _)
    · rename_i hx
      split
      · exact (hx _ _ _ _ rfl).elim
      · exact any (fail _)
  | _ => exact any (fail _)

/-- The twelve bytes of the chunk header are read twice. -/
theorem readMetadata (T : Toml) : ∀ s m s', FF.readMetadata T s = .ok (m, s') → s'.data = s.data ∧ s.pos ≤ s'.pos ∧
    ∃ c, min s.pos s.data.length + c ≤ min s'.pos s.data.length + 12 ∧ Spends (Mem.readMetadata T) s m s' c := by
  intro s m s' h
  obtain ⟨u, s1, h1, h2⟩ := rd_bind_inv h
  have h1' := h1
  unfold seekBack at h1
  split at h1
  · rename_i hp
    have hs : s1 = ⟨s.data, s.pos - calcsize [4, 8]⟩ := by cases h1; rfl
    subst hs
    have h12 : calcsize [4, 8] = 12 := rfl
    obtain ⟨xs, s2, h3, h4⟩ := rd_bind_inv h2
    obtain ⟨d2, p2, c2⟩ := readRequired [4, 8] _ _ _ h3
    rcases c2 with ⟨_, hf⟩ | ⟨c, hc, hsp⟩
    · exact hf.elim
    split at h4
    · rename_i i n
      have hpos : s2.pos = s.pos := by
        obtain ⟨o, t, k1, k2⟩ := rd_bind_inv h3
        cases o with
        | none => cases k2
        | some v =>
          cases k2
          obtain ⟨buf, t, k1, k2⟩ := rd_bind_inv k1
          by_cases h0 : buf.length = 0
          · rw [if_pos h0] at k2; cases k2
          · rw [if_neg h0] at k2
            by_cases hl : buf.length = calcsize [4, 8]
            · rw [if_neg (by simp [hl])] at k2
              cases k2
              obtain ⟨_, e, _⟩ := read_full k1 hl
              rw [e]
              simp only
              omega
            · rw [if_pos hl] at k2
              obtain ⟨_, _, k3, _⟩ := rd_bind_inv k2
              cases k3
      have key : Full 0 (do
          let c ← Rd.lift (ChunkId.fromNat i)
          Rd.lift (pyAssert (c = .metadata))
          let buf ← FF.read n
          if buf.length ≠ n then Rd.fail .formatError
          let s ← Rd.lift (decode buf)
          Rd.lift (T.loads s) : Rd Meta) (do
          let c ← MRd.of (Rd.lift (ChunkId.fromNat i))
          MRd.of (Rd.lift (pyAssert (c = .metadata)))
          let buf ← Mem.read n
          if buf.length ≠ n then MRd.of (Rd.fail .formatError)
          let s ← MRd.of (Rd.lift (decode buf))
          MRd.of (Rd.lift (T.loads s)) : MRd Meta) := by
        refine free_bind (lift _) fun _ => free_bind (lift _) fun _ => ?_
        refine (bind (P := fun buf => buf.length ≠ n) (k1 := 0) (k2 := 0) ?_ (fun _ => guard fun _ =>
          free_bind (lift _) fun _ => lift _) ?_)
        · intro s buf s' h
          obtain ⟨h1, h2, h3⟩ := read n s buf s' h
          refine ⟨h1, h2, ?_⟩
          by_cases hl : buf.length = n
          · obtain ⟨k1, k2, k3, k4⟩ := read_full h hl
            exact .inr ⟨n, by omega, k4⟩
          · rcases h3 with ⟨h3, _⟩ | h3
            · exact .inl ⟨h3, hl⟩
            · exact .inr h3
        · intro buf hb s b s' _ h
          rw [if_pos hb] at h
          obtain ⟨_, _, h3, _⟩ := rd_bind_inv h
          cases h3
      obtain ⟨d3, p3, c3⟩ := key _ _ _ h4
      rcases c3 with ⟨_, hf⟩ | ⟨c', hc', hsp'⟩
      · exact hf.elim
      simp only at d2 hc
      rw [hpos] at hc hc' p3
      rw [d2] at hc'
      refine ⟨d3.trans d2, p3, c + c', by omega, ?_⟩
      intro b hb
      unfold Mem.readMetadata
      rw [mrd_bind, Spends.of h1' b (by omega)]
      show (Mem.readRequired [4, 8] >>= _) (b - 0, _) = _
      rw [mrd_bind, hsp (b - 0) (by omega), Nat.sub_zero, ← Nat.sub_sub]
      exact hsp' (b - c) (by omega)
    · cases h4
  · cases h1

theorem loadMetaPart (T : Toml) : Full 12 (FF.loadMetaPart T) (Mem.loadMetaPart T) := by
  refine free_bind readRequiredChunkHeader fun p => ?_
  refine ite ?_ (weaken (pure _) (by omega) fun _ h => h)
  refine full_bind (k1 := 12) (k2 := 0) ?_ fun _ => free_bind readRequiredChunkHeader fun _ => pure _
  intro s m s' h
  obtain ⟨h1, h2, h3⟩ := readMetadata T s m s' h
  exact ⟨h1, h2, .inr h3⟩

theorem readArrayHeader : Full 0 FF.readArrayHeader Mem.readArrayHeader := by
  refine free_bind (readRequired _) fun xs => ?_
  split
  · exact free_bind (readOne _) fun _ => free_bind (lift _) fun _ => guard fun _ => free_bind tell fun _ =>
      free_bind (seekCur _) fun _ => pure _
  · rename_i hx
    split
    · exact (hx _ _ rfl).elim
    · exact fail _

/-- `np.fromfile` returns fewer items only at the end of the file. -/
theorem fromFileF32 (n : Nat) : Costs 0 (fun xs => xs.length < n) (FF.fromFileF32 n) (Mem.fromFileF32 n) := by
  intro s xs s' h
  have h0 := h
  unfold FF.fromFileF32 at h
  split at h
  · rename_i hn
    simp only at h
    have hsp : Spends (Mem.fromFileF32 n) s xs s' (4 * n) := by
      unfold Mem.fromFileF32
      rw [if_pos hn]
      exact Spends.request h0
    split at h
    · rename_i hav
      cases h
      rw [List.length_drop] at hav
      exact ⟨rfl, by simp only; omega, .inr ⟨4 * n, by simp only; omega, hsp⟩⟩
    · rename_i hav
      cases h
      refine ⟨rfl, by simp only; omega, .inl ⟨by simp only; omega, ?_⟩⟩
      show (f32sOf _).length < n
      rw [length_f32sOf]
      omega
  · split at h <;> cases h

theorem fromFileU8 (n : Nat) : Costs 0 (fun xs => xs.length < n) (FF.fromFileU8 n) (Mem.fromFileU8 n) := by
  intro s xs s' h
  have h0 := h
  unfold FF.fromFileU8 at h
  split at h
  · rename_i hn
    have hsp : Spends (Mem.fromFileU8 n) s xs s' n := by
      unfold Mem.fromFileU8
      rw [if_pos hn]
      exact Spends.request h0
    cases h
    by_cases hl : ((s.data.drop s.pos).take n).length = n
    · refine ⟨rfl, by simp only; omega, .inr ⟨n, ?_, hsp⟩⟩
      simp only [hl]
      rw [List.length_take, List.length_drop] at hl
      omega
    · refine ⟨rfl, by simp only; omega, .inl ⟨?_, by show List.length _ < n; rw [List.length_take] at hl ⊢; omega⟩⟩
      simp only
      rw [List.length_take, List.length_drop] at hl ⊢
      omega
  · cases h

theorem readNdArray : Full 0 FF.readNdArray Mem.readNdArray := by
  refine free_bind readArrayHeader fun p => ?_
  refine weaken (bind (k1 := 0) (k2 := 0) (fromFileF32 _) (fun _ => lift _) ?_) (by omega) fun _ h => h
  intro xs hx s m s' _ h
  obtain ⟨h, _⟩ := rd_lift_inv h
  exact absurd (reshape2_inv h).1 (Nat.ne_of_lt hx)

theorem memmapF32 (a b c : Nat) : Full 0 (FF.memmapF32 a b c) (MRd.of (FF.memmapF32 a b c)) := by
  refine of fun s m s' h => ?_
  unfold FF.memmapF32 at h
  simp only at h
  split at h
  · cases h; exact ⟨rfl, le_refl _⟩
  · cases h

theorem memmapU8 (a b c : Nat) : Full 0 (FF.memmapU8 a b c) (MRd.of (FF.memmapU8 a b c)) := by
  refine of fun s m s' h => ?_
  unfold FF.memmapU8 at h
  simp only at h
  split at h
  · cases h; exact ⟨rfl, le_refl _⟩
  · cases h

theorem loadNd (mmap : Bool) : Full 0 (FF.loadNd mmap) (Mem.loadNd mmap) := by
  cases mmap
  · exact free_bind readNdArray fun _ => pure _
  · exact free_bind (free_bind readArrayHeader fun _ => free_bind tell fun _ => free_bind (seekCur _) fun _ =>
      memmapF32 _ _ _) fun _ => pure _

theorem readProjection (a b : Nat) : Full 0 (FF.readProjection a b) (Mem.readProjection a b) := by
  refine ite ?_ (pure _)
  refine weaken (bind (k1 := 0) (k2 := 0) (fromFileF32 _) (fun _ => free_bind (lift _) fun _ => pure _) ?_)
    (by omega) fun _ h => h
  intro xs hx s m s' _ h
  obtain ⟨m', s1, h1, _⟩ := rd_bind_inv h
  obtain ⟨h1, _⟩ := rd_lift_inv h1
  exact absurd ((reshape2_inv h1).1.trans (Nat.pow_two b).symm) (Nat.ne_of_lt hx)

theorem readQNorms (a n : Nat) : Costs 0 (fun _ => 0 < n) (FF.readQNorms a n) (Mem.readQNorms a n) := by
  refine ite ?_ (weaken (pure _) (le_refl _) fun _ h => h.elim)
  refine weaken (bind (k1 := 0) (k2 := 0) (fromFileF32 n) (fun _ => weaken (pure _) (le_refl _) fun _ h => h.elim) ?_)
    (by omega) fun _ h => h
  intro xs hx _ _ _ _ _
  exact Nat.zero_lt_of_lt hx

theorem readQuantizedTail (a b c d e f : Nat) (hc : c ≠ 0) : Costs 0 (fun r => 0 < r.2.1 * r.2.2.1)
    (FF.readQuantizedTail a b c d e f) (Mem.readQuantizedTail a b c d e f) := by
  refine free_bind tell fun _ => free_bind (seekCur _) fun _ => free_bind (readProjection _ _) fun _ => ?_
  refine weaken (bind (k1 := 0) (k2 := 0) (fromFileF32 _) (fun xs => free_bind (lift _) fun t => ?_) ?_) (by omega)
    fun _ h => h
  · refine weaken (bind (k1 := 0) (k2 := 0) (readQNorms _ _) (fun _ => weaken (P := fun _ => False)
      (free_bind (lift _) fun _ => pure _) (le_refl _) fun _ h => h.elim) ?_) (by omega) fun _ h => h
    intro _ hn s r s' _ h
    obtain ⟨pq, s1, _, h⟩ := rd_bind_inv h
    cases h
    exact Nat.mul_pos hn (Nat.pos_of_ne_zero hc)
  · intro xs hx s r s' _ h
    obtain ⟨t, s1, h1, _⟩ := rd_bind_inv h
    obtain ⟨h1, _⟩ := rd_lift_inv h1
    exact absurd ((reshape3_inv h1).1.trans (Nat.mul_assoc _ _ _).symm) (Nat.ne_of_lt hx)

theorem readQuantizedHeader : Costs 0 (fun r => 0 < r.2.1 * r.2.2.1) FF.readQuantizedHeader Mem.readQuantizedHeader := by
  refine free_bind (readOne _) fun _ => free_bind (readOne _) fun _ => free_bind (readOne _) fun ql =>
    free_bind (readOne _) fun _ => free_bind (readOne _) fun _ => free_bind (readOne _) fun _ => ?_
  by_cases hq : ql = 0
  · simp only [if_pos hq]
    exact fail_bind _ _
  · simp only [if_neg hq]
    exact free_bind (lift _) fun _ => free_bind (readOne _) fun _ => guard fun _ => free_bind (readOne _) fun _ =>
      guard fun _ => readQuantizedTail _ _ _ _ _ _ hq

theorem loadQuant (mmap : Bool) : Full 0 (FF.loadQuant mmap) (Mem.loadQuant mmap) := by
  cases mmap
  · refine free_bind ?_ fun _ => pure _
    refine weaken (bind (k1 := 0) (k2 := 0) readQuantizedHeader (fun p => ?_) ?_) (by omega) fun _ h => h
    · refine weaken (bind (k1 := 0) (k2 := 0) (fromFileU8 _) (fun _ => free_bind (lift _) fun _ => pure _) ?_)
        (by omega) fun _ h => h
      intro xs hx s m s' _ h
      obtain ⟨m', s1, h1, _⟩ := rd_bind_inv h
      obtain ⟨h1, _⟩ := rd_lift_inv h1
      exact absurd (reshape2_inv h1).1 (Nat.ne_of_lt hx)
    · intro r hr s q s' hs h
      obtain ⟨xs, s1, h1, h⟩ := rd_bind_inv h
      obtain ⟨m', s2, h2, _⟩ := rd_bind_inv h
      obtain ⟨h2, _⟩ := rd_lift_inv h2
      have hl := (reshape2_inv h2).1
      unfold FF.fromFileU8 at h1
      split at h1
      · cases h1
        rw [List.length_take, List.length_drop] at hl
        have hr' : 0 < r.2.1 * r.2.2.1 := hr
        rw [← hl] at hr'
        omega
      · cases h1
  · refine free_bind ?_ fun _ => pure _
    refine weaken (bind (k1 := 0) (k2 := 0) readQuantizedHeader (fun p => free_bind tell fun _ =>
      free_bind (seekCur _) fun _ => free_bind (memmapU8 _ _ _) fun _ => pure _) ?_) (by omega) fun _ h => h
    intro r hr s q s' hs h
    obtain ⟨o, s1, h1, h⟩ := rd_bind_inv h
    cases h1
    obtain ⟨u, s2, h2, h⟩ := rd_bind_inv h
    obtain ⟨_, _, rfl⟩ := seekCur_inv h2
    obtain ⟨m, s3, h3, h⟩ := rd_bind_inv h
    unfold FF.memmapU8 at h3
    simp only at h3
    split at h3
    · rename_i hm
      rw [Bool.and_eq_true, memmapOk, Bool.and_eq_true, decide_eq_true_eq] at hm
      have := hm.1.1
      have hr' : 0 < r.2.1 * r.2.2.1 := hr
      generalize hz : r.2.1 * r.2.2.1 = z at this hr'
      omega
    · cases h3

theorem loadStoragePart (mmap : Bool) : Full 0 (FF.loadStoragePart mmap) (Mem.loadStoragePart mmap) := by
  refine free_bind readRequiredChunkHeader fun p => ?_
  obtain ⟨c, n⟩ := p
  cases c <;> first
    | exact loadNd mmap
    | exact loadQuant mmap
    | exact fail _

/-- What `np.fromfile` asks for in vain -/
theorem fromFileF32_any {n : Nat} {s s' : RFile} {xs : List F32} (h : FF.fromFileF32 n s = .ok (xs, s')) :
    s'.data = s.data ∧ s.pos ≤ s'.pos ∧ min s.pos s.data.length + 4 * n ≤
      min s'.pos s.data.length + 4 * (n - xs.length) ∧ Spends (Mem.fromFileF32 n) s xs s' (4 * n) := by
  have h0 := h
  unfold FF.fromFileF32 at h
  split at h
  · rename_i hn
    simp only at h
    have hsp : Spends (Mem.fromFileF32 n) s xs s' (4 * n) := by
      unfold Mem.fromFileF32
      rw [if_pos hn]
      exact Spends.request h0
    split at h
    · rename_i hav
      cases h
      rw [List.length_drop] at hav
      exact ⟨rfl, by simp only; omega, by simp only; omega, hsp⟩
    · rename_i hav
      cases h
      rw [List.length_drop] at hav
      refine ⟨rfl, by simp only; omega, ?_, hsp⟩
      simp only
      rw [length_f32sOf, List.length_drop]
      omega
  · split at h <;> cases h

theorem readNorms_any {s s' : RFile} {xs : List F32} (h : FF.readNorms s = .ok (xs, s')) :
    ∃ n t s1 c, FF.readRequired [8, 4] s = .ok ([n, t], s1) ∧ s'.data = s.data ∧ s.pos ≤ s'.pos ∧
      min s.pos s.data.length + c ≤ min s'.pos s.data.length + 4 * (n - xs.length) ∧ Spends Mem.readNorms s xs s' c := by
  obtain ⟨vs, s1, h1, h2⟩ := rd_bind_inv h
  obtain ⟨d1, p1, c1⟩ := readRequired _ _ _ _ h1
  rcases c1 with ⟨_, hf⟩ | ⟨c, hc, hs⟩
  · exact hf.elim
  split at h2
  · rename_i n t
    obtain ⟨ty, s2, h3', h6⟩ := rd_bind_inv h2
    obtain ⟨_, hs2⟩ := rd_lift_inv h3'
    subst hs2
    dsimp only at h6
    split at h6
    · obtain ⟨_, _, h4, _⟩ := rd_bind_inv h6; cases h4
    · rename_i hty
      obtain ⟨pos, s3, h4, h7⟩ := rd_bind_inv h6
      have h4' := h4
      cases h4
      obtain ⟨u, s4, h5, h8⟩ := rd_bind_inv h7
      have h5' := h5
      obtain ⟨_, _, rfl⟩ := seekCur_inv h5
      obtain ⟨d2, p2, hc2, hs2⟩ := fromFileF32_any h8
      simp only at d2 p2 hc2
      rw [d1] at d2 hc2
      refine ⟨n, t, _, c + 4 * n, h1, d2, by omega, by omega, ?_⟩
      refine hs.bind ?_
      intro b hb
      show (MRd.of _ >>= _) (b, _) = _
      rw [mrd_bind, Spends.of h3' b (by omega)]
      show (if ty ≠ .f32 then _ else _ : MRd _) (b - 0, _) = _
      rw [if_neg hty]
      beta_reduce
      rw [mrd_bind, Spends.of h4' _ (by omega)]
      show (MRd.of _ >>= _) (b - 0 - 0, _) = _
      rw [mrd_bind, Spends.of h5' _ (by omega)]
      exact hs2 b hb
  · cases h2

/-- If nothing follows, the twelve bytes of a chunk header are requested in vain. -/
theorem loadNormsPart_none {s s' : RFile} (h : FF.loadNormsPart s = .ok (none, s')) :
    ∃ c, c ≤ 12 ∧ Spends Mem.loadNormsPart s none s' c ∧ s.data.length ≤ s.pos := by
  obtain ⟨o, s1, h1, h2⟩ := rd_bind_inv h
  obtain ⟨d, p, c, hc, hs⟩ := readChunkHeader s s1 o h1
  rcases o with _ | ⟨ci, n⟩
  · cases h2
    have := (readChunkHeader_none.mp h1).1
    refine ⟨c, ?_, Spends.bind (d := 0) hs fun _ _ => rfl, this⟩
    simp at hc
    omega
  · cases ci <;> simp only at h2 <;> try cases h2
    obtain ⟨_, _, _, h3⟩ := rd_bind_inv h2
    cases h3

theorem loadNormsPart_some {s s' : RFile} {xs : List F32} (h : FF.loadNormsPart s = .ok (some xs, s')) :
    ∃ n t len s1 s2 c, FF.readChunkHeader s = .ok (some (.ndNorms, len), s1) ∧
      FF.readRequired [8, 4] s1 = .ok ([n, t], s2) ∧
      min s.pos s.data.length + c ≤ s.data.length + 4 * (n - xs.length) ∧
      Spends Mem.loadNormsPart s (some xs) s' c := by
  obtain ⟨o, s1, h1, h2⟩ := rd_bind_inv h
  obtain ⟨d, p, c, hc, hs⟩ := readChunkHeader s s1 o h1
  rcases o with _ | ⟨ci, len⟩
  · cases h2
  · cases ci <;> simp only at h2 <;> try cases h2
    obtain ⟨ys, s2, h3, h4⟩ := rd_bind_inv h2
    cases h4
    obtain ⟨n, t, s3, c', k1, k2, k3, k4, k5⟩ := readNorms_any h3
    rw [d] at k4
    simp only [Option.isSome_some, if_true, Nat.add_zero] at hc
    refine ⟨n, t, len, s1, s3, c + c', h1, k1, by omega, hs.bind ?_⟩
    have := Spends.bind (g := fun n => (Pure.pure (some n) : MRd _)) (d := 0) k5 fun _ _ => rfl
    exact this

end Costs

end FF
