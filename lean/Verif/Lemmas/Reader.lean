import Verif.Lemmas.Bytes
/-!
Compositional reasoning about readers and writers.

* `Parses m pre enc a`: after `pre`, the reader `m` consumes exactly `enc` and returns `a`,
  whatever follows.
* `FailsShort m pre enc`: if the file ends inside `enc`, `m` raises.
* `WeakShort m pre enc`: if the file ends inside `enc`, `m` raises or ends at end of file.
* `FailsEof m`: `m` raises at the end of the file.
-/

namespace FF

variable {α β : Type}

theorem rd_bind (m : Rd α) (f : α → Rd β) (s : RFile) :
    (m >>= f) s = match m s with
      | .ok (a, s') => f a s'
      | .error e => .error e := by
  show (m s >>= fun p => f p.1 p.2) = _
  cases m s <;> rfl

theorem rd_bind_ok {m : Rd α} {f : α → Rd β} {s s' : RFile} {a : α} (h : m s = .ok (a, s')) :
    (m >>= f) s = f a s' := by rw [rd_bind, h]

theorem rd_bind_error {m : Rd α} {f : α → Rd β} {s : RFile} {e : PyErr} (h : m s = .error e) :
    (m >>= f) s = .error e := by rw [rd_bind, h]

theorem rd_bind_inv {m : Rd α} {f : α → Rd β} {s s'' : RFile} {b : β}
    (h : (m >>= f) s = .ok (b, s'')) : ∃ a s', m s = .ok (a, s') ∧ f a s' = .ok (b, s'') := by
  rw [rd_bind] at h
  cases hm : m s with
  | error e => rw [hm] at h; cases h
  | ok p => obtain ⟨a, s'⟩ := p; rw [hm] at h; exact ⟨a, s', rfl, h⟩

@[simp] theorem rd_pure (a : α) (s : RFile) : (pure a : Rd α) s = .ok (a, s) := rfl

@[simp] theorem rd_fail (e : PyErr) (s : RFile) : (Rd.fail e : Rd α) s = .error e := rfl

@[simp] theorem rd_lift_ok (a : α) (s : RFile) : (Rd.lift (.ok a)) s = .ok (a, s) := rfl

@[simp] theorem rd_lift_error (e : PyErr) (s : RFile) :
    (Rd.lift (.error e) : Rd α) s = .error e := rfl

@[simp] theorem rd_tell (s : RFile) : tell s = .ok (s.pos, s) := rfl

theorem rd_lift_inv {r : Res α} {s s' : RFile} {a : α} (h : Rd.lift r s = .ok (a, s')) :
    r = .ok a ∧ s' = s := by
  cases r with
  | error e => cases h
  | ok x => simp at h; exact ⟨by rw [h.1], h.2.symm⟩

/-! ### The predicates -/

def Parses (m : Rd α) (pre enc : Bytes) (a : α) : Prop :=
  ∀ post, m ⟨pre ++ enc ++ post, pre.length⟩
    = .ok (a, ⟨pre ++ enc ++ post, (pre ++ enc).length⟩)

def FailsShort (m : Rd α) (pre enc : Bytes) : Prop :=
  ∀ k, k < enc.length → ∃ e, m ⟨pre ++ enc.take k, pre.length⟩ = .error e

/-- `m` raises or leaves the file at its end (with unchanged content). -/
def EofOrFail (m : Rd α) (s : RFile) : Prop :=
  (∃ e, m s = .error e) ∨
    ∃ a s', m s = .ok (a, s') ∧ s'.data = s.data ∧ s.data.length ≤ s'.pos

def WeakShort (m : Rd α) (pre enc : Bytes) : Prop :=
  ∀ k, k < enc.length → EofOrFail m ⟨pre ++ enc.take k, pre.length⟩

def FailsEof (m : Rd α) : Prop :=
  ∀ s : RFile, s.data.length ≤ s.pos → ∃ e, m s = .error e

/-- Any reader that stays at the end once there. -/
def StaysEof (m : Rd α) : Prop :=
  ∀ s : RFile, s.data.length ≤ s.pos → EofOrFail m s

theorem Parses.pure (pre : Bytes) (a : α) : Parses (pure a : Rd α) pre [] a := by
  intro post; simp

theorem Parses.lift {r : Res α} {a : α} (pre : Bytes) (h : r = .ok a) :
    Parses (Rd.lift r) pre [] a := by
  intro post; subst h; simp

theorem Parses.bind {m : Rd α} {f : α → Rd β} {pre e1 e2 : Bytes} {a : α} {b : β}
    (h1 : Parses m pre e1 a) (h2 : Parses (f a) (pre ++ e1) e2 b) :
    Parses (m >>= f) pre (e1 ++ e2) b := by
  intro post
  have h1' := h1 (e2 ++ post)
  have h2' := h2 post
  have e : pre ++ e1 ++ (e2 ++ post) = pre ++ (e1 ++ e2) ++ post := by simp
  have e' : pre ++ e1 ++ e2 ++ post = pre ++ (e1 ++ e2) ++ post := by simp
  rw [e] at h1'
  rw [rd_bind_ok h1', ← e', h2']
  simp

theorem Parses.bind_nil {m : Rd α} {f : α → Rd β} {pre e : Bytes} {a : α} {b : β}
    (h1 : Parses m pre [] a) (h2 : Parses (f a) pre e b) : Parses (m >>= f) pre e b := by
  have := Parses.bind (e1 := []) (e2 := e) h1 (by simpa using h2)
  simpa using this

theorem Parses.bind_last {m : Rd α} {f : α → Rd β} {pre e : Bytes} {a : α} {b : β}
    (h1 : Parses m pre e a) (h2 : Parses (f a) (pre ++ e) [] b) : Parses (m >>= f) pre e b := by
  have := Parses.bind h1 h2
  simpa using this

theorem Parses.tell (pre : Bytes) : Parses tell pre [] pre.length := by
  intro post; simp

theorem Parses.congr {m : Rd α} {pre e e' : Bytes} {a : α} (h : Parses m pre e a) (he : e = e') :
    Parses m pre e' a := he ▸ h

theorem Parses.run {m : Rd α} {enc : Bytes} {a : α} (h : Parses m [] enc a) (post : Bytes) :
    Rd.run m (enc ++ post) = .ok a := by
  have := h post
  simp only [List.nil_append, List.length_nil] at this
  simp [Rd.run, this]

theorem take_append_cases (e1 e2 : Bytes) (k : Nat) (hk : k < (e1 ++ e2).length) :
    (k < e1.length ∧ (e1 ++ e2).take k = e1.take k) ∨
    (∃ j, j < e2.length ∧ (e1 ++ e2).take k = e1 ++ e2.take j) := by
  by_cases h : k < e1.length
  · left
    exact ⟨h, List.take_append_of_le_length (by omega)⟩
  · right
    refine ⟨k - e1.length, ?_, ?_⟩
    · simp at hk; omega
    · rw [List.take_append]
      rw [List.take_of_length_le (by omega)]

theorem FailsShort.bind {m : Rd α} {f : α → Rd β} {pre e1 e2 : Bytes} {a : α}
    (hp : Parses m pre e1 a) (h1 : FailsShort m pre e1)
    (h2 : FailsShort (f a) (pre ++ e1) e2) : FailsShort (m >>= f) pre (e1 ++ e2) := by
  intro k hk
  rcases take_append_cases e1 e2 k hk with ⟨h, e⟩ | ⟨j, hj, e⟩
  · rw [e]
    obtain ⟨er, her⟩ := h1 k h
    exact ⟨er, rd_bind_error her⟩
  · rw [e]
    obtain ⟨er, her⟩ := h2 j hj
    have hp' := hp (e2.take j)
    refine ⟨er, ?_⟩
    rw [← List.append_assoc, rd_bind_ok hp']
    exact her

theorem FailsShort.bind_weak {m : Rd α} {f : α → Rd β} {pre e1 e2 : Bytes} {a : α}
    (hp : Parses m pre e1 a) (h1 : WeakShort m pre e1) (hf : ∀ a, FailsEof (f a))
    (h2 : FailsShort (f a) (pre ++ e1) e2) : FailsShort (m >>= f) pre (e1 ++ e2) := by
  intro k hk
  rcases take_append_cases e1 e2 k hk with ⟨h, e⟩ | ⟨j, hj, e⟩
  · rw [e]
    rcases h1 k h with ⟨er, her⟩ | ⟨a', s', hs, hd, hpos⟩
    · exact ⟨er, rd_bind_error her⟩
    · rw [rd_bind_ok hs]
      exact hf a' s' (by rw [hd]; exact hpos)
  · rw [e]
    obtain ⟨er, her⟩ := h2 j hj
    have hp' := hp (e2.take j)
    refine ⟨er, ?_⟩
    rw [← List.append_assoc, rd_bind_ok hp']
    exact her

theorem WeakShort.bind {m : Rd α} {f : α → Rd β} {pre e1 e2 : Bytes} {a : α}
    (hp : Parses m pre e1 a) (h1 : WeakShort m pre e1) (hf : ∀ a, StaysEof (f a))
    (h2 : WeakShort (f a) (pre ++ e1) e2) : WeakShort (m >>= f) pre (e1 ++ e2) := by
  intro k hk
  rcases take_append_cases e1 e2 k hk with ⟨h, e⟩ | ⟨j, hj, e⟩
  · rw [e]
    rcases h1 k h with ⟨er, her⟩ | ⟨a', s', hs, hd, hpos⟩
    · exact Or.inl ⟨er, rd_bind_error her⟩
    · rcases hf a' s' (by rw [hd]; exact hpos) with ⟨er, her⟩ | ⟨b, s'', hb, hd', hp'⟩
      · exact Or.inl ⟨er, by rw [rd_bind_ok hs]; exact her⟩
      · exact Or.inr ⟨b, s'', by rw [rd_bind_ok hs]; exact hb, by rw [hd', hd], by
          rw [hd] at hp'; exact hp'⟩
  · rw [e]
    have hp' := hp (e2.take j)
    rcases h2 j hj with ⟨er, her⟩ | ⟨b, s'', hb, hd', hps⟩
    · refine Or.inl ⟨er, ?_⟩
      rw [← List.append_assoc, rd_bind_ok hp']
      exact her
    · refine Or.inr ⟨b, s'', ?_, ?_, ?_⟩
      · rw [← List.append_assoc, rd_bind_ok hp']; exact hb
      · rw [hd', List.append_assoc]
      · simpa [List.append_assoc] using hps

theorem FailsShort.weak {m : Rd α} {pre e : Bytes} (h : FailsShort m pre e) : WeakShort m pre e :=
  fun k hk => Or.inl (h k hk)

theorem FailsEof.stays {m : Rd α} (h : FailsEof m) : StaysEof m := fun s hs => Or.inl (h s hs)

theorem FailsEof.bind {m : Rd α} {f : α → Rd β} (h : FailsEof m) : FailsEof (m >>= f) := by
  intro s hs
  obtain ⟨e, he⟩ := h s hs
  exact ⟨e, rd_bind_error he⟩

theorem FailsEof.bind_stays {m : Rd α} {f : α → Rd β} (h : StaysEof m) (hf : ∀ a, FailsEof (f a)) :
    FailsEof (m >>= f) := by
  intro s hs
  rcases h s hs with ⟨e, he⟩ | ⟨a, s', ha, hd, hp⟩
  · exact ⟨e, rd_bind_error he⟩
  · rw [rd_bind_ok ha]
    exact hf a s' (by rw [hd]; exact hp)

theorem StaysEof.bind {m : Rd α} {f : α → Rd β} (h : StaysEof m) (hf : ∀ a, StaysEof (f a)) :
    StaysEof (m >>= f) := by
  intro s hs
  rcases h s hs with ⟨e, he⟩ | ⟨a, s', ha, hd, hp⟩
  · exact Or.inl ⟨e, rd_bind_error he⟩
  · rcases hf a s' (by rw [hd]; exact hp) with ⟨e, he⟩ | ⟨b, s'', hb, hd', hp'⟩
    · exact Or.inl ⟨e, by rw [rd_bind_ok ha]; exact he⟩
    · exact Or.inr ⟨b, s'', by rw [rd_bind_ok ha]; exact hb, by rw [hd', hd], by
        rw [hd] at hp'; exact hp'⟩

theorem StaysEof.pure (a : α) : StaysEof (pure a : Rd α) :=
  fun s hs => Or.inr ⟨a, s, rfl, rfl, hs⟩

theorem StaysEof.lift (r : Res α) : StaysEof (Rd.lift r) := by
  intro s hs
  cases r with
  | error e => exact Or.inl ⟨e, rfl⟩
  | ok a => exact Or.inr ⟨a, s, rfl, rfl, hs⟩

theorem StaysEof.fail (e : PyErr) : StaysEof (Rd.fail e : Rd α) := fun _ _ => Or.inl ⟨e, rfl⟩

theorem FailsEof.fail (e : PyErr) : FailsEof (Rd.fail e : Rd α) := fun _ _ => ⟨e, rfl⟩

theorem FailsShort.nil (m : Rd α) (pre : Bytes) : FailsShort m pre [] := by
  intro k hk; simp at hk

theorem WeakShort.nil (m : Rd α) (pre : Bytes) : WeakShort m pre [] := by
  intro k hk; simp at hk

/-! ### Writers -/

theorem wr_bind (w : Wr α) (f : α → Wr β) (s : Bytes) :
    (w >>= f) s = match w s with
      | (.ok a, s') => f a s'
      | (.error e, s') => (.error e, s') := by
  show (ExceptT.bind w f) s = _
  simp only [ExceptT.bind, ExceptT.mk]
  show (StateT.bind w (ExceptT.bindCont f)) s = _
  simp only [StateT.bind]
  show (match w s with | (a, s') => ExceptT.bindCont f a s') = _
  cases h : w s with
  | mk r s' =>
    cases r with
    | ok a => rfl
    | error e => rfl

theorem wr_bind_inv {w : Wr α} {f : α → Wr β} {s s'' : Bytes} {b : β}
    (h : (w >>= f) s = (.ok b, s'')) : ∃ a s', w s = (.ok a, s') ∧ f a s' = (.ok b, s'') := by
  rw [wr_bind] at h
  cases hw : w s with
  | mk r s' =>
    rw [hw] at h
    cases r with
    | error e => cases h
    | ok a => exact ⟨a, s', rfl, h⟩

@[simp] theorem wr_pure (a : α) (s : Bytes) : (pure a : Wr α) s = (.ok a, s) := rfl

theorem wr_pure_inv {a b : α} {s s' : Bytes} (h : (pure a : Wr α) s = (.ok b, s')) :
    b = a ∧ s' = s := by
  cases h; exact ⟨rfl, rfl⟩

theorem wr_lift_inv {r : Res α} {a : α} {s s' : Bytes} (h : Wr.lift r s = (.ok a, s')) :
    r = .ok a ∧ s' = s := by
  cases h; exact ⟨rfl, rfl⟩

theorem wr_bytes_inv {bs s s' : Bytes} {u : Unit} (h : Wr.bytes bs s = (.ok u, s')) :
    s' = s ++ bs ∧ (s ++ bs).length < maxSize := by
  unfold Wr.bytes at h
  split at h
  · rename_i hl
    cases h
    exact ⟨rfl, hl⟩
  · cases h

theorem wr_tell_inv {n : Nat} {s s' : Bytes} (h : Wr.tell s = (.ok n, s')) :
    n = s.length ∧ s' = s := by
  cases h; exact ⟨rfl, rfl⟩

theorem wr_fail_inv {a : α} {e : PyErr} {s s' : Bytes} (h : (Wr.fail e : Wr α) s = (.ok a, s')) :
    False := by
  cases h

theorem writeBinary_inv {fs : List (Nat × Nat)} {s s' : Bytes} {u : Unit}
    (h : writeBinary fs s = (.ok u, s')) :
    s' = s ++ packRaw fs ∧ (∀ f ∈ fs, f.2 < 256 ^ f.1) ∧ (s ++ packRaw fs).length < maxSize := by
  obtain ⟨d, s1, h1, h2⟩ := wr_bind_inv h
  obtain ⟨hp, rfl⟩ := wr_lift_inv h1
  obtain ⟨rfl, hr⟩ := pack_ok hp
  obtain ⟨rfl, hl⟩ := wr_bytes_inv h2
  exact ⟨rfl, hr, hl⟩

end FF
