import Verif.Model.MemoryCompat
import Verif.Lemmas.MemoryFile
import Verif.Lemmas.LoadBuilt
/-!
# Readers of the other formats with a budget
-/

namespace FF

variable {α β : Type}

/-! ### Same results -/

namespace Limits

theorem borrow (n : Nat) (m : Rd α) : Limits m (MRd.borrow n m) := by
  intro b s
  unfold MRd.borrow
  by_cases h : n ≤ b
  · rw [if_pos h]
    exact of m b s
  · rw [if_neg h]
    exact .inr (.inr rfl)

/-- A request in between -/
theorem paid {m : Rd α} {l : MRd α} (n : Nat) (h : Limits m l) :
    Limits m (MRd.request n (Pure.pure ()) >>= fun _ => l) := by
  have := bind (request n (Pure.pure () : Rd Unit)) fun _ => h
  exact this

theorem lent {m : Rd β} {g : α → MRd β} (n : Nat) (a : α) (h : Limits m (g a)) :
    Limits m (MRd.borrow n (Pure.pure a) >>= g) := by
  intro b s
  rw [mrd_bind]
  unfold MRd.borrow
  by_cases hn : n ≤ b
  · rw [if_pos hn]
    exact h b s
  · rw [if_neg hn]
    exact .inr (.inr rfl)

section
variable {K : Type} [NumOps K] [Codec K]

omit [NumOps K] in
theorem w2vRows (lossy : Bool) (cols n : Nat) :
    Limits (FF.w2vRows lossy cols n : Rd (List (PyStr × List K))) (Mem.w2vRows lossy cols n) := by
  induction n with
  | zero => exact pure _
  | succ n ih =>
    exact bind (of _) fun _ => bind (of _) fun _ => bind (borrow _ _) fun _ => bind (of _) fun _ =>
      bind ih fun _ => pure _

theorem loadWord2vec (lossy : Bool) : Limits (FF.loadWord2vec lossy : Rd (Embeddings K)) (Mem.loadWord2vec lossy) :=
  bind (of _) fun _ => bind (of _) fun _ => bind (of _) fun _ => bind (of _) fun _ => paid _ <|
    bind (w2vRows _ _ _) fun _ => lent _ _ <| bind (of _) fun _ => of _

theorem readSigned (ws : List Nat) : Limits (FF.readSigned ws) (Mem.readSigned ws) :=
  bind (readRequired _) fun _ => pure _

theorem readFtHeader : Limits FF.readFtHeader Mem.readFtHeader := by
  refine bind (readSigned _) fun xs => ?_
  rcases xs with _ | ⟨a, _ | ⟨b, _ | ⟨_, _⟩⟩⟩
  · exact of _
  · exact of _
  · exact guard fun _ => ite (of _) (pure _)
  · exact of _

theorem readFtCfg : Limits FF.readFtCfg Mem.readFtCfg := by
  refine bind (readRequired _) fun xs => ?_
  split
  · exact bind (of _) fun _ => bind (of _) fun _ => pure _
  · rename_i hx
    split
    · exact (hx _ _ _ _ _ _ _ _ _ _ _ _ _ rfl).elim
    · exact of _

theorem readFtWord (lossy : Bool) : Limits (FF.readFtWord lossy) (Mem.readFtWord lossy) :=
  bind (of _) fun _ => bind (readOne _) fun _ => bind (readOne _) fun _ => guard fun _ => of _

theorem readFtWords (lossy : Bool) (n : Nat) : Limits (FF.readFtWords lossy n) (Mem.readFtWords lossy n) := by
  induction n with
  | zero => exact pure _
  | succ n ih => exact bind (readFtWord lossy) fun _ => bind ih fun _ => pure _

theorem readFtVocab (b lo hi : Int) (lossy : Bool) :
    Limits (FF.readFtVocab b lo hi lossy) (Mem.readFtVocab b lo hi lossy) := by
  refine bind (readSigned _) fun xs => ?_
  split
  · exact guard fun _ => bind (readOne _) fun _ => bind (readOne _) fun _ => guard fun _ =>
      bind (readFtWords _ _) fun _ => bind (of _) fun _ => bind (of _) fun _ => pure _
  · rename_i hx
    split
    · exact (hx _ _ _ rfl).elim
    · exact of _

theorem fromFileInt (n : Int) : Limits (FF.fromFileInt n) (Mem.fromFileInt n) := by
  intro b s
  by_cases h : 0 ≤ n
  · have h1 : FF.fromFileInt n s = FF.fromFileF32 n.toNat s := by unfold FF.fromFileInt; rw [if_pos h]
    have h2 : Mem.fromFileInt n (b, s) = Mem.fromFileF32 n.toNat (b, s) := by unfold Mem.fromFileInt; rw [if_pos h]
    rw [h1, h2]
    exact fromFileF32 _ b s
  · have h2 : Mem.fromFileInt n (b, s) = MRd.request (4 * ((s.data.length - s.pos) / 4)) (FF.fromFileInt n) (b, s) := by
      conv_lhs => unfold Mem.fromFileInt
      rw [if_neg h]
    rw [h2]
    exact request _ _ b s

omit [Codec K] in
theorem precomputeWords (v : Vocab) (ix : Indexer) (cols i : Nat) (ws : List PyStr) (rows : List (List K)) :
    Limits (Rd.lift (FF.precomputeWords v ix cols i ws rows)) (Mem.precomputeWords v ix cols i ws rows) := by
  induction ws generalizing i rows with
  | nil => exact pure _
  | cons w ws ih =>
    have : (Rd.lift (FF.precomputeWords v ix cols i (w :: ws) rows) : Rd (List (List K))) =
        Rd.lift (v.subwordIndices ix w) >>= fun sub => Rd.lift (npTake rows ((i : Int) :: sub)) >>= fun sel =>
          Rd.lift (npSet rows i (vdiv (addReduce cols sel) (NumOps.ofNat sel.length))) >>= fun rows =>
            Rd.lift (FF.precomputeWords v ix cols (i + 1) ws rows) := by
      rw [FF.precomputeWords]
      funext s
      rw [rd_bind]
      cases v.subwordIndices ix w with
      | error e => rfl
      | ok sub =>
        show _ = (Rd.lift (npTake rows ((i : Int) :: sub)) >>= _) s
        rw [rd_bind]
        cases hsel : npTake rows ((i : Int) :: sub) with
        | error e =>
          show Rd.lift (npTake rows ((i : Int) :: sub) >>= _) s = _
          rw [hsel]
          rfl
        | ok sel =>
          show Rd.lift (npTake rows ((i : Int) :: sub) >>= _) s = (Rd.lift (npSet rows i _) >>= _) s
          rw [hsel, rd_bind]
          show Rd.lift (npSet rows i _ >>= _) s = _
          cases npSet rows i (vdiv (addReduce cols sel) (NumOps.ofNat sel.length)) with
          | error e => rfl
          | ok r => rfl
    rw [this]
    exact bind (of _) fun _ => bind (borrow _ _) fun _ => bind (of _) fun _ => ih _ _

theorem readFtStorage (v : Vocab) (ix : FtIndexer) :
    Limits (FF.readFtStorage v ix : Rd (Mat K)) (Mem.readFtStorage v ix) := by
  refine bind (readOne _) fun _ => guard fun _ => bind (readSigned _) fun xs => ?_
  split
  · exact bind (fromFileInt _) fun _ => bind (of _) fun _ => bind (precomputeWords _ _ _ _ _ _) fun _ => pure _
  · rename_i hx
    split
    · exact (hx _ _ rfl).elim
    · exact of _

theorem loadFasttext (lossy : Bool) : Limits (FF.loadFasttext lossy : Rd (Embeddings K)) (Mem.loadFasttext lossy) :=
  bind readFtHeader fun _ => bind readFtCfg fun _ => bind (readFtVocab _ _ _ _) fun _ => bind (readFtStorage _ _) fun _ =>
    lent _ _ <| of _

end

end Limits

/-! ### What is needed -/

theorem Needs.borrow {n : Nat} {m : Rd α} {s : RFile} : Needs n (MRd.borrow n m) s := by
  intro b hb
  unfold MRd.borrow
  rw [if_neg (by simpa using hb)]

theorem Needs.request {n : Nat} {m : Rd α} {s : RFile} : Needs n (MRd.request n m) s := by
  intro b hb
  unfold MRd.request
  rw [if_neg (by simpa using hb)]

/-- What is requested first is not there for the rest. -/
theorem Needs.paid {n k : Nat} {g : Unit → MRd β} {s : RFile} (h : Needs k (g ()) s) :
    Needs (n + k) (MRd.request n (pure ()) >>= g) s := by
  intro b hb
  rw [mrd_bind]
  unfold MRd.request
  by_cases hn : n ≤ b
  · rw [if_pos hn]
    exact h (b - n) (by omega)
  · rw [if_neg hn]

/-- `l` keeps `k` bytes when it succeeds. -/
def Holds (k : Nat) (l : MRd α) (s : RFile) : Prop := ∀ b a b' s', l (b, s) = .ok (a, (b', s')) → b' + k ≤ b

theorem Holds.request {n : Nat} {m : Rd α} {s : RFile} : Holds n (MRd.request n m) s := by
  intro b a b' s' h
  unfold MRd.request at h
  by_cases hn : n ≤ b
  · rw [if_pos hn] at h
    unfold MRd.of at h
    split at h
    · cases h
      show b - n + n ≤ b
      omega
    · cases h
  · rw [if_neg hn] at h
    cases h

theorem Holds.mono {k k' : Nat} {l : MRd α} {s : RFile} (h : Holds k l s) (hk : k' ≤ k) : Holds k' l s := by
  intro b a b' s' h1
  have := h b a b' s' h1
  omega

theorem Holds.after {k : Nat} {m : Rd α} {l : MRd α} {g : α → MRd β} {s s' : RFile} {a : α} (h : Limits m l)
    (hm : m s = .ok (a, s')) (hg : Holds k (g a) s') : Holds k (l >>= g) s := by
  intro b c b' t h1
  rw [mrd_bind] at h1
  rcases h.ok (b := b) hm with ⟨b1, h2, h3⟩ | h2
  · rw [h3] at h1
    have := hg b1 c b' t h1
    omega
  · rw [h2] at h1
    cases h1

theorem Holds.first {k : Nat} {l : MRd α} {f : α → Rd β} {g : α → MRd β} {s : RFile} (h : Holds k l s)
    (hg : ∀ a, Limits (f a) (g a)) : Holds k (l >>= g) s := by
  intro b c b' t h1
  rw [mrd_bind] at h1
  split at h1
  · rename_i a s1 h2
    have h3 := h b a s1.1 s1.2 h2
    rcases hg a s1.1 s1.2 with ⟨_, b2, s2, h4, h5, _⟩ | ⟨_, h4, _⟩ | h4
    · have h5' : g a s1 = _ := h5
      rw [h5'] at h1
      cases h1
      omega
    · have h4' : g a s1 = _ := h4
      rw [h4'] at h1
      cases h1
    · have h4' : g a s1 = _ := h4
      rw [h4'] at h1
      cases h1
  · cases h1

/-- What is kept is not there for the rest. -/
theorem Needs.held {j k : Nat} {m : Rd α} {l : MRd α} {g : α → MRd β} {s s' : RFile} {a : α} (h : Limits m l)
    (hm : m s = .ok (a, s')) (hk : Holds k l s) (hg : Needs j (g a) s') : Needs (k + j) (l >>= g) s := by
  intro b hb
  rw [mrd_bind]
  rcases h.ok (b := b) hm with ⟨b', h1, h2⟩ | h1
  · have := hk b a b' s' h2
    rw [h2]
    exact hg b' (by omega)
  · rw [h1]

theorem holds_fromFileInt {n : Int} {s s' : RFile} {xs : List F32} (h : FF.fromFileInt n s = .ok (xs, s')) :
    Holds (4 * xs.length) (Mem.fromFileInt n) s := by
  intro b a b' t h1
  have h2 : ∃ k m, 4 * xs.length ≤ k ∧ Mem.fromFileInt n (b, s) = MRd.request k m (b, s) := by
    unfold FF.fromFileInt at h
    unfold Mem.fromFileInt
    by_cases hn : 0 ≤ n
    · rw [if_pos hn] at h ⊢
      unfold FF.fromFileF32 at h
      unfold Mem.fromFileF32
      split at h
      · rename_i hm
        rw [if_pos hm]
        refine ⟨_, _, ?_, rfl⟩
        simp only at h
        split at h
        · cases h
          rw [length_f32sOf, List.length_take]
          omega
        · cases h
          rw [length_f32sOf]
          omega
      · split at h <;> cases h
    · rw [if_neg hn] at h ⊢
      refine ⟨_, _, ?_, rfl⟩
      split at h
      · cases h
        rw [length_f32sOf, List.length_drop]
      · cases h
  obtain ⟨k, m, h3, h4⟩ := h2
  rw [h4] at h1
  exact Holds.request.mono h3 _ _ _ _ h1

section
variable {K : Type} [NumOps K]

theorem needs_precompute {v : Vocab} {ix : Indexer} {cols : Nat} {ws : List PyStr} {i : Nat} {rows rs : List (List K)}
    (h : FF.precomputeWords v ix cols i ws rows = .ok rs) {w : PyStr} (hw : w ∈ ws) {sub : List Int}
    (hs : v.subwordIndices ix w = .ok sub) (s : RFile) :
    Needs (Mem.meanSize cols sub.length) (Mem.precomputeWords v ix cols i ws rows) s := by
  induction ws generalizing i rows with
  | nil => cases hw
  | cons w' ws ih =>
    rw [FF.precomputeWords] at h
    obtain ⟨sub', h1, h⟩ := res_bind_inv h
    obtain ⟨sel, h2, h⟩ := res_bind_inv h
    obtain ⟨rows1, h3, h⟩ := res_bind_inv h
    rw [Mem.precomputeWords]
    refine Needs.after (Limits.of _) (show Rd.lift (v.subwordIndices ix w') s = .ok (sub', s) by rw [h1]; rfl) ?_
    by_cases he : w' = w
    · subst he
      rw [h1] at hs
      cases hs
      exact Needs.first Needs.borrow
    · refine Needs.after (Limits.borrow _ _) (show Rd.lift (npTake rows ((i : Int) :: sub')) s = .ok (sel, s) by
        rw [h2]; rfl) ?_
      refine Needs.after (Limits.of _) (show Rd.lift (npSet rows i _) s = .ok (rows1, s) by rw [h3]; rfl) ?_
      rcases List.mem_cons.mp hw with rfl | hw
      · exact absurd rfl he
      · exact ih h hw

end

/-! ### What suffices -/

/-- With `c + p` bytes or more, `l` succeeds and uses up `c` of them. -/
def Peak (p : Nat) (l : MRd α) (s : RFile) (a : α) (s' : RFile) (c : Nat) : Prop :=
  ∀ b, c + p ≤ b → l (b, s) = .ok (a, (b - c, s'))

theorem Spends.peak {l : MRd α} {s s' : RFile} {a : α} {c : Nat} (h : Spends l s a s' c) (p : Nat) : Peak p l s a s' c :=
  fun b hb => h b (by omega)

namespace Peak

variable {p : Nat}

theorem bind {l : MRd α} {g : α → MRd β} {s s1 s2 : RFile} {a : α} {b : β} {c d : Nat} (h : Peak p l s a s1 c)
    (hg : Peak p (g a) s1 b s2 d) : Peak p (l >>= g) s b s2 (c + d) := by
  intro n hn
  rw [mrd_bind, h n (by omega)]
  show g a (n - c, s1) = _
  rw [hg (n - c) (by omega), Nat.sub_sub]

theorem of {m : Rd α} {s s' : RFile} {a : α} (h : m s = .ok (a, s')) : Peak p (MRd.of m) s a s' 0 := (Spends.of h).peak p

theorem borrow {n : Nat} {m : Rd α} {s s' : RFile} {a : α} (hn : n ≤ p) (h : m s = .ok (a, s')) :
    Peak p (MRd.borrow n m) s a s' 0 := by
  intro b hb
  unfold MRd.borrow
  rw [if_pos (show n ≤ b by omega)]
  exact of (p := 0) h b (by omega)

theorem free {l : MRd α} {g : α → MRd β} {s s1 s2 : RFile} {a : α} {b : β} {d : Nat} (h : Peak p l s a s1 0)
    (hg : Peak p (g a) s1 b s2 d) : Peak p (l >>= g) s b s2 d := by
  have := bind h hg
  rwa [Nat.zero_add] at this

theorem run {l : MRd α} {bs : Bytes} {a : α} {s' : RFile} {c M : Nat} (h : Peak p l ⟨bs, 0⟩ a s' c) (hM : c + p ≤ M) :
    l.run M bs = .ok a := by
  unfold MRd.run
  rw [h M hM]

end Peak

section
variable {K : Type} [NumOps K] {p : Nat}

omit [NumOps K] in
theorem peak_w2vRows [Codec K] {lossy : Bool} {cols n : Nat} {s s' : RFile} {rs : List (PyStr × List K)}
    (h : FF.w2vRows lossy cols n s = .ok (rs, s')) (hp : n ≠ 0 → 8 * cols ≤ p) :
    Peak p (Mem.w2vRows lossy cols n) s rs s' 0 := by
  induction n generalizing s rs with
  | zero => cases h; exact fun _ _ => rfl
  | succ n ih =>
    rw [FF.w2vRows] at h
    obtain ⟨bs, s1, h1, h⟩ := rd_bind_inv h
    obtain ⟨word, s2, h2, h⟩ := rd_bind_inv h
    obtain ⟨array, s3, h3, h⟩ := rd_bind_inv h
    obtain ⟨row, s4, h4, h⟩ := rd_bind_inv h
    obtain ⟨rest, s5, h5, h⟩ := rd_bind_inv h
    cases h
    rw [Mem.w2vRows]
    exact (Peak.of h1).free <| (Peak.of h2).free <| (Peak.borrow (hp (by simp)) h3).free <| (Peak.of h4).free <|
      (ih h5 fun _ => hp (by simp)).free fun _ _ => rfl

theorem peak_loadWord2vec [Codec K] {lossy : Bool} {bs : Bytes} {e : Embeddings K}
    (h : Rd.run (FF.loadWord2vec lossy) bs = .ok e) (h1 : e.storage.nRows ≠ 0 → 8 * e.storage.nCols ≤ p)
    (h2 : Mem.normSize e.storage.nRows e.storage.nCols ≤ p) :
    ∃ s', Peak p (Mem.loadWord2vec lossy) ⟨bs, 0⟩ e s' (4 * (e.storage.nRows * e.storage.nCols)) ∧
      Needs (4 * (e.storage.nRows * e.storage.nCols) + Mem.normSize e.storage.nRows e.storage.nCols)
        (Mem.loadWord2vec lossy : MRd (Embeddings K)) ⟨bs, 0⟩ := by
  obtain ⟨s', h⟩ := rd_run_ok h
  unfold FF.loadWord2vec at h
  obtain ⟨line, t1, k1, h⟩ := rd_bind_inv h
  obtain ⟨header, t2, k2, h⟩ := rd_bind_inv h
  obtain ⟨dims, t3, k3, h⟩ := rd_bind_inv h
  obtain ⟨shape, t4, k4, h⟩ := rd_bind_inv h
  obtain ⟨rows, t5, k5, h⟩ := rd_bind_inv h
  obtain ⟨v, t6, k6, h⟩ := rd_bind_inv h
  obtain ⟨e1, _⟩ := embNew_iff.mp (rd_lift_inv h).1
  have hr := (w2vRows_lengths k5).1
  have e2 : e.storage.nRows = shape.1 := by
    rw [e1]
    show (normalizeMatrix (rows.map Prod.snd)).1.length = _
    simp [normalizeMatrix, hr]
  have e3 : e.storage.nCols = shape.2 := by rw [e1]; rfl
  rw [e2] at h1
  rw [e2, e3] at h2 ⊢
  rw [e3] at h1
  refine ⟨s', ?_, ?_⟩
  · refine (Peak.of k1).free <| (Peak.of k2).free <| (Peak.of k3).free <| (Peak.of k4).free ?_
    refine ((Spends.request (m := pure ()) rfl).peak p).bind (d := 0) ?_
    refine (peak_w2vRows k5 h1).free ?_
    refine (Peak.borrow (m := pure (normalizeMatrix (rows.map Prod.snd))) h2 rfl).free ?_
    refine (Peak.of k6).free ?_
    exact Peak.of h
  · exact Needs.after (Limits.of _) k1 <| Needs.after (Limits.of _) k2 <| Needs.after (Limits.of _) k3 <|
      Needs.after (Limits.of _) k4 <| Needs.paid <| Needs.after (Limits.w2vRows _ _ _) k5 <| Needs.first Needs.borrow

/-! ### fastText -/

theorem peak_precompute {v : Vocab} {ix : Indexer} {cols : Nat} {ws : List PyStr} {i : Nat} {rows rs : List (List K)}
    (h : FF.precomputeWords v ix cols i ws rows = .ok rs)
    (hp : ∀ w ∈ ws, ∀ sub, v.subwordIndices ix w = .ok sub → Mem.meanSize cols sub.length ≤ p) (s : RFile) :
    Peak p (Mem.precomputeWords v ix cols i ws rows) s rs s 0 := by
  induction ws generalizing i rows with
  | nil => cases h; exact fun _ _ => rfl
  | cons w ws ih =>
    rw [FF.precomputeWords] at h
    obtain ⟨sub, h1, h⟩ := res_bind_inv h
    obtain ⟨sel, h2, h⟩ := res_bind_inv h
    obtain ⟨rows1, h3, h⟩ := res_bind_inv h
    rw [Mem.precomputeWords]
    refine (Peak.of (show Rd.lift (v.subwordIndices ix w) s = .ok (sub, s) by rw [h1]; rfl)).free ?_
    refine (Peak.borrow (hp w (by simp) sub h1)
      (show Rd.lift (npTake rows ((i : Int) :: sub)) s = .ok (sel, s) by rw [h2]; rfl)).free ?_
    refine (Peak.of (show Rd.lift (npSet rows i _) s = .ok (rows1, s) by rw [h3]; rfl)).free ?_
    exact ih h fun w hw => hp w (List.mem_cons_of_mem _ hw)

end

namespace Costs

theorem readDelim (d : UInt8) : Full 0 (FF.readDelim d) (MRd.of (FF.readDelim d)) := by
  refine of fun s a s' h => ?_
  unfold FF.readDelim at h
  split at h
  · cases h
  · cases h
    exact ⟨rfl, by simp only; omega⟩

theorem readSigned (ws : List Nat) : Full 0 (FF.readSigned ws) (Mem.readSigned ws) :=
  free_bind (readRequired _) fun _ => pure _

theorem readFtHeader : Full 0 FF.readFtHeader Mem.readFtHeader := by
  refine free_bind (readSigned _) fun xs => ?_
  rcases xs with _ | ⟨a, _ | ⟨b, _ | ⟨_, _⟩⟩⟩
  · exact fail _
  · exact fail _
  · exact guard fun _ => ite (fail _) (pure _)
  · exact fail _

theorem readFtCfg : Full 0 FF.readFtCfg Mem.readFtCfg := by
  refine free_bind (readRequired _) fun xs => ?_
  split
  · exact free_bind (lift _) fun _ => free_bind (lift _) fun _ => pure _
  · rename_i hx
    split
    · exact (hx _ _ _ _ _ _ _ _ _ _ _ _ _ rfl).elim
    · exact fail _

theorem readFtWord (lossy : Bool) : Full 0 (FF.readFtWord lossy) (Mem.readFtWord lossy) :=
  free_bind (readDelim _) fun _ => free_bind (readOne _) fun _ => free_bind (readOne _) fun _ => guard fun _ => lift _

theorem readFtWords (lossy : Bool) (n : Nat) : Full 0 (FF.readFtWords lossy n) (Mem.readFtWords lossy n) := by
  induction n with
  | zero => exact pure _
  | succ n ih => exact free_bind (readFtWord lossy) fun _ => free_bind ih fun _ => pure _

theorem readFtVocab (b lo hi : Int) (lossy : Bool) :
    Full 0 (FF.readFtVocab b lo hi lossy) (Mem.readFtVocab b lo hi lossy) := by
  refine free_bind (readSigned _) fun xs => ?_
  split
  · exact guard fun _ => free_bind (readOne _) fun _ => free_bind (readOne _) fun _ => guard fun _ =>
      free_bind (readFtWords _ _) fun _ => free_bind (lift _) fun _ => free_bind (lift _) fun _ => pure _
  · rename_i hx
    split
    · exact (hx _ _ _ rfl).elim
    · exact fail _

theorem full {k : Nat} {m : Rd α} {l : MRd α} (h : Full k m l) {s s' : RFile} {a : α} (hm : m s = .ok (a, s')) :
    s'.data = s.data ∧ s.pos ≤ s'.pos ∧ ∃ c, min s.pos s.data.length + c ≤ min s'.pos s.data.length + k ∧
      Spends l s a s' c := by
  obtain ⟨h1, h2, h3⟩ := h s a s' hm
  exact ⟨h1, h2, h3.resolve_left fun h => h.2⟩

end Costs

section
variable {K : Type} [NumOps K] [Codec K] {p : Nat}

omit [NumOps K] in
theorem ftMatrix_spends {r c : Int} {s s1 : RFile} {xs : List F32} {m : Mat K}
    (h1 : FF.fromFileInt (r * c) s = .ok (xs, s1)) (h2 : reshapeInt r c (xs.map (Codec.ofBits (K := K))) = .ok m) :
    s1.data = s.data ∧ s.pos ≤ s1.pos ∧ ∃ k, min s.pos s.data.length + k ≤ min s1.pos s.data.length ∧
      Spends (Mem.fromFileInt (r * c)) s xs s1 k := by
  by_cases hn : 0 ≤ r * c
  · have e1 : FF.fromFileInt (r * c) s = FF.fromFileF32 (r * c).toNat s := by unfold FF.fromFileInt; rw [if_pos hn]
    rw [e1] at h1
    have hl : xs.length = (r * c).toNat := by
      unfold reshapeInt at h2
      split at h2
      · rename_i hr
        split at h2
        · cases h2
        · rename_i hc
          have : r * c < 0 := mul_neg_of_neg_of_pos hr (by omega)
          omega
      · rename_i hr
        split at h2
        · rename_i hc
          split at h2
          · cases h2
          · rename_i hr0
            have : r * c < 0 := mul_neg_of_pos_of_neg (by omega) hc
            omega
        · rename_i hc
          have := (reshape2_inv h2).1
          rw [List.length_map] at this
          obtain ⟨a, rfl⟩ := Int.eq_ofNat_of_zero_le (show 0 ≤ r by omega)
          obtain ⟨b, rfl⟩ := Int.eq_ofNat_of_zero_le (show 0 ≤ c by omega)
          rw [this]
          rfl
    obtain ⟨k1, k2, k3⟩ := Costs.fromFileF32 _ s xs s1 h1
    refine ⟨k1, k2, ?_⟩
    rcases k3 with ⟨_, k3⟩ | ⟨k, k3, k4⟩
    · omega
    · refine ⟨k, k3, fun b hb => ?_⟩
      unfold Mem.fromFileInt
      rw [if_pos hn]
      exact k4 b hb
  · have h0 := h1
    unfold FF.fromFileInt at h1
    rw [if_neg hn] at h1
    split at h1
    · cases h1
      refine ⟨rfl, by simp only; omega, 4 * ((s.data.length - s.pos) / 4), by simp only; omega, fun b hb => ?_⟩
      unfold Mem.fromFileInt
      rw [if_neg hn]
      exact Spends.request h0 b hb
    · cases h1

omit [NumOps K] [Codec K] in
theorem reshapeInt_flat {r c : Int} {xs : List K} {m : Mat K} (h : reshapeInt r c xs = .ok m) : m.flat = xs := by
  unfold reshapeInt at h
  split at h
  · split at h
    · cases h
    · exact (reshape2_inv h).2.1
  · split at h
    · split at h
      · cases h
      · exact (reshape2_inv h).2.1
    · exact (reshape2_inv h).2.1

theorem peak_readFtStorage {v : Vocab} {ix : FtIndexer} {s s' : RFile} {m : Mat K}
    (h : FF.readFtStorage v ix s = .ok (m, s')) :
    s'.data = s.data ∧ s.pos ≤ s'.pos ∧
    (∃ c, min s.pos s.data.length + c ≤ min s'.pos s.data.length ∧
      ∀ p, (∀ w ∈ v.words, ∀ sub, v.subwordIndices (.ft ix) w = .ok sub → Mem.meanSize m.cols sub.length ≤ p) →
        Peak p (Mem.readFtStorage v ix) s m s' c) ∧
    (∀ w ∈ v.words, ∃ sub, v.subwordIndices (.ft ix) w = .ok sub ∧
      Needs (4 * (m.rows.length * m.cols) + Mem.meanSize m.cols sub.length) (Mem.readFtStorage v ix : MRd (Mat K)) s) ∧
    Holds (4 * (m.rows.length * m.cols)) (Mem.readFtStorage v ix : MRd (Mat K)) s := by
  unfold FF.readFtStorage at h
  obtain ⟨q, s1, h1, h⟩ := rd_bind_inv h
  dsimp only at h
  by_cases hq : q ≠ 0
  · rw [if_pos hq] at h
    obtain ⟨_, _, h1, _⟩ := rd_bind_inv h
    cases h1
  rw [if_neg hq] at h
  obtain ⟨rc, s2, h2, h⟩ := rd_bind_inv h
  obtain ⟨d1, p1, c1, i1, j1⟩ := (Costs.readOne 1).full h1
  obtain ⟨d2, p2, c2, i2, j2⟩ := (Costs.readSigned _).full h2
  unfold Mem.readFtStorage
  rcases rc with _ | ⟨rows, _ | ⟨cols, _ | ⟨x, rc⟩⟩⟩
  · cases h
  · cases h
  · dsimp only at h
    obtain ⟨xs, s3, h3, g3⟩ := rd_bind_inv h
    obtain ⟨m1, s4, h4, g4⟩ := rd_bind_inv g3
    obtain ⟨rs, s5, h5, g5⟩ := rd_bind_inv g4
    clear h g3 g4
    have h4' := rd_lift_inv h4
    obtain ⟨h5', rfl⟩ := rd_lift_inv h5
    cases g5
    obtain ⟨d3, p3, c3, i3, j3⟩ := ftMatrix_spends h3 h4'.1
    obtain ⟨h4', rfl⟩ := h4'
    rw [d1] at d2 i2
    rw [d2] at d3 i3
    have hxs : rs.length * m1.cols = xs.length := by
      have hw := (reshapeInt_wf h4').1
      rw [(precomputeWords_wf h5' hw).1, ← List.length_map (as := xs) (Codec.ofBits (K := K)), ← reshapeInt_flat h4']
      exact hw.flat_length.symm
    have hh := holds_fromFileInt h3
    rw [← hxs] at hh
    refine ⟨d3, by omega, ⟨c1 + (c2 + c3), by omega, fun p hp => ?_⟩, fun w hw => ?_, ?_⟩
    · refine (j1.peak p).bind ?_
      rw [if_neg hq]
      refine (j2.peak p).bind ?_
      refine (j3.peak p).bind (d := 0) ?_
      exact (Peak.of h4).free <| (peak_precompute h5' hp _).free fun _ _ => rfl
    · obtain ⟨sub, hs⟩ : ∃ sub, v.subwordIndices (.ft ix) w = .ok sub := by
        clear h5
        generalize m1.rows = r0 at h5'
        generalize 0 = i at h5'
        generalize v.words = ws at h5' hw
        induction ws generalizing i r0 with
        | nil => cases hw
        | cons w' ws ih =>
          rw [FF.precomputeWords] at h5'
          obtain ⟨sub, k1, h5'⟩ := res_bind_inv h5'
          obtain ⟨sel, k2, h5'⟩ := res_bind_inv h5'
          obtain ⟨rows1, k3, h5'⟩ := res_bind_inv h5'
          rcases List.mem_cons.mp hw with rfl | hw
          · exact ⟨sub, k1⟩
          · exact ih _ _ h5' hw
      refine ⟨sub, hs, ?_⟩
      refine Needs.after (Limits.readOne _) h1 ?_
      rw [if_neg hq]
      refine Needs.after (Limits.readSigned _) h2 ?_
      refine Needs.held (Limits.fromFileInt _) h3 hh ?_
      refine Needs.after (Limits.of _) h4 ?_
      exact Needs.first (needs_precompute h5' hw hs _)
    · refine Holds.after (Limits.readOne _) h1 ?_
      rw [if_neg hq]
      refine Holds.after (Limits.readSigned _) h2 ?_
      exact hh.first fun _ => Limits.bind (Limits.of _) fun _ => Limits.bind (Limits.precomputeWords _ _ _ _ _ _) fun _ =>
        Limits.pure _
  · cases h

theorem peak_loadFasttext {lossy : Bool} {bs : Bytes} {e : Embeddings K}
    (h : Rd.run (FF.loadFasttext lossy) bs = .ok e) :
    ∃ ix, e.vocab.sub = some (.ft ix) ∧
    (∃ s' c, c ≤ bs.length ∧ ∀ p, (∀ w ∈ e.vocab.words, ∀ sub, e.vocab.subwordIndices (.ft ix) w = .ok sub →
        Mem.meanSize e.storage.nCols sub.length ≤ p) → Mem.normSize e.vocab.words.length e.storage.nCols ≤ p →
        Peak p (Mem.loadFasttext lossy) ⟨bs, 0⟩ e s' c) ∧
    (∀ w ∈ e.vocab.words, ∃ sub, e.vocab.subwordIndices (.ft ix) w = .ok sub ∧
      Needs (4 * (e.storage.nRows * e.storage.nCols) + Mem.meanSize e.storage.nCols sub.length)
        (Mem.loadFasttext lossy : MRd (Embeddings K)) ⟨bs, 0⟩) ∧
    Needs (4 * (e.storage.nRows * e.storage.nCols) + Mem.normSize e.vocab.words.length e.storage.nCols)
      (Mem.loadFasttext lossy : MRd (Embeddings K)) ⟨bs, 0⟩ := by
  obtain ⟨s', h⟩ := rd_run_ok h
  unfold FF.loadFasttext at h
  obtain ⟨u, t1, k1, h⟩ := rd_bind_inv h
  obtain ⟨cfg, t2, k2, h⟩ := rd_bind_inv h
  obtain ⟨⟨v, ix⟩, t3, k3, h⟩ := rd_bind_inv h
  obtain ⟨m, t4, k4, h⟩ := rd_bind_inv h
  obtain ⟨e1, _⟩ := embNew_iff.mp (rd_lift_inv h).1
  obtain ⟨hv, hsub⟩ := readFtVocab_built k3
  have e2 : e.vocab = v := by rw [e1]
  have e3 : e.storage.nCols = m.cols := by rw [e1]; rfl
  have e4 : e.storage.nRows = m.rows.length := by
    rw [e1]
    show List.length (_ ++ _) = _
    rw [List.length_append, List.length_drop]
    simp only [List.length_map, List.length_take]
    omega
  rw [e2, e3, e4]
  obtain ⟨d1, p1, c1, i1, j1⟩ := Costs.readFtHeader.full k1
  obtain ⟨d2, p2, c2, i2, j2⟩ := Costs.readFtCfg.full k2
  obtain ⟨d3, p3, c3, i3, j3⟩ := (Costs.readFtVocab _ _ _ _).full k3
  obtain ⟨d4, p4, ⟨c4, i4, j4⟩, hn, hh⟩ := peak_readFtStorage k4
  dsimp only at d1 d2 d3 d4 i1 i2 i3 i4
  rw [d1] at d2 i2
  rw [d2] at d3 i3
  rw [d3] at i4
  refine ⟨ix, hsub, ⟨s', c1 + (c2 + (c3 + c4)), by omega, fun p hp hq => ?_⟩, fun w hw => ?_, ?_⟩
  · refine (j1.peak p).bind <| (j2.peak p).bind <| (j3.peak p).bind ?_
    refine (j4 p hp).bind (d := 0) ?_
    refine (Peak.borrow (m := pure (normalizeMatrix (m.rows.take v.len))) (n := Mem.normSize v.len m.cols)
      (by rw [hv.len]; exact hq) rfl).free ?_
    exact Peak.of h
  · obtain ⟨sub, hs, hn⟩ := hn w hw
    refine ⟨sub, hs, ?_⟩
    exact Needs.after Limits.readFtHeader k1 <| Needs.after Limits.readFtCfg k2 <|
      Needs.after (Limits.readFtVocab _ _ _ _) k3 <| Needs.first hn
  · refine Needs.after Limits.readFtHeader k1 <| Needs.after Limits.readFtCfg k2 <|
      Needs.after (Limits.readFtVocab _ _ _ _) k3 <| Needs.held (Limits.readFtStorage _ _) k4 hh <| Needs.first ?_
    rw [← hv.len]
    exact Needs.borrow

end

/-! ### Text -/

section
variable {K : Type} [NumOps K] [NumText K]

theorem mem_loadTextLines (n : Nat) (file : Lines) (r c : Int) :
    (∃ e : Embeddings K, FF.loadTextLines file r c = .ok e ∧
      Mem.loadTextLines n file r c = if 4 * (e.storage.nRows * e.storage.nCols) +
        Mem.normSize e.storage.nRows e.storage.nCols ≤ n then .ok e else .error .memory) ∨
    ∃ x, (FF.loadTextLines file r c : Res (Embeddings K)) = .error x ∧
      (Mem.loadTextLines n file r c = (.error (.py x) : Except Stop (Embeddings K)) ∨
        Mem.loadTextLines n file r c = (.error .memory : Except Stop (Embeddings K))) := by
  unfold Mem.loadTextLines FF.loadTextLines
  cases h0 : zerosShape r c with
  | error x => exact .inr ⟨x, rfl, .inl rfl⟩
  | ok shape =>
    cases h1 : (textRows shape.2 file.stop shape.1 file.lines : Res (List (PyStr × List K))) with
    | error x =>
      refine .inr ⟨x, by rw [res_bind_ok, h1]; rfl, ?_⟩
      by_cases a1 : n < 4 * (shape.1 * shape.2)
      · exact .inr (by simp [Except.mapError, bind, Except.bind, a1])
      · exact .inl (by simp [Except.mapError, bind, Except.bind, a1, h1])
    | ok rs =>
      have hl := (textRows_lengths h1).1
      obtain ⟨raw, hraw⟩ : ∃ raw, raw = rs.map Prod.snd ++ List.replicate (shape.1 - rs.length)
          (List.replicate shape.2 (NumOps.zero : K)) := ⟨_, rfl⟩
      have hr : raw.length = shape.1 := by
        rw [hraw, List.length_append, List.length_map, List.length_replicate]
        omega
      cases h2 : Vocab.new (rs.map Prod.fst) none with
      | error x =>
        refine .inr ⟨x, by simp [bind, Except.bind, h1, h2], ?_⟩
        by_cases a1 : n < 4 * (shape.1 * shape.2)
        · exact .inr (by simp [Except.mapError, bind, Except.bind, a1])
        by_cases a2 : n - 4 * (shape.1 * shape.2) < Mem.normSize shape.1 shape.2
        · exact .inr (by simp [Except.mapError, bind, Except.bind, a1, a2, h1])
        · exact .inl (by simp [Except.mapError, bind, Except.bind, a1, a2, h1, h2])
      | ok v =>
        cases h3 : Embeddings.new (.nd ⟨shape.2, (normalizeMatrix raw).1⟩) v (some (normalizeMatrix raw).2) none with
        | error x =>
          refine .inr ⟨x, by simp [bind, Except.bind, h1, h2, ← hraw, h3], ?_⟩
          by_cases a1 : n < 4 * (shape.1 * shape.2)
          · exact .inr (by simp [Except.mapError, bind, Except.bind, a1])
          by_cases a2 : n - 4 * (shape.1 * shape.2) < Mem.normSize shape.1 shape.2
          · exact .inr (by simp [Except.mapError, bind, Except.bind, a1, a2, h1])
          · exact .inl (by simp [Except.mapError, bind, Except.bind, a1, a2, h1, h2, ← hraw, h3])
        | ok e =>
          refine .inl ⟨e, by simp [bind, Except.bind, h1, h2, ← hraw, h3], ?_⟩
          obtain ⟨e1, _⟩ := embNew_iff.mp h3
          have e2 : e.storage.nRows = shape.1 := by
            rw [e1]
            show (normalizeMatrix raw).1.length = _
            simp [normalizeMatrix, hr]
          have e3 : e.storage.nCols = shape.2 := by rw [e1]; rfl
          rw [e2, e3]
          by_cases a1 : n < 4 * (shape.1 * shape.2)
          · rw [if_neg (by omega)]
            simp [Except.mapError, bind, Except.bind, a1]
          by_cases a2 : n - 4 * (shape.1 * shape.2) < Mem.normSize shape.1 shape.2
          · rw [if_neg (by omega)]
            simp [Except.mapError, bind, Except.bind, a1, a2, h1]
          · rw [if_pos (by omega)]
            simp [Except.mapError, bind, Except.bind, a1, a2, h1, h2, ← hraw, h3]

/-- What `mem_loadTextLines` says of a loader with and one without a budget -/
def FitsIn (n : Nat) (l : Res (Embeddings K)) (m : Except Stop (Embeddings K)) : Prop :=
  (∃ e, l = .ok e ∧ m = if 4 * (e.storage.nRows * e.storage.nCols) +
    Mem.normSize e.storage.nRows e.storage.nCols ≤ n then .ok e else .error .memory) ∨
  ∃ x, l = .error x ∧ (m = .error (.py x) ∨ m = .error .memory)

theorem mem_loadTextDims [TextIO] (lossy : Bool) (n : Nat) (bs : Bytes) :
    FitsIn n (FF.loadTextDims lossy bs : Res (Embeddings K)) (Mem.loadTextDims lossy n bs) := by
  unfold Mem.loadTextDims FF.loadTextDims
  cases (textLines lossy bs).next with
  | error x => exact .inr ⟨x, rfl, .inl rfl⟩
  | ok o =>
    cases o with
    | none => exact .inr ⟨.stopIteration, rfl, .inl rfl⟩
    | some q =>
      obtain ⟨first, file⟩ := q
      show FitsIn n (twoInts first >>= _) ((twoInts first).mapError .py >>= _)
      cases twoInts first with
      | error x => exact .inr ⟨x, rfl, .inl rfl⟩
      | ok dims => exact mem_loadTextLines n file dims.1 dims.2

theorem mem_loadText [TextIO] (lossy : Bool) (n : Nat) (bs : Bytes) :
    FitsIn n (FF.loadText lossy bs : Res (Embeddings K)) (Mem.loadText lossy n bs) := by
  unfold Mem.loadText FF.loadText
  cases (textLines lossy bs).next with
  | error x => exact .inr ⟨x, rfl, .inl rfl⟩
  | ok o =>
    cases o with
    | none => exact .inr ⟨.valueError, rfl, .inl rfl⟩
    | some q =>
      obtain ⟨first, file⟩ := q
      show FitsIn n (file.all >>= _) (file.all.mapError .py >>= _)
      cases file.all with
      | error x => exact .inr ⟨x, rfl, .inl rfl⟩
      | ok lines => exact mem_loadTextLines n (textLines lossy bs) _ _

omit [NumOps K] [NumText K] in
theorem FitsIn.same {n : Nat} {l : Res (Embeddings K)} {m : Except Stop (Embeddings K)} (h : FitsIn n l m) :
    m = l.mapError .py ∨ m = .error .memory := by
  rcases h with ⟨e, h1, h2⟩ | ⟨x, h1, h2⟩
  · rw [h1, h2]
    split
    · exact .inl rfl
    · exact .inr rfl
  · rw [h1]
    exact h2

omit [NumOps K] [NumText K] in
theorem FitsIn.ok_iff {n : Nat} {l : Res (Embeddings K)} {m : Except Stop (Embeddings K)} (h : FitsIn n l m) (e : Embeddings K) :
    m = .ok e ↔ l = .ok e ∧ 4 * (e.storage.nRows * e.storage.nCols) +
      Mem.normSize e.storage.nRows e.storage.nCols ≤ n := by
  rcases h with ⟨e', h1, h2⟩ | ⟨x, h1, h2⟩
  · rw [h1, h2]
    constructor
    · intro h
      split at h
      · cases h; exact ⟨rfl, by assumption⟩
      · cases h
    · rintro ⟨h, h3⟩
      cases h
      rw [if_pos h3]
  · rw [h1]
    constructor
    · intro h
      rcases h2 with h2 | h2 <;> rw [h2] at h <;> cases h
    · rintro ⟨h, _⟩
      cases h

end

end FF
