import Verif.Lemmas.StepsCompat
/-!
# Exact numbers of steps
-/

namespace FF

variable {α β : Type}

/-- `l` takes exactly `c` steps. -/
def Exact (l : MRd α) (s : RFile) (a : α) (s' : RFile) (c : Nat) : Prop :=
  ∀ b, l (b, s) = if c ≤ b then .ok (a, (b - c, s')) else .error .memory

namespace Exact

theorem of {m : Rd α} {s s' : RFile} {a : α} (h : m s = .ok (a, s')) : Exact (MRd.of m) s a s' 0 := by
  intro b
  rw [if_pos (Nat.zero_le _)]
  exact Spends.of h b (Nat.zero_le _)

theorem request {n : Nat} {m : Rd α} {s s' : RFile} {a : α} (h : m s = .ok (a, s')) :
    Exact (MRd.request n m) s a s' n := by
  intro b
  split
  · exact Spends.request h b (by assumption)
  · unfold MRd.request
    rw [if_neg (by assumption)]

theorem pure (a : α) (s : RFile) : Exact (Pure.pure a) s a s 0 := by
  intro b
  rw [if_pos (Nat.zero_le _)]
  rfl

theorem bind {l : MRd α} {g : α → MRd β} {s s1 s2 : RFile} {a : α} {x : β} {c d : Nat} (h : Exact l s a s1 c)
    (hg : Exact (g a) s1 x s2 d) : Exact (l >>= g) s x s2 (c + d) := by
  intro b
  rw [mrd_bind, h b]
  by_cases h1 : c ≤ b
  · rw [if_pos h1]
    show g a (b - c, s1) = _
    rw [hg]
    by_cases h2 : c + d ≤ b
    · rw [if_pos h2, if_pos (by omega), Nat.sub_sub]
    · rw [if_neg h2, if_neg (by omega)]
  · rw [if_neg h1, if_neg (by omega)]

theorem step {m : Rd α} {g : α → MRd β} {s s1 s2 : RFile} {a : α} {x : β} {d : Nat} (h : m s = .ok (a, s1))
    (hg : Exact (g a) s1 x s2 d) : Exact (MRd.of m >>= g) s x s2 d := by
  have := bind (of h) hg
  rwa [Nat.zero_add] at this

theorem after {g : Unit → MRd β} {s s2 : RFile} {x : β} {n d : Nat}
    (hg : Exact (g ()) s x s2 d) : Exact (Steps.rounds n >>= g) s x s2 (n + d) :=
  bind (request (m := Pure.pure ()) rfl) hg

theorem run {l : MRd α} {bs : Bytes} {a : α} {s' : RFile} {c : Nat} (h : Exact l ⟨bs, 0⟩ a s' c) (M : Nat) :
    l.run M bs = if c ≤ M then .ok a else .error .memory := by
  unfold MRd.run
  rw [h M]
  by_cases hc : c ≤ M
  · rw [if_pos hc, if_pos hc]
  · rw [if_neg hc, if_neg hc]

theorem readItems {n : Nat} : ∀ {s s' : RFile} {ws : List PyStr}, FF.readItems n s = .ok (ws, s') →
    Exact (Steps.readItems n) s ws s' ws.length := by
  induction n with
  | zero =>
    intro s s' ws h
    cases h
    exact pure _ _
  | succ n ih =>
    intro s s' ws h
    unfold FF.readItems at h
    obtain ⟨l, s1, h1, h⟩ := rd_bind_inv h
    obtain ⟨b, s2, h2, h⟩ := rd_bind_inv h
    obtain ⟨w, s3, h3, h⟩ := rd_bind_inv h
    obtain ⟨rest, s4, h4, h5⟩ := rd_bind_inv h
    cases h5
    rw [List.length_cons, Nat.add_comm rest.length]
    refine after ?_
    exact step h1 <| step h2 <| step h3 <| bind (d := 0) (ih h4) (pure _ _)

theorem readItemsIdx {n : Nat} : ∀ {s s' : RFile} {ws : List (PyStr × Nat)}, FF.readItemsIdx n s = .ok (ws, s') →
    Exact (Steps.readItemsIdx n) s ws s' ws.length := by
  induction n with
  | zero =>
    intro s s' ws h
    cases h
    exact pure _ _
  | succ n ih =>
    intro s s' ws h
    unfold FF.readItemsIdx at h
    obtain ⟨l, s1, h1, h⟩ := rd_bind_inv h
    obtain ⟨b, s2, h2, h⟩ := rd_bind_inv h
    obtain ⟨w, s3, h3, h⟩ := rd_bind_inv h
    obtain ⟨i, s4, h4, h⟩ := rd_bind_inv h
    obtain ⟨rest, s5, h5, h6⟩ := rd_bind_inv h
    cases h6
    rw [List.length_cons, Nat.add_comm rest.length]
    refine after ?_
    exact step h1 <| step h2 <| step h3 <| step h4 <| bind (d := 0) (ih h5) (pure _ _)

theorem newVocab {ws : List PyStr} {sub : Option Indexer} {s s' : RFile} {v : Vocab}
    (h : Rd.lift (Vocab.new ws sub) s = .ok (v, s')) : Exact (Steps.newVocab ws sub) s v s' ws.length :=
  after (d := 0) (of h)

end Exact

/-- The number of n-grams a vocabulary stores -/
def storedNgrams (v : Vocab) : Nat :=
  match v.sub with
  | some (.expl ix) => ix.ngrams.length
  | _ => 0

theorem vocabNew_fields {ws : List PyStr} {sub : Option Indexer} {v : Vocab} (h : Vocab.new ws sub = .ok v) :
    v.words = ws ∧ v.sub = sub := by
  unfold Vocab.new at h
  obtain ⟨i, _, h⟩ := res_bind_inv h
  cases h
  exact ⟨rfl, rfl⟩

theorem explNew_ngrams {gs : List PyStr} {lo hi : Int} {d : Option (Dict PyStr Int)} {ix : ExplIndexer}
    (h : ExplIndexer.new gs lo hi d = .ok ix) : ix.ngrams = gs := by
  unfold ExplIndexer.new at h
  obtain ⟨_, _, h⟩ := res_bind_inv h
  obtain ⟨mn, _, h⟩ := res_bind_inv h
  obtain ⟨mx, _, h⟩ := res_bind_inv h
  cases d with
  | none =>
    obtain ⟨_, _, h⟩ := res_bind_inv h
    cases h
    rfl
  | some d =>
    obtain ⟨_, _, h⟩ := res_bind_inv h
    obtain ⟨_, _, h⟩ := res_bind_inv h
    obtain ⟨m, _, h⟩ := res_bind_inv h
    obtain ⟨_, _, h⟩ := res_bind_inv h
    cases h
    rfl

namespace Exact

theorem loadVocabPart {c : ChunkId} {s s' : RFile} {v : Vocab} (h : FF.loadVocabPart c s = .ok (v, s')) :
    Exact (Steps.loadVocabPart c) s v s' (2 * (v.words.length + storedNgrams v)) := by
  cases c with
  | simpleVocab =>
    unfold FF.loadVocabPart FF.readSimpleVocab at h
    obtain ⟨l, s1, h1, h⟩ := rd_bind_inv h
    obtain ⟨ws, s2, h2, h3⟩ := rd_bind_inv h
    obtain ⟨e1, e2⟩ := vocabNew_fields (rd_lift_inv h3).1
    have hs : storedNgrams v = 0 := by unfold storedNgrams; rw [e2]
    rw [hs, e1, Nat.add_zero, Nat.two_mul]
    exact step h1 <| bind (readItems h2) (newVocab h3)
  | bucketVocab =>
    unfold FF.loadVocabPart FF.readBucketVocab at h
    obtain ⟨xs, s1, h1, h⟩ := rd_bind_inv h
    refine step h1 ?_
    rcases xs with _ | ⟨a, _ | ⟨b, _ | ⟨c, _ | ⟨d, _ | ⟨_, _⟩⟩⟩⟩⟩
    all_goals try cases h
    obtain ⟨ws, s2, h2, h⟩ := rd_bind_inv h
    obtain ⟨ix, s3, h3, h4⟩ := rd_bind_inv h
    obtain ⟨e1, e2⟩ := vocabNew_fields (rd_lift_inv h4).1
    have hs : storedNgrams v = 0 := by unfold storedNgrams; rw [e2]
    rw [hs, e1, Nat.add_zero, Nat.two_mul]
    exact bind (readItems h2) <| step h3 (newVocab h4)
  | fastTextVocab =>
    unfold FF.loadVocabPart FF.readFastTextVocab at h
    obtain ⟨xs, s1, h1, h⟩ := rd_bind_inv h
    refine step h1 ?_
    rcases xs with _ | ⟨a, _ | ⟨b, _ | ⟨c, _ | ⟨d, _ | ⟨_, _⟩⟩⟩⟩⟩
    all_goals try cases h
    obtain ⟨ws, s2, h2, h⟩ := rd_bind_inv h
    obtain ⟨ix, s3, h3, h4⟩ := rd_bind_inv h
    obtain ⟨e1, e2⟩ := vocabNew_fields (rd_lift_inv h4).1
    have hs : storedNgrams v = 0 := by unfold storedNgrams; rw [e2]
    rw [hs, e1, Nat.add_zero, Nat.two_mul]
    exact bind (readItems h2) <| step h3 (newVocab h4)
  | explicitVocab =>
    unfold FF.loadVocabPart FF.readExplicitVocab at h
    obtain ⟨xs, s1, h1, h⟩ := rd_bind_inv h
    refine step h1 ?_
    rcases xs with _ | ⟨a, _ | ⟨b, _ | ⟨c, _ | ⟨d, _ | ⟨_, _⟩⟩⟩⟩⟩
    all_goals try cases h
    obtain ⟨ws, s2, h2, h⟩ := rd_bind_inv h
    obtain ⟨items, s3, h3, h⟩ := rd_bind_inv h
    obtain ⟨ix, s4, h4, h5⟩ := rd_bind_inv h
    obtain ⟨e1, e2⟩ := vocabNew_fields (rd_lift_inv h5).1
    have hg : ix.ngrams = items.map Prod.fst := by
      exact explNew_ngrams (rd_lift_inv h4).1
    have hs : storedNgrams v = items.length := by
      unfold storedNgrams
      rw [e2]
      simp only [hg, List.length_map]
    rw [hs, e1, show 2 * (ws.length + items.length) = ws.length + (items.length + ((items.map Prod.fst).length + ws.length)) by
      rw [List.length_map]; omega]
    refine bind (readItems h2) <| bind (readItemsIdx h3) <| bind (s1 := s4) (a := ix) (after (d := 0) (of h4)) (newVocab h5)
  | _ => cases h

theorem loadFinalfusion {T : Toml} {mmap : Bool} {s s' : RFile} {e : Embeddings F32}
    (h : FF.loadFinalfusion T mmap s = .ok (e, s')) :
    Exact (Steps.loadFinalfusion T mmap) s e s' (2 * (e.vocab.words.length + storedNgrams e.vocab)) := by
  unfold FF.loadFinalfusion at h
  obtain ⟨_, s1, h1, h⟩ := rd_bind_inv h
  obtain ⟨⟨c, md⟩, s2, h2, h⟩ := rd_bind_inv h
  obtain ⟨v, s3, h3, h⟩ := rd_bind_inv h
  obtain ⟨st, s4, h4, h⟩ := rd_bind_inv h
  obtain ⟨ns, s5, h5, h⟩ := rd_bind_inv h
  obtain ⟨e1, _⟩ := embNew_iff.mp (rd_lift_inv h).1
  have e2 : e.vocab = v := by rw [e1]
  rw [e2]
  have h' : (fun p : ChunkId × Option Meta => p) (c, md) = (c, md) := rfl
  refine step h1 <| step h2 <| bind (d := 0) (loadVocabPart h3) ?_
  exact step h4 <| step h5 <| of h

end Exact

section
variable {K : Type} [NumOps K] [Codec K]

omit [NumOps K] in
theorem exact_w2vRows {lossy : Bool} {cols n : Nat} : ∀ {s s' : RFile} {rs : List (PyStr × List K)},
    FF.w2vRows lossy cols n s = .ok (rs, s') → ∃ c, 2 * rs.length ≤ c ∧ Exact (Steps.w2vRows lossy cols n) s rs s' c := by
  induction n with
  | zero =>
    intro s s' rs h
    cases h
    exact ⟨0, by simp, .pure _ _⟩
  | succ n ih =>
    intro s s' rs h
    unfold FF.w2vRows at h
    obtain ⟨b, s1, h1, h⟩ := rd_bind_inv h
    obtain ⟨w, s2, h2, h⟩ := rd_bind_inv h
    obtain ⟨xs, s3, h3, h⟩ := rd_bind_inv h
    obtain ⟨r, s4, h4, h⟩ := rd_bind_inv h
    obtain ⟨rest, s5, h5, h6⟩ := rd_bind_inv h
    obtain ⟨c, hc, hx⟩ := ih h5
    cases h6
    have hd : ∃ l, 1 ≤ l ∧ Exact (Steps.readDelim 32) s b s1 l :=
      ⟨((takeUntil 32 (s.data.drop s.pos)).getD (s.data.drop s.pos)).length + 1, Nat.le_add_left _ _, fun m =>
        Exact.request h1 m⟩
    obtain ⟨l, hl, hd⟩ := hd
    refine ⟨1 + (l + (c + 0)), ?_, ?_⟩
    rotate_left
    · refine .after ?_
      exact .bind hd <| .step h2 <| .step h3 <| .step h4 <| .bind (d := 0) hx (.pure _ _)
    · rw [List.length_cons]
      omega

theorem exact_loadWord2vec {lossy : Bool} {s s' : RFile} {e : Embeddings K} (h : FF.loadWord2vec lossy s = .ok (e, s')) :
    ∃ c, 3 * e.vocab.words.length ≤ c ∧ Exact (Steps.loadWord2vec lossy) s e s' c := by
  unfold FF.loadWord2vec at h
  obtain ⟨line, t1, k1, h⟩ := rd_bind_inv h
  obtain ⟨header, t2, k2, h⟩ := rd_bind_inv h
  obtain ⟨dims, t3, k3, h⟩ := rd_bind_inv h
  obtain ⟨shape, t4, k4, h⟩ := rd_bind_inv h
  obtain ⟨rows, t5, k5, h⟩ := rd_bind_inv h
  obtain ⟨v, t6, k6, h⟩ := rd_bind_inv h
  obtain ⟨e1, _⟩ := embNew_iff.mp (rd_lift_inv h).1
  obtain ⟨e2, _⟩ := vocabNew_fields (rd_lift_inv k6).1
  obtain ⟨c, hc, hx⟩ := exact_w2vRows k5
  have e3 : e.vocab.words.length = rows.length := by
    rw [e1]
    show v.words.length = _
    rw [e2, List.length_map]
  refine ⟨c + ((rows.map Prod.fst).length + 0), by rw [List.length_map]; omega, ?_⟩
  exact .step k1 <| .step k2 <| .step k3 <| .step k4 <| .bind hx <| .bind (.newVocab k6) <| .of h

end

end FF
