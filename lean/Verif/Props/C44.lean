import Verif.Lemmas.TextFile
import Verif.Lemmas.Utf8Lossy
import Verif.Props.C42
import Verif.Props.C40
/-! C44: lossy decoding. -/

namespace FF

/-! ### Readers that do not raise `UnicodeDecodeError` -/

/-- `lossy` is what `strict` is, unless `strict` raises `UnicodeDecodeError`; `lossy` does not. -/
def Agree {α : Type} (strict lossy : Res α) : Prop :=
  (strict = .error .unicodeDecodeError ∨ lossy = strict) ∧ lossy ≠ .error .unicodeDecodeError

theorem Agree.refl {α : Type} {r : Res α} (h : r ≠ .error .unicodeDecodeError) : Agree r r :=
  ⟨.inr rfl, h⟩

theorem Agree.ok {α : Type} (a : α) : Agree (.ok a) (.ok a) := .refl (by intro h; cases h)

theorem Agree.error {α : Type} {e : PyErr} (h : e ≠ .unicodeDecodeError) :
    Agree (.error e : Res α) (.error e) := .refl (by intro h'; exact h (Except.error.inj h'))

theorem Agree.bind {α β : Type} {r r' : Res α} {f f' : α → Res β} (h : Agree r r')
    (hf : ∀ a, Agree (f a) (f' a)) : Agree (r >>= f) (r' >>= f') := by
  obtain ⟨h1, h2⟩ := h
  rcases h1 with rfl | rfl
  · refine ⟨.inl rfl, ?_⟩
    cases r' with
    | error e => exact fun h => h2 (by cases h; rfl)
    | ok a => exact (hf a).2
  · cases r' with
    | error e =>
      refine ⟨.inr rfl, fun h => h2 ?_⟩
      cases h
      rfl
    | ok a => exact hf a

/-- The same for readers. -/
def RAgree {α : Type} (strict lossy : Rd α) : Prop := ∀ s, Agree (strict s) (lossy s)

theorem RAgree.bind {α β : Type} {m m' : Rd α} {f f' : α → Rd β} (h : RAgree m m')
    (hf : ∀ a, RAgree (f a) (f' a)) : RAgree (m >>= f) (m' >>= f') := by
  intro s
  rw [show (m >>= f) s = (m s >>= fun p => f p.1 p.2) from rfl,
    show (m' >>= f') s = (m' s >>= fun p => f' p.1 p.2) from rfl]
  exact (h s).bind fun p => hf p.1 p.2

theorem RAgree.pure {α : Type} (a : α) : RAgree (Pure.pure a : Rd α) (Pure.pure a) := fun _ => .ok _

theorem RAgree.lift {α : Type} {r r' : Res α} (h : Agree r r') : RAgree (Rd.lift r) (Rd.lift r') := by
  intro s
  have : ∀ r : Res α, Rd.lift r s = (r >>= fun a => .ok (a, s)) := by
    intro r; cases r <;> rfl
  rw [this, this]
  exact h.bind fun _ => .ok _

theorem RAgree.fail {α : Type} {e : PyErr} (h : e ≠ .unicodeDecodeError) :
    RAgree (Rd.fail e : Rd α) (Rd.fail e) := fun _ => .error h

theorem RAgree.run {α : Type} {m m' : Rd α} (h : RAgree m m') (bs : Bytes) :
    Agree (Rd.run m bs) (Rd.run m' bs) := by
  have : ∀ m : Rd α, Rd.run m bs = (m ⟨bs, 0⟩ >>= fun p => .ok p.1) := by
    intro m
    unfold Rd.run
    cases m ⟨bs, 0⟩ <;> rfl
  rw [this, this]
  exact (h _).bind fun _ => .ok _

theorem RAgree.ite {α : Type} {c : Prop} [Decidable c] {a a' b b' : Rd α} (h : RAgree a a')
    (h' : RAgree b b') : RAgree (if c then a else b) (if c then a' else b') := by
  by_cases hc : c
  · rwa [if_pos hc, if_pos hc]
  · rwa [if_neg hc, if_neg hc]

theorem Agree.ite {α : Type} {c : Prop} [Decidable c] {a a' b b' : Res α} (h : Agree a a')
    (h' : Agree b b') : Agree (if c then a else b) (if c then a' else b') := by
  by_cases hc : c
  · rwa [if_pos hc, if_pos hc]
  · rwa [if_neg hc, if_neg hc]

/-- `if c: raise …` -/
theorem RAgree.guard {α : Type} {c : Prop} [Decidable c] {e : PyErr} {a a' : Rd α}
    (he : e ≠ .unicodeDecodeError) (h : RAgree a a') :
    RAgree (if c then (Rd.fail e : Rd Unit) >>= fun _ => a else a)
      (if c then (Rd.fail e : Rd Unit) >>= fun _ => a' else a') :=
  .ite (.bind (.fail he) fun _ => h) h

theorem decode_errors {bs : Bytes} : ∀ {k : Nat} {e : PyErr}, decodeAux k bs = .error e →
    e = .unicodeDecodeError := by
  induction bs with
  | nil => intro k e h; cases k <;> cases h
  | cons b bs ih =>
    intro k e h
    cases k with
    | succ k => exact ih h
    | zero =>
      simp only [decodeAux] at h
      split at h
      · split at h
        · cases h
        · rename_i h'
          cases h
          exact ih h'
      · cases h; rfl

theorem decodeLossy_agree (bs : Bytes) : Agree (decodeLossy false bs) (decodeLossy true bs) := by
  unfold decodeLossy
  refine ⟨?_, by intro h; cases h⟩
  simp only [Bool.false_eq_true, if_false, if_true]
  cases h : decode bs with
  | ok s => exact .inr (by rw [decodeReplace_eq h])
  | error e => exact .inl (by rw [decode_errors h])

theorem readBinary_agree (ws : List Nat) : RAgree (readBinary ws) (readBinary ws) := by
  unfold readBinary
  refine .bind ?_ fun buf => ?_
  · intro s
    unfold read
    exact .ite (.ok _) (.error (by decide))
  · exact .ite (.pure _) (.guard (by decide) (.pure _))

theorem readRequired_agree (ws : List Nat) : RAgree (readRequired ws) (readRequired ws) := by
  unfold readRequired
  refine .bind (readBinary_agree ws) fun o => ?_
  cases o with
  | none => exact .fail (by decide)
  | some v => exact .pure _

theorem readOne_agree (w : Nat) : RAgree (readOne w) (readOne w) := by
  unfold readOne
  refine .bind (readRequired_agree _) fun o => ?_
  split
  · exact .pure _
  · exact .fail (by decide)

theorem readSigned_agree (ws : List Nat) : RAgree (readSigned ws) (readSigned ws) := by
  unfold readSigned
  exact .bind (readRequired_agree _) fun _ => .pure _

theorem readDelim_agree (d : UInt8) : RAgree (readDelim d) (readDelim d) := by
  intro s
  unfold readDelim
  cases takeUntil d (s.data.drop s.pos) with
  | none => exact .error (by decide)
  | some w => exact .ok _

theorem fromFileF32_agree (n : Nat) : RAgree (fromFileF32 n) (fromFileF32 n) := by
  intro s
  unfold fromFileF32
  refine .ite ?_ (.ite (.error (by decide)) (.error (by decide)))
  simp only
  exact .ite (.ok _) (.ok _)

theorem fromFileInt_agree (n : Int) : RAgree (fromFileInt n) (fromFileInt n) := by
  intro s
  unfold fromFileInt
  exact .ite (fromFileF32_agree _ s) (.ite (.ok _) (.error (by decide)))

theorem pyAssert_agree (c : Bool) : Agree (pyAssert c) (pyAssert c) := by
  unfold pyAssert
  exact .ite (.ok _) (.error (by decide))

theorem vocabNew_agree (ws : List PyStr) (sub : Option Indexer) :
    Agree (Vocab.new ws sub) (Vocab.new ws sub) := by
  unfold Vocab.new validateItems
  refine .bind ?_ fun _ => .ok _
  exact .bind (pyAssert_agree _) fun _ => .bind (pyAssert_agree _) fun _ => .ok _

theorem mapRes_agree {α β : Type} {f : α → Res β} (h : ∀ x, Agree (f x) (f x)) :
    ∀ xs, Agree (mapRes f xs) (mapRes f xs)
  | [] => .ok _
  | x :: xs => by
    unfold mapRes
    exact .bind (h x) fun _ => .bind (mapRes_agree h xs) fun _ => .ok _

theorem npIndex_agree (n : Nat) (i : Int) : Agree (npIndex n i) (npIndex n i) := by
  unfold npIndex
  exact .ite (.ok _) (.ite (.ok _) (.error (by decide)))

theorem npGet_agree {α : Type} (xs : List α) (i : Int) : Agree (npGet xs i) (npGet xs i) := by
  unfold npGet
  refine .bind (npIndex_agree _ _) fun j => ?_
  cases xs[j]? with
  | none => exact .error (by decide)
  | some x => exact .ok _

theorem embNew_agree {K : Type} (s : Storage K) (v : Vocab) (n : Option (List K)) (md : Option Meta) :
    Agree (Embeddings.new s v n md) (Embeddings.new s v n md) := by
  unfold Embeddings.new checkRequirements
  refine .bind ?_ fun _ => .ok _
  refine .bind (pyAssert_agree _) fun _ => ?_
  cases n with
  | none => exact .ok _
  | some n =>
    unfold normsCompat
    exact .bind (pyAssert_agree _) fun _ => pyAssert_agree _

theorem assignRow_agree {K : Type} (cols : Nat) (xs : List K) :
    Agree (assignRow cols xs) (assignRow cols xs) := by
  unfold assignRow
  refine .ite (.ok _) ?_
  split
  · exact .ok _
  · exact .error (by decide)

theorem zerosShape_agree (r c : Int) : Agree (zerosShape r c) (zerosShape r c) := by
  unfold zerosShape
  exact .ite (.error (by decide)) (.ok _)

theorem pyInt_agree (s : PyStr) : Agree (pyInt s) (pyInt s) := by
  refine .refl fun h => ?_
  unfold pyInt at h
  simp only at h
  have key : ∀ (neg : Bool) (cs : PyStr), (match parseDigits false 0 cs with
      | some n => (.ok (if neg then -(n : Int) else n) : Res Int)
      | none => .error .valueError) ≠ .error .unicodeDecodeError := by
    intro neg cs
    cases parseDigits false 0 cs <;> (intro h; cases h)
  split at h
  · cases h
  · split at h
    · exact key true _ h
    · split at h
      · exact key false _ h
      · exact key false _ h

theorem twoInts_agree (s : PyStr) : Agree (twoInts s) (twoInts s) := by
  unfold twoInts
  split
  · exact .bind (pyInt_agree _) fun _ => .bind (pyInt_agree _) fun _ => .ok _
  · exact .error (by decide)

theorem toU32_agree (n : Int) : Agree (toU32 n) (toU32 n) := by
  unfold toU32
  exact .ite (.ok _) (.error (by decide))

theorem ftNew_agree (b mn mx : Int) : Agree (FtIndexer.new b mn mx) (FtIndexer.new b mn mx) := by
  unfold FtIndexer.new
  exact .bind (pyAssert_agree _) fun _ => .bind (pyAssert_agree _) fun _ =>
    .bind (toU32_agree _) fun _ => .bind (toU32_agree _) fun _ => .ok _

theorem indices_agree (v : Vocab) (ix : Indexer) (w : PyStr) :
    Agree (v.subwordIndices ix w) (v.subwordIndices ix w) := by
  unfold Vocab.subwordIndices Indexer.indices
  cases ix with
  | fifu ix => exact .ok _
  | ft ix =>
    refine .bind ?_ fun _ => .ok _
    unfold FtIndexer.indices FtIndexer.subwordLoop
    refine .bind ?_ fun _ => .ok _
    unfold encode
    exact .ite (.error (by decide)) (.ok _)
  | expl ix => exact .ok _

section
variable {K : Type} [NumOps K]

theorem precompute_agree (v : Vocab) (ix : Indexer) (cols : Nat) : ∀ (ws : List PyStr) (i : Nat)
    (rows : List (List K)), Agree (precomputeWords v ix cols i ws rows) (precomputeWords v ix cols i ws rows)
  | [], _, _ => .ok _
  | w :: ws, i, rows => by
    unfold precomputeWords
    refine .bind (indices_agree _ _ _) fun _ => .bind (mapRes_agree (npGet_agree _) _) fun _ => ?_
    refine .bind ?_ fun _ => precompute_agree v ix cols ws _ _
    unfold npSet
    exact .bind (npIndex_agree _ _) fun _ => .ok _

omit [NumOps K] in
theorem reshapeInt_agree (r c : Int) (xs : List K) :
    Agree (reshapeInt r c xs) (reshapeInt r c xs) := by
  have key : ∀ r c, Agree (reshape2 4 r c xs) (reshape2 4 r c xs) := by
    intro r c
    unfold reshape2
    exact .ite (.ok _) (.error (by decide))
  unfold reshapeInt
  exact .ite (.ite (.error (by decide)) (key _ _))
    (.ite (.ite (.error (by decide)) (key _ _)) (key _ _))

section
variable [Codec K]

omit [NumOps K] in
theorem w2vRows_agree (cols : Nat) : ∀ n,
    RAgree (w2vRows false cols n : Rd (List (PyStr × List K))) (w2vRows true cols n)
  | 0 => .pure _
  | n + 1 => by
    unfold w2vRows
    exact .bind (readDelim_agree _) fun bs => .bind (.lift (decodeLossy_agree bs)) fun _ =>
      .bind (fromFileF32_agree _) fun _ => .bind (.lift (assignRow_agree _ _)) fun _ =>
      .bind (w2vRows_agree cols n) fun _ => .pure _

theorem readFtStorage_agree (v : Vocab) (ix : FtIndexer) :
    RAgree (readFtStorage v ix : Rd (Mat K)) (readFtStorage v ix) := by
  unfold readFtStorage
  refine .bind (readOne_agree _) fun _ => .guard (by decide) ?_
  refine .bind (readSigned_agree _) fun vs => ?_
  split
  · exact .bind (fromFileInt_agree _) fun _ => .bind (.lift (reshapeInt_agree _ _ _)) fun _ =>
      .bind (.lift (precompute_agree _ _ _ _ _ _)) fun _ => .pure _
  · exact .fail (by decide)

theorem readFtWord_agree : RAgree (readFtWord false) (readFtWord true) := by
  unfold readFtWord
  exact .bind (readDelim_agree _) fun w => .bind (readOne_agree _) fun _ =>
    .bind (readOne_agree _) fun _ => .guard (by decide) (.lift (decodeLossy_agree w))

theorem readFtWords_agree : ∀ n, RAgree (readFtWords false n) (readFtWords true n)
  | 0 => .pure _
  | n + 1 => by
    unfold readFtWords
    exact .bind readFtWord_agree fun _ => .bind (readFtWords_agree n) fun _ => .pure _

theorem readFtVocab_agree (b mn mx : Int) :
    RAgree (readFtVocab b mn mx false) (readFtVocab b mn mx true) := by
  unfold readFtVocab
  refine .bind (readSigned_agree _) fun vs => ?_
  split
  · exact .guard (by decide) (.bind (readOne_agree _) fun _ =>
      .bind (readOne_agree _) fun _ => .guard (by decide) (
      .bind (readFtWords_agree _) fun _ => .bind (.lift (ftNew_agree _ _ _)) fun _ =>
      .bind (.lift (vocabNew_agree _ _)) fun _ => .pure _))
  · exact .fail (by decide)

theorem loadFasttext_agree : RAgree (loadFasttext false : Rd (Embeddings K)) (loadFasttext true) := by
  unfold loadFasttext
  refine .bind ?_ fun _ => .bind ?_ fun cfg => .bind (readFtVocab_agree _ _ _) fun p => ?_
  · unfold readFtHeader
    refine .bind (readSigned_agree _) fun vs => ?_
    split
    · exact .guard (by decide) (.ite (.fail (by decide)) (.pure _))
    · exact .fail (by decide)
  · unfold readFtCfg
    refine .bind (readRequired_agree _) fun vs => ?_
    split
    · exact .bind (.lift (npGet_agree _ _)) fun _ => .bind (.lift (npGet_agree _ _)) fun _ => .pure _
    · exact .fail (by decide)
  · exact .bind (readFtStorage_agree _ _) fun m => .lift (embNew_agree _ _ _ _)

/-- The bytes of the first line. -/
theorem takeLine_mem (bs : Bytes) (b : UInt8) (hb : b ≠ 10) :
    b ∈ takeLine bs ↔ b ∈ bs.takeWhile (· ≠ 10) := by
  induction bs with
  | nil => simp [takeLine]
  | cons c cs ih =>
    unfold takeLine
    by_cases hc : c = 10
    · subst hc; simp [hb]
    · rw [if_neg hc, List.takeWhile_cons_of_pos (by simpa using hc), List.mem_cons, List.mem_cons, ih]

theorem decodeAscii_error {l : Bytes} :
    (decodeAscii l = .error .unicodeDecodeError ↔ ∃ b ∈ l, 128 ≤ b.toNat) ∧
    ∀ e, decodeAscii l = .error e → e = .unicodeDecodeError := by
  induction l with
  | nil => simp [decodeAscii]
  | cons b l ih =>
    unfold decodeAscii
    by_cases hb : b.toNat < 128
    · rw [if_pos hb]
      cases hd : decodeAscii l with
      | ok s =>
        rw [hd] at ih
        refine ⟨⟨fun h => (by cases h), ?_⟩, fun e h => (by cases h)⟩
        rintro ⟨c, hc, h⟩
        rcases List.mem_cons.mp hc with rfl | hc
        · omega
        · have := ih.1.mpr ⟨c, hc, h⟩
          cases this
      | error e =>
        rw [hd] at ih
        have := ih.2 e rfl
        subst this
        refine ⟨⟨fun _ => ?_, fun _ => rfl⟩, fun e h => by cases h; rfl⟩
        obtain ⟨c, hc, h⟩ := ih.1.mp rfl
        exact ⟨c, List.mem_cons_of_mem _ hc, h⟩
    · rw [if_neg hb]
      exact ⟨⟨fun _ => ⟨b, List.mem_cons_self .., by omega⟩, fun _ => rfl⟩, fun e h => by cases h; rfl⟩

/-- `load_word2vec` after the first line -/
def w2vBody (lossy : Bool) (header : PyStr) : Rd (Embeddings K) := do
  let dims ← Rd.lift (twoInts header)
  let shape ← Rd.lift (zerosShape dims.1 dims.2)
  let rows ← w2vRows lossy shape.2 shape.1
  let vocab ← Rd.lift (Vocab.new (rows.map Prod.fst) none)
  Rd.lift (Embeddings.new (.nd ⟨shape.2, (normalizeMatrix (rows.map Prod.snd)).1⟩) vocab
    (some (normalizeMatrix (rows.map Prod.snd)).2) none)

theorem w2v_body_agree (header : PyStr) :
    RAgree (w2vBody false header : Rd (Embeddings K)) (w2vBody true header) := by
  unfold w2vBody
  exact .bind (.lift (twoInts_agree _)) fun _ => .bind (.lift (zerosShape_agree _ _)) fun _ =>
    .bind (w2vRows_agree _ _) fun _ => .bind (.lift (vocabNew_agree _ _)) fun _ =>
    .lift (embNew_agree _ _ _ _)

theorem loadWord2vec_body (lossy : Bool) (bs : Bytes) :
    Rd.run (loadWord2vec lossy : Rd (Embeddings K)) bs =
      match decodeAscii (takeLine bs) with
      | .ok h => Rd.run (fun _ => w2vBody lossy h ⟨bs, (takeLine bs).length⟩) bs
      | .error e => .error e := by
  have : (loadWord2vec lossy : Rd (Embeddings K)) ⟨bs, 0⟩ =
      (Rd.lift (decodeAscii (takeLine bs)) >>= w2vBody lossy) ⟨bs, 0 + (takeLine bs).length⟩ := rfl
  unfold Rd.run
  rw [this, Nat.zero_add]
  cases decodeAscii (takeLine bs) <;> rfl

/-- word2vec: unless strict loading raises `UnicodeDecodeError`, both modes do the same. -/
theorem C44_word2vec_same (bs : Bytes)
    (h : Rd.run (loadWord2vec false : Rd (Embeddings K)) bs ≠ .error .unicodeDecodeError) :
    Rd.run (loadWord2vec true) bs = Rd.run (loadWord2vec false : Rd (Embeddings K)) bs := by
  rw [loadWord2vec_body] at h ⊢
  rw [loadWord2vec_body]
  cases hd : decodeAscii (takeLine bs) with
  | error e => rfl
  | ok hdr =>
    rw [hd] at h
    have := RAgree.run (m := fun _ => w2vBody false hdr ⟨bs, (takeLine bs).length⟩)
      (m' := fun _ => (w2vBody true hdr ⟨bs, (takeLine bs).length⟩ : Res (Embeddings K × RFile)))
      (fun _ => w2v_body_agree hdr _) bs
    exact this.1.resolve_left h

/-- word2vec: lossy loading raises `UnicodeDecodeError` only for the line with the dimensions, if
that is not ASCII. -/
theorem C44_word2vec_lossy (bs : Bytes) :
    Rd.run (loadWord2vec true : Rd (Embeddings K)) bs = .error .unicodeDecodeError ↔
      ∃ b ∈ bs.takeWhile (· ≠ 10), 128 ≤ b.toNat := by
  have hm : (∃ b ∈ bs.takeWhile (· ≠ 10), 128 ≤ b.toNat) ↔ ∃ b ∈ takeLine bs, 128 ≤ b.toNat := by
    constructor
    · rintro ⟨b, hb, h⟩
      exact ⟨b, (takeLine_mem bs b (by rintro rfl; simp at h)).mpr hb, h⟩
    · rintro ⟨b, hb, h⟩
      exact ⟨b, (takeLine_mem bs b (by rintro rfl; simp at h)).mp hb, h⟩
  rw [hm, ← decodeAscii_error.1, loadWord2vec_body]
  cases hd : decodeAscii (takeLine bs) with
  | error e => rw [decodeAscii_error.2 e hd]; simp
  | ok hdr =>
    have := RAgree.run (m := fun _ => w2vBody false hdr ⟨bs, (takeLine bs).length⟩)
      (m' := fun _ => (w2vBody true hdr ⟨bs, (takeLine bs).length⟩ : Res (Embeddings K × RFile)))
      (fun _ => w2v_body_agree hdr _) bs
    exact ⟨fun h => absurd h this.2, fun h => by cases h⟩

/-- fastText: unless strict loading raises `UnicodeDecodeError`, both modes do the same. -/
theorem C44_fasttext_same (bs : Bytes)
    (h : Rd.run (loadFasttext false : Rd (Embeddings K)) bs ≠ .error .unicodeDecodeError) :
    Rd.run (loadFasttext true) bs = Rd.run (loadFasttext false : Rd (Embeddings K)) bs :=
  (RAgree.run loadFasttext_agree bs).1.resolve_left h

/-- fastText: lossy loading never raises `UnicodeDecodeError`. -/
theorem C44_fasttext_lossy (bs : Bytes) :
    Rd.run (loadFasttext true : Rd (Embeddings K)) bs ≠ .error .unicodeDecodeError :=
  (RAgree.run loadFasttext_agree bs).2

end

section
variable [NumText K]

omit [NumOps K] in
theorem textRows_no_ude (hp : ∀ s, (NumText.parse s : Res K) ≠ .error .unicodeDecodeError) (cols : Nat) :
    ∀ (n : Nat) (ls : List PyStr),
      (textRows cols none n ls : Res (List (PyStr × List K))) ≠ .error .unicodeDecodeError
  | 0, ls => by
    rw [textRows.eq_def]
    intro h
    cases h
  | n + 1, [] => by
    intro h
    cases h
  | n + 1, l :: ls => by
    rw [textRows]
    refine (Agree.bind (r := textRow cols l) (f := fun r => (textRows cols none n ls).bind fun rs =>
      .ok (r :: rs)) ?_ fun _ => .bind (.refl (textRows_no_ude hp cols n ls)) fun _ => .ok _).2
    unfold textRow
    split
    · exact .error (by decide)
    · exact .bind (mapRes_agree (fun s => .refl (hp s)) _) fun _ =>
        .bind (assignRow_agree _ _) fun _ => .ok _

omit [NumOps K] in
theorem textRows_agree (hp : ∀ s, (NumText.parse s : Res K) ≠ .error .unicodeDecodeError) (cols : Nat)
    {stop : Option PyErr} (more : List PyStr)
    (hs : stop = some .unicodeDecodeError ∨ (stop = none ∧ more = [])) :
    ∀ (n : Nat) (ls : List PyStr),
      Agree (textRows cols stop n ls : Res (List (PyStr × List K))) (textRows cols none n (ls ++ more))
  | 0, ls => by
    rw [textRows.eq_def, textRows.eq_def]
    exact .ok _
  | n + 1, [] => by
    rcases hs with rfl | ⟨rfl, rfl⟩
    · exact ⟨.inl rfl, textRows_no_ude hp cols _ _⟩
    · exact .ok _
  | n + 1, l :: ls => by
    rw [List.cons_append, textRows, textRows]
    refine .bind ?_ fun _ => .bind (textRows_agree hp cols more hs n ls) fun _ => .ok _
    unfold textRow
    split
    · exact .error (by decide)
    · exact .bind (mapRes_agree (fun s => .refl (hp s)) _) fun _ =>
        .bind (assignRow_agree _ _) fun _ => .ok _

theorem loadTextLines_agree (hp : ∀ s, (NumText.parse s : Res K) ≠ .error .unicodeDecodeError)
    {stop : Option PyErr} {ls more : List PyStr}
    (hs : stop = some .unicodeDecodeError ∨ (stop = none ∧ more = [])) (r c : Int) :
    Agree (loadTextLines ⟨ls, stop⟩ r c : Res (Embeddings K)) (loadTextLines ⟨ls ++ more, none⟩ r c) := by
  unfold loadTextLines
  exact .bind (zerosShape_agree _ _) fun _ => .bind (textRows_agree hp _ _ hs _ _) fun _ =>
    .bind (vocabNew_agree _ _) fun _ => embNew_agree _ _ _ _

/-- Text formats: unless strict loading raises `UnicodeDecodeError`, both modes do the same; lossy
loading never raises it (given that parsing numbers does not). -/
theorem C44_text [TextIO] (hp : ∀ s, (NumText.parse s : Res K) ≠ .error .unicodeDecodeError) (bs : Bytes) :
    ((loadText false bs : Res (Embeddings K)) ≠ .error .unicodeDecodeError →
      (loadText true bs : Res (Embeddings K)) = loadText false bs) ∧
    (loadText true bs : Res (Embeddings K)) ≠ .error .unicodeDecodeError := by
  have : Agree (loadText false bs : Res (Embeddings K)) (loadText true bs) := by
    obtain ⟨ls, stop, hy⟩ := yields_total false bs
    have key : ∀ ms, Yields true bs ms none →
        (loadText true bs : Res (Embeddings K)) ≠ .error .unicodeDecodeError := by
      intro ms hm
      rw [loadText_yields hm]
      cases ms with
      | nil => intro h; cases h
      | cons l ms =>
        have := (loadTextLines_agree (K := K) hp (stop := none) (ls := l :: ms) (more := [])
          (.inr ⟨rfl, rfl⟩) ((ms.length + 1 : Nat) : Int) (((reSplit (rstrip l)).length - 1 : Nat) : Int)).2
        rw [List.append_nil] at this
        exact this
    rcases yields_lossy hy with ⟨rfl, h⟩ | ⟨rfl, more, h⟩
    · refine ⟨.inr ?_, key _ h⟩
      rw [loadText_yields h, loadText_yields hy]
    · refine ⟨.inl ?_, key _ h⟩
      rw [loadText_yields hy]
  exact ⟨fun h => this.1.resolve_left h, this.2⟩

theorem C44_text_dims [TextIO] (hp : ∀ s, (NumText.parse s : Res K) ≠ .error .unicodeDecodeError) (bs : Bytes) :
    ((loadTextDims false bs : Res (Embeddings K)) ≠ .error .unicodeDecodeError →
      (loadTextDims true bs : Res (Embeddings K)) = loadTextDims false bs) ∧
    (loadTextDims true bs : Res (Embeddings K)) ≠ .error .unicodeDecodeError := by
  have : Agree (loadTextDims false bs : Res (Embeddings K)) (loadTextDims true bs) := by
    obtain ⟨ls, stop, hy⟩ := yields_total false bs
    rw [loadTextDims_yields hy]
    rcases yields_lossy hy with ⟨rfl, h⟩ | ⟨rfl, more, h⟩
    · rw [loadTextDims_yields h]
      cases ls with
      | nil => exact .error (by decide)
      | cons l ls =>
        refine .bind (twoInts_agree _) fun d => ?_
        have := loadTextLines_agree (K := K) hp (stop := none) (ls := ls) (more := []) (.inr ⟨rfl, rfl⟩) d.1 d.2
        rw [List.append_nil] at this
        exact this
    · rw [loadTextDims_yields h]
      cases ls with
      | nil =>
        refine ⟨.inl rfl, ?_⟩
        cases more with
        | nil => intro h; cases h
        | cons l more =>
          refine (Agree.bind (f := fun d => loadTextLines ⟨more, none⟩ d.1 d.2) (twoInts_agree l) fun d => ?_).2
          have := loadTextLines_agree (K := K) hp (stop := none) (ls := more) (more := [])
            (.inr ⟨rfl, rfl⟩) d.1 d.2
          rw [List.append_nil] at this
          exact this
      | cons l ls => exact .bind (twoInts_agree _) fun _ => loadTextLines_agree hp (.inl rfl) _ _
  exact ⟨fun h => this.1.resolve_left h, this.2⟩

end
end

/-! ### The decoder -/

/-- Strict decoding succeeds exactly for UTF-8; lossy decoding always succeeds, gives the same for
UTF-8, and malformed bytes do not affect what precedes them. -/
theorem C44_decode :
    (∀ bs : Bytes, (∃ s, decodeLossy false bs = .ok s) ↔
      ∃ s : PyStr, (∀ c ∈ s, c.val < 0xD800 ∨ 0xDFFF < c.val) ∧ bs = utf8 s) ∧
    (∀ (s : PyStr), (∀ c ∈ s, c.val < 0xD800 ∨ 0xDFFF < c.val) →
      ∀ lossy, decodeLossy lossy (utf8 s) = .ok s) ∧
    (∀ bs : Bytes, ∃ s, decodeLossy true bs = .ok s) ∧
    ∀ (s : PyStr), (∀ c ∈ s, c.val < 0xD800 ∨ 0xDFFF < c.val) → ∀ (bs : Bytes) t,
      decodeLossy true bs = .ok t → decodeLossy true (utf8 s ++ bs) = .ok (s ++ t) := by
  refine ⟨fun bs => ⟨?_, ?_⟩, fun s h lossy => decodeLossy_utf8 lossy (any_surrogate.mpr h),
    fun bs => ⟨_, rfl⟩, ?_⟩
  · rintro ⟨s, h⟩
    obtain ⟨h2, h1⟩ := encode_ok (encode_decode (s := s) (bs := bs) h)
    exact ⟨s, any_surrogate.mp h1, h2⟩
  · rintro ⟨s, h, rfl⟩
    exact ⟨s, decodeLossy_utf8 false (any_surrogate.mpr h)⟩
  · intro s h bs t ht
    have ht : decodeReplace bs = t := Except.ok.inj ht
    show Except.ok (decodeReplace (utf8 s ++ bs)) = _
    congr 1
    subst ht
    induction s with
    | nil => rfl
    | cons c s ih =>
      obtain ⟨b, tl, hb, hs⟩ := utf8Step_encCode c (isSurrogate_false.mpr (h c (List.mem_cons_self ..)))
        (utf8 s ++ bs)
      have ih := ih fun d hd => h d (List.mem_cons_of_mem _ hd)
      rw [show utf8 (c :: s) = encCode c ++ utf8 s from rfl, List.append_assoc]
      unfold decodeReplace at ih ⊢
      rw [hb]
      simp only [List.cons_append, decodeReplaceAux, hs, decodeReplaceAux_skip, toCode_val]
      rw [ih]

/-- Encoding gives exactly the bytes of RFC 3629.  Strict decoding accepts exactly these.  Lossy decoding
replaces every maximal subpart of an ill-formed sequence by one U+FFFD and nothing else, for every byte
string. -/
theorem C44_utf8 :
    (∀ (s : PyStr) (bs : Bytes), encode s = .ok bs ↔ Utf8Text s bs) ∧
    (∀ (bs : Bytes) (s : PyStr), decodeLossy false bs = .ok s ↔ Utf8Text s bs) ∧
    (∀ (bs : Bytes) (s : PyStr), decodeLossy true bs = .ok s ↔ Replaced bs s) ∧
    ∀ bs : Bytes, ∃! s, Replaced bs s := by
  refine ⟨fun s bs => ?_, fun bs s => decodeLossy_iff (lossy := false), fun bs s => decodeLossy_iff (lossy := true),
    fun bs => ⟨_, (decodeReplace_iff bs _).mp rfl, fun s h => ((decodeReplace_iff bs s).mpr h).symm⟩⟩
  rw [utf8Text_iff]
  constructor
  · exact encode_ok
  · rintro ⟨rfl, h⟩
    unfold encode
    rw [h]
    rfl

/-! ### Cases -/

namespace Sample

/-- A letter, a three-byte sequence without its last byte, a letter, a byte that cannot occur: two
replacements. -/
example : Replaced [97, 0xE2, 0x82, 98, 0xFF] [97, 0xFFFD, 98, 0xFFFD] :=
  (C44_utf8.2.2.1 _ _).mp (by decide +kernel)

/-- The bytes of a surrogate are three ill-formed sequences. -/
example : Replaced [0xED, 0xA0, 0x80] [0xFFFD, 0xFFFD, 0xFFFD] := (C44_utf8.2.2.1 _ _).mp (by decide +kernel)

example : Utf8Char 0x20AC [0xE2, 0x82, 0xAC] :=
  .three 0xE2 0x82 0xAC 2 2 44 (by decide) (by decide) (by decide) (by decide) (by decide) (by decide)
    (by decide) (by unfold Scalar; decide)

/-- The word2vec file of the test suite with a malformed word (tests/data/utf8-incomplete.bin). -/
def incomplete : Bytes :=
  [51, 32, 51, 10,
   109, 101, 114, 101, 110, 32, 243, 4, 53, 191, 0, 0, 0, 0, 243, 4, 53, 63, 10,
   122, 101, 101, 191, 110, 32, 243, 4, 53, 63, 0, 0, 0, 0, 243, 4, 53, 191, 10,
   114, 105, 118, 105, 101, 114, 101, 110, 32, 0, 0, 0, 0, 243, 4, 53, 191, 243, 4, 53, 63, 10]

/-- Strict loading fails, lossy loading replaces the byte. -/
example : errOf (Rd.run (@loadWord2vec F32 f32Ops _ false) incomplete) = some .unicodeDecodeError ∧
    (match Rd.run (@loadWord2vec F32 f32Ops _ true) incomplete with
     | .ok e => e.vocab.words
     | .error _ => []) =
      [[109, 101, 114, 101, 110], [122, 101, 101, 0xFFFD, 110], [114, 105, 118, 105, 101, 114, 101, 110]] := by
  decide +kernel

/-- The first line is not ASCII. -/
example : Rd.run (@loadWord2vec F32 f32Ops _ true) [51, 0xC3, 10] = .error .unicodeDecodeError :=
  (@C44_word2vec_lossy F32 f32Ops _ _).mpr ⟨0xC3, by decide, by decide⟩

/-- Strict loading fails for other reasons: lossy loading fails in the same way. -/
example : Rd.run (@loadWord2vec F32 f32Ops _ true) [49, 32, 49, 10, 97] = .error .eofError :=
  (@C44_word2vec_same F32 f32Ops _ _ (by intro h; cases h)).trans rfl

end Sample

end FF
