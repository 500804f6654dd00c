import Verif.Lemmas.Errs
import Verif.Lemmas.LoadScalars
/-! Which exceptions the loaders of other formats can raise. -/

namespace FF

variable {P : PyErr → Prop}

theorem ErrsR.bind' {α β : Type} {r : Res α} {f : α → Res β} (h1 : ErrsR P r) (h2 : ∀ a, r = .ok a → ErrsR P (f a)) :
    ErrsR P (r >>= f) := by
  intro e h
  cases r with
  | error e' => cases h; exact h1 _ rfl
  | ok a => exact h2 a rfl e h

theorem Errs.bind' {α β : Type} {m : Rd α} {f : α → Rd β} (h1 : Errs P m)
    (h2 : ∀ a, (∃ s s', m s = .ok (a, s')) → Errs P (f a)) : Errs P (m >>= f) := by
  intro s e h
  rw [rd_bind] at h
  cases hm : m s with
  | error e' => rw [hm] at h; cases h; exact h1 s _ hm
  | ok p => obtain ⟨a, s'⟩ := p; rw [hm] at h; exact h2 a ⟨s, s', hm⟩ s' e h

/-- The exceptions of the header line and the vocabulary -/
structure TextErrs (P : PyErr → Prop) : Prop where
  value : P .valueError
  assertion : P .assertionError
  unicode : P .unicodeDecodeError

section
variable (hP : TextErrs P)
include hP

theorem decodeLossy_errs (lossy : Bool) (bs : Bytes) : ErrsR P (decodeLossy lossy bs) := by
  intro e h
  unfold decodeLossy at h
  split at h
  · cases h
  · rw [decode_err h]
    exact hP.unicode

theorem decodeAscii_errs (bs : Bytes) : ErrsR P (decodeAscii bs) := by
  induction bs with
  | nil => exact ErrsR.ok _
  | cons b bs ih =>
    unfold decodeAscii
    split
    · cases hd : decodeAscii bs with
      | ok s => exact ErrsR.ok _
      | error e => exact ErrsR.error (ih e hd)
    · exact ErrsR.error hP.unicode

theorem pyInt_errs (s : PyStr) : ErrsR P (pyInt s) := by
  unfold pyInt
  have hgo : ∀ (neg : Bool) (cs : PyStr), ErrsR P (match parseDigits false 0 cs with
    | some n => (.ok (if neg then -(n : Int) else n) : Res Int)
    | none => .error .valueError) := by
    intro neg cs
    split
    · exact ErrsR.ok _
    · exact ErrsR.error hP.value
  simp only
  split
  · exact ErrsR.error hP.value
  · split
    · exact hgo true _
    · split
      · exact hgo false _
      · exact hgo false _

theorem twoInts_errs (s : PyStr) : ErrsR P (twoInts s) := by
  unfold twoInts
  split
  · exact (pyInt_errs hP _).bind fun _ => (pyInt_errs hP _).bind fun _ => ErrsR.ok _
  · exact ErrsR.error hP.value

theorem zerosShape_errs (r c : Int) : ErrsR P (zerosShape r c) := by
  unfold zerosShape
  split
  · exact ErrsR.error hP.value
  · exact ErrsR.ok _

theorem assignRow_errs {K : Type} (cols : Nat) (xs : List K) : ErrsR P (assignRow cols xs) := by
  unfold assignRow
  split
  · exact ErrsR.ok _
  · split
    · exact ErrsR.ok _
    · exact ErrsR.error hP.value

theorem newVocab_errs (ws : List PyStr) (sub : Option Indexer) : ErrsR P (Vocab.new ws sub) := by
  unfold Vocab.new validateItems
  exact ((ErrsR.assert hP.assertion _).bind fun _ => (ErrsR.assert hP.assertion _).bind fun _ =>
    ErrsR.ok _).bind fun _ => ErrsR.ok _

theorem newEmb_errs {K : Type} (st : Storage K) (v : Vocab) (n : Option (List K)) (md : Option Meta) :
    ErrsR P (Embeddings.new st v n md) := by
  unfold Embeddings.new checkRequirements normsCompat
  refine ErrsR.bind ?_ fun _ => ErrsR.ok _
  refine (ErrsR.assert hP.assertion _).bind fun _ => ?_
  cases n with
  | none => exact ErrsR.ok _
  | some n => exact (ErrsR.assert hP.assertion _).bind fun _ => ErrsR.assert hP.assertion _

section
variable {K : Type} [NumOps K]

theorem w2vRows_errs [Codec K] (he : P .eofError) (lossy : Bool) (cols n : Nat) (hc : 4 * cols < maxSize) :
    Errs P (w2vRows lossy cols n : Rd (List (PyStr × List K))) := by
  induction n with
  | zero => exact Errs.pure _
  | succ n ih =>
    unfold w2vRows
    refine Errs.bind ?_ fun _ => (Errs.lift (decodeLossy_errs hP _ _)).bind fun _ => Errs.bind ?_ fun _ =>
      (Errs.lift (assignRow_errs hP _ _)).bind fun _ => ih.bind fun _ => Errs.pure _
    · intro s e h
      unfold readDelim at h
      split at h
      · cases h; exact he
      · cases h
    · intro s e h
      unfold fromFileF32 at h
      rw [if_pos hc] at h
      simp only at h
      split at h <;> cases h

theorem loadWord2vec_errs [Codec K] (he : P .eofError) (lossy : Bool) : Errs P (loadWord2vec lossy : Rd (Embeddings K)) := by
  unfold loadWord2vec
  refine Errs.bind (fun s e h => by cases h) fun _ => (Errs.lift (decodeAscii_errs hP _)).bind fun _ =>
    (Errs.lift (twoInts_errs hP _)).bind fun dims => (Errs.lift (zerosShape_errs hP _ _)).bind' fun shape hs => ?_
  obtain ⟨s, s', hs⟩ := hs
  have hs := (rd_lift_inv hs).1
  refine (w2vRows_errs hP he lossy _ _ ?_).bind fun rows => ?_
  · have h := (zerosShape_iff.mp hs).2.2
    unfold zerosShape at hs
    split at hs
    · cases hs
    · rename_i hn
      cases hs
      simp only
      have h1 : dims.2 ≤ max 1 dims.1 * max 1 dims.2 :=
        le_trans (le_max_right 1 _) (le_mul_of_one_le_left (by omega) (by omega))
      omega
  · exact (Errs.lift (newVocab_errs hP _ _)).bind fun _ => Errs.lift (newEmb_errs hP _ _ _ _)

omit hP in
theorem reSplit_ne (s : PyStr) : reSplit s ≠ [] := by
  unfold reSplit
  cases hp : pieces isAsciiSpace s with
  | nil => exact absurd hp (by cases s with | nil => simp [pieces] | cons c cs => unfold pieces; split <;> (try split) <;> simp)
  | cons p ps => simp

omit [NumOps K] in
theorem textRows_errs [NumText K] (hn : ∀ s, ErrsR P (NumText.parse s : Res K)) (cols : Nat) (stop : Option PyErr)
    (hstop : ∀ x, stop = some x → P x) (n : Nat) : ∀ lines, ErrsR P (textRows cols stop n lines : Res (List (PyStr × List K))) := by
  induction n with
  | zero => intro lines; exact ErrsR.ok _
  | succ n ih =>
    intro lines
    cases lines with
    | nil =>
      unfold textRows
      cases stop with
      | none => exact ErrsR.ok _
      | some x => exact ErrsR.error (hstop x rfl)
    | cons line lines =>
      unfold textRows
      refine ErrsR.bind ?_ fun _ => (ih lines).bind fun _ => ErrsR.ok _
      unfold textRow
      cases hr : reSplit (rstrip line) with
      | nil => exact absurd hr (reSplit_ne _)
      | cons w ps =>
        refine ErrsR.bind ?_ fun _ => (assignRow_errs hP _ _).bind fun _ => ErrsR.ok _
        intro e h
        obtain ⟨y, _, hy⟩ := mapRes_err h
        exact hn _ e hy

theorem loadTextLines_errs [NumText K] (hn : ∀ s, ErrsR P (NumText.parse s : Res K)) (file : Lines)
    (hstop : ∀ x, file.stop = some x → P x) (r c : Int) : ErrsR P (loadTextLines file r c : Res (Embeddings K)) := by
  unfold loadTextLines
  exact (zerosShape_errs hP _ _).bind fun _ => (textRows_errs hP hn _ _ hstop _ _).bind fun _ =>
    (newVocab_errs hP _ _).bind fun _ => newEmb_errs hP _ _ _ _

omit [NumOps K] in
theorem textStop [TextIO] (lossy : Bool) (bs : Bytes) : ∀ x, (textLines lossy bs).stop = some x → P x := by
  intro x h
  rw [textLines_stop_kind h]
  exact hP.unicode

theorem next_errs {file : Lines} (hstop : ∀ x, file.stop = some x → P x) : ErrsR P file.next := by
  intro x h
  obtain ⟨lines, stop⟩ := file
  cases lines with
  | nil =>
    cases stop with
    | none => cases h
    | some y => cases h; exact hstop _ rfl
  | cons l ls => cases h

theorem loadTextDims_errs [TextIO] [NumText K] (hn : ∀ s, ErrsR P (NumText.parse s : Res K)) (hi : P .stopIteration)
    (lossy : Bool) (bs : Bytes) : ErrsR P (loadTextDims lossy bs : Res (Embeddings K)) := by
  unfold loadTextDims
  refine (next_errs hP (textStop hP lossy bs)).bind' fun r hr => ?_
  cases r with
  | none => exact ErrsR.error hi
  | some q =>
    obtain ⟨l, file⟩ := q
    refine (twoInts_errs hP _).bind fun _ => loadTextLines_errs hP hn _ ?_ _ _
    rw [← (next_tail hr).2]
    exact textStop hP lossy bs

theorem loadText_errs [TextIO] [NumText K] (hn : ∀ s, ErrsR P (NumText.parse s : Res K))
    (lossy : Bool) (bs : Bytes) : ErrsR P (loadText lossy bs : Res (Embeddings K)) := by
  unfold loadText
  refine (next_errs hP (textStop hP lossy bs)).bind' fun r hr => ?_
  cases r with
  | none => exact ErrsR.error hP.value
  | some q =>
    obtain ⟨l, file⟩ := q
    refine ErrsR.bind ?_ fun _ => loadTextLines_errs hP hn _ (textStop hP lossy bs) _ _
    intro x h
    unfold Lines.all at h
    cases hs : file.stop with
    | none => rw [hs] at h; cases h
    | some y =>
      rw [hs] at h
      cases h
      exact textStop hP lossy bs _ ((next_tail hr).2.trans hs)

end
end

/-- The exceptions of fastText models -/
structure FtErrs (P : PyErr → Prop) : Prop extends TextErrs P where
  format : P .formatError
  overflow : P .overflowError
  index : P .indexError
  eof : P .eofError
  notImplemented : P .notImplementedError

section
variable (hP : FtErrs P)
include hP

theorem readRequired_ft (ws : List Nat) : Errs P (readRequired ws) := by
  unfold readRequired readBinary
  refine Errs.bind (Errs.bind ?_ fun buf => ?_) fun r => ?_
  · intro s e h
    unfold read at h
    split at h
    · cases h
    · cases h; exact hP.overflow
  · exact Errs.ite (Errs.pure _) (Errs.guard hP.format fun _ => Errs.pure _)
  · split
    · exact Errs.fail hP.format
    · exact Errs.pure _

theorem readOne_ft (w : Nat) : Errs P (readOne w) := by
  unfold readOne
  refine (readRequired_ft hP _).bind fun r => ?_
  split
  · exact Errs.pure _
  · exact Errs.fail hP.value

theorem readSigned_ft (ws : List Nat) : Errs P (readSigned ws) := by
  unfold readSigned
  exact (readRequired_ft hP _).bind fun r => Errs.pure _

theorem npGet_errs {α : Type} (xs : List α) (i : Int) : ErrsR P (npGet xs i) := by
  unfold npGet npIndex
  refine ErrsR.bind ?_ fun j => ?_
  · repeat' split
    all_goals first | exact ErrsR.ok _ | exact ErrsR.error hP.index
  · split
    · exact ErrsR.ok _
    · exact ErrsR.error hP.index

theorem npSet_errs {α : Type} (xs : List α) (i : Int) (x : α) : ErrsR P (npSet xs i x) := by
  unfold npSet npIndex
  refine ErrsR.bind ?_ fun j => ErrsR.ok _
  repeat' split
  all_goals first | exact ErrsR.ok _ | exact ErrsR.error hP.index

theorem readFtHeader_errs : Errs P readFtHeader := by
  unfold readFtHeader
  refine (readSigned_ft hP _).bind fun r => ?_
  split
  · exact Errs.guard hP.value fun _ => Errs.ite (Errs.fail hP.value) (Errs.pure _)
  · exact Errs.fail hP.value

theorem readFtCfg_errs : Errs P readFtCfg := by
  unfold readFtCfg
  refine (readRequired_ft hP _).bind fun r => ?_
  split
  · exact (Errs.lift (npGet_errs hP _ _)).bind fun _ => (Errs.lift (npGet_errs hP _ _)).bind fun _ => Errs.pure _
  · exact Errs.fail hP.value

theorem readFtWords_errs (lossy : Bool) (n : Nat) : Errs P (readFtWords lossy n) := by
  induction n with
  | zero => exact Errs.pure _
  | succ n ih =>
    unfold readFtWords
    refine Errs.bind ?_ fun _ => ih.bind fun _ => Errs.pure _
    unfold readFtWord
    refine Errs.bind ?_ fun _ => (readOne_ft hP _).bind fun _ => (readOne_ft hP _).bind fun _ =>
      Errs.guard hP.value fun _ => Errs.lift (decodeLossy_errs hP.toTextErrs _ _)
    intro s e h
    unfold readDelim at h
    split at h
    · cases h; exact hP.eof
    · cases h

theorem ftIndexerNew_errs (b mn mx : Int) : ErrsR P (FtIndexer.new b mn mx) := by
  have hu : ∀ n, ErrsR P (toU32 n) := by
    intro n
    unfold toU32
    split
    · exact ErrsR.ok _
    · exact ErrsR.error hP.overflow
  unfold FtIndexer.new
  exact (ErrsR.assert hP.assertion _).bind fun _ => (ErrsR.assert hP.assertion _).bind fun _ =>
    (hu _).bind fun _ => (hu _).bind fun _ => ErrsR.ok _

theorem readFtVocab_errs (b mn mx : Int) (lossy : Bool) : Errs P (readFtVocab b mn mx lossy) := by
  unfold readFtVocab
  refine (readSigned_ft hP _).bind fun r => ?_
  split
  · refine Errs.guard hP.notImplemented fun _ => (readOne_ft hP _).bind fun _ => (readOne_ft hP _).bind fun _ =>
      Errs.guard hP.notImplemented fun _ => (readFtWords_errs hP _ _).bind fun _ =>
      (Errs.lift (ftIndexerNew_errs hP _ _ _)).bind fun _ => (Errs.lift (newVocab_errs hP.toTextErrs _ _)).bind fun _ =>
      Errs.pure _
  · exact Errs.fail hP.value

omit hP in
/-- Words without surrogates have subwords. -/
theorem ft_subwords {v : Vocab} {ix : FtIndexer} {w : PyStr} (h : Scalars w) : ∃ is, v.subwordIndices (.ft ix) w = .ok is := by
  have hsb : (bracketed true w).any isSurrogate = false := by
    refine scalars_any.mp ?_
    intro c hc
    unfold bracketed at hc
    rw [if_pos rfl] at hc
    simp at hc
    rcases hc with rfl | hc | rfl
    · rfl
    · exact h c hc
    · rfl
  unfold Vocab.subwordIndices Indexer.indices FtIndexer.indices
  simp only
  rw [ftSub_eq, encode_eq hsb]
  exact ⟨_, rfl⟩

section
variable {K : Type} [NumOps K]

theorem precomputeWords_errs (v : Vocab) (ix : FtIndexer) (cols : Nat) (ws : List PyStr) (hw : ∀ w ∈ ws, Scalars w) :
    ∀ (i : Nat) (rows : List (List K)), ErrsR P (precomputeWords v (.ft ix) cols i ws rows) := by
  induction ws with
  | nil => intro i rows; exact ErrsR.ok _
  | cons w ws ih =>
    intro i rows
    unfold precomputeWords
    obtain ⟨is, his⟩ := ft_subwords (v := v) (ix := ix) (hw w (by simp))
    rw [his]
    refine (ErrsR.ok is).bind fun _ => ErrsR.bind ?_ fun _ => (npSet_errs hP _ _ _).bind fun _ =>
      ih (fun w' h' => hw w' (List.mem_cons_of_mem _ h')) _ _
    intro e h
    obtain ⟨y, _, hy⟩ := mapRes_err h
    exact npGet_errs hP _ _ e hy

theorem readFtStorage_errs [Codec K] (v : Vocab) (ix : FtIndexer) (hv : ScalarVocab v) :
    Errs P (readFtStorage v ix : Rd (Mat K)) := by
  have hr : ∀ (n r c : Nat) (xs : List K), ErrsR P (reshape2 n r c xs) := by
    intro n r c xs
    unfold reshape2
    split
    · exact ErrsR.ok _
    · exact ErrsR.error hP.value
  unfold readFtStorage
  refine (readOne_ft hP _).bind fun _ => Errs.guard hP.notImplemented fun _ => (readSigned_ft hP _).bind fun r => ?_
  split
  · refine Errs.bind ?_ fun xs => (Errs.lift ?_).bind fun m =>
      (Errs.lift (precomputeWords_errs hP v ix _ _ hv.words _ _)).bind fun _ => Errs.pure _
    · intro s e h
      unfold fromFileInt at h
      split at h
      · unfold fromFileF32 at h
        split at h
        · simp only at h
          split at h <;> cases h
        · split at h
          · cases h; exact hP.value
          · cases h; exact hP.overflow
      · split at h
        · cases h
        · cases h; exact hP.overflow
    · unfold reshapeInt
      repeat' split
      all_goals first | exact hr _ _ _ _ | exact ErrsR.error hP.value
  · exact Errs.fail hP.value

theorem loadFasttext_errs [Codec K] (lossy : Bool) : Errs P (loadFasttext lossy : Rd (Embeddings K)) := by
  unfold loadFasttext
  refine (readFtHeader_errs hP).bind fun _ => (readFtCfg_errs hP).bind fun _ => (readFtVocab_errs hP _ _ _ _).bind' fun p hp => ?_
  obtain ⟨s, s', hp⟩ := hp
  obtain ⟨v, ix⟩ := p
  exact (readFtStorage_errs hP v ix (readFtVocab_scalars hp)).bind fun _ => Errs.lift (newEmb_errs hP.toTextErrs _ _ _ _)

end
end

end FF
