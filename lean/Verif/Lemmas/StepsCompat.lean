import Verif.Lemmas.Steps
import Verif.Lemmas.Size
import Verif.Lemmas.OptimizedFt
import Verif.Lemmas.TextIO
import Mathlib.Algebra.BigOperators.Group.List.Basic
import Mathlib.Algebra.Order.BigOperators.Group.List
import Mathlib.Tactic.Linarith
/-!
# Steps for fastText and text files
-/

namespace FF

/-! ### n-grams -/

theorem sum_range_le {n c : Nat} {f : Nat → Nat} (h : ∀ i < n, f i ≤ c) : ((List.range n).map f).sum ≤ n * c := by
  have := List.sum_le_card_nsmul ((List.range n).map f) c (by
    intro x hx
    obtain ⟨i, hi, rfl⟩ := List.mem_map.mp hx
    exact h i (List.mem_range.mp hi))
  simpa using this

theorem le_sum_range {n a b c : Nat} {f : Nat → Nat} (hb : b ≤ n) (h : ∀ i, a ≤ i → i < b → c ≤ f i) :
    (b - a) * c ≤ ((List.range n).map f).sum := by
  induction n generalizing b with
  | zero =>
    obtain rfl : b = 0 := by omega
    simp
  | succ n ih =>
    rw [List.range_succ, List.map_append, List.sum_append]
    rcases Nat.lt_or_ge n b with hn | hn
    · obtain rfl : b = n + 1 := by omega
      have h1 := ih (le_refl n) fun i hi hi' => h i hi (by omega)
      rcases Nat.lt_or_ge n a with ha | ha
      · rw [show n + 1 - a = 0 by omega]
        simp
      · have h2 := h n ha (by omega)
        rw [show n + 1 - a = n - a + 1 by omega, Nat.add_mul]
        simp
        omega
    · exact (ih hn h).trans (Nat.le_add_right _ _)

theorem slice_utf8 (w : PyStr) (i k : Nat) : (utf8 ((w.drop i).take k)).length ≤ 4 * k := by
  refine (utf8_le _).trans ?_
  rw [List.length_take]
  omega

/-- The steps for the n-grams of a word, in terms of its length -/
theorem ngramRounds_cubic {lo hi : Nat} (h0 : 0 < lo) (w : PyStr) :
    Steps.ngramRounds lo hi w ≤ 4 * w.length + w.length * (1 + w.length * (1 + 4 * w.length)) := by
  unfold Steps.ngramRounds
  refine Nat.add_le_add (utf8_le w) ?_
  refine (sum_range_le (c := 1 + w.length * (1 + 4 * w.length)) fun i _ => ?_).trans (Nat.mul_le_mul_right _ (by omega))
  refine Nat.add_le_add_left ?_ 1
  refine (sum_range_le (c := 1 + 4 * w.length) fun k _ => ?_).trans (Nat.mul_le_mul_right _ (by omega))
  split
  · have := slice_utf8 w i (lo + k)
    omega
  · omega

/-- In terms of the length of the word and the lengths of its n-grams -/
theorem ngramRounds_range {lo hi : Nat} (h0 : 0 < lo) (w : PyStr) :
    Steps.ngramRounds lo hi w ≤ 4 * w.length + w.length * (1 + (hi + 1 - lo) * (1 + 4 * hi)) := by
  unfold Steps.ngramRounds
  refine Nat.add_le_add (utf8_le w) ?_
  refine (sum_range_le (c := 1 + (hi + 1 - lo) * (1 + 4 * hi)) fun i _ => ?_).trans (Nat.mul_le_mul_right _ (by omega))
  refine Nat.add_le_add_left ?_ 1
  refine (sum_range_le (c := 1 + 4 * hi) fun k hk => ?_).trans (Nat.mul_le_mul_right _ (by omega))
  split
  · have := slice_utf8 w i (lo + k)
    omega
  · omega

/-- A word of `3 m` letters with n-grams of all lengths takes `m^3` steps. -/
theorem ngramRounds_long {m hi : Nat} {w : PyStr} (hw : 3 * m ≤ w.length) (hh : w.length ≤ hi) :
    m ^ 3 ≤ Steps.ngramRounds 1 hi w := by
  unfold Steps.ngramRounds
  refine le_trans ?_ (Nat.le_add_left _ _)
  have h1 : ∀ i, 0 ≤ i → i < m → m * m ≤ 1 + ((List.range (min hi w.length + 1 - 1)).map fun k => 1 +
      (if 1 + k + i ≤ w.length then (utf8 ((w.drop i).take (1 + k))).length else 0)).sum := by
    intro i _ hi'
    refine le_trans ?_ (Nat.le_add_left _ _)
    have := le_sum_range (n := min hi w.length + 1 - 1) (a := m) (b := 2 * m) (c := m)
      (f := fun k => 1 + (if 1 + k + i ≤ w.length then (utf8 ((w.drop i).take (1 + k))).length else 0)) (by omega) (by
        intro k k1 k2
        rw [if_pos (by omega)]
        have h1 := utf8_chars ((w.drop i).take (1 + k))
        rw [List.length_take, List.length_drop] at h1
        omega)
    rwa [show 2 * m - m = m by omega] at this
  have := le_sum_range (n := w.length + 1 - 1) (a := 0) (b := m) (c := m * m)
    (f := fun i => 1 + ((List.range (min hi w.length + 1 - 1)).map fun k => 1 +
      (if 1 + k + i ≤ w.length then (utf8 ((w.drop i).take (1 + k))).length else 0)).sum) (by omega) h1
  refine le_trans (le_of_eq ?_) this
  rw [Nat.sub_zero]
  ring

/-! ### fastText files -/

section
variable {K : Type} [NumOps K] [Codec K]

/-- The bytes a list of words takes in a fastText file -/
theorem ftRounds_le {C : Nat → Nat} {ix : FtIndexer}
    (hC : ∀ w : PyStr, ∀ c, w.length + 10 ≤ c → 1 + Steps.ngramRounds ix.minN ix.maxN (bracketed true w) ≤ C c)
    (hadd : ∀ a b, C a + C b ≤ C (a + b)) {lossy : Bool} {ps : List (Bytes × Int)} {ws : List PyStr}
    (h : List.Forall₂ (fun p w => decodeLossy lossy p.1 = .ok w) ps ws) :
    ftRounds ix ws ≤ C (ps.flatMap ftEntryBytes).length := by
  induction h with
  | nil => simp [ftRounds]
  | @cons p w ps ws hp hps ih =>
    have h1 := decodesTo_length (decodeLossy_iff.mp hp)
    have h2 := hC w (ftEntryBytes p).length (by simp [ftEntryBytes, sle]; omega)
    have h3 := hadd (ftEntryBytes p).length (ps.flatMap ftEntryBytes).length
    unfold ftRounds at ih ⊢
    rw [List.map_cons, List.sum_cons, List.flatMap_cons, List.length_append]
    omega

theorem Limits.delim (d : UInt8) : Limits (FF.readDelim d) (Steps.readDelim d) :=
  fun b s => Limits.request _ (FF.readDelim d) b s

theorem Limits.ftWord (lossy : Bool) : Limits (FF.readFtWord lossy) (Steps.readFtWord lossy) :=
  .bind (.delim _) fun _ => .bind (.of _) fun _ => .bind (.of _) fun _ => .guard fun _ => .of _

theorem Limits.ftWords (lossy : Bool) (n : Nat) : Limits (FF.readFtWords lossy n) (Steps.readFtWords lossy n) := by
  induction n with
  | zero => exact .pure _
  | succ n ih => exact .paid _ <| .bind (.ftWord lossy) fun _ => .bind ih fun _ => .pure _

theorem Limits.ftVocab (b lo hi : Int) (lossy : Bool) :
    Limits (FF.readFtVocab b lo hi lossy) (Steps.readFtVocab b lo hi lossy) := by
  refine .bind (.of _) fun xs => ?_
  rcases xs with _ | ⟨a, _ | ⟨b, _ | ⟨c, _ | ⟨_, _⟩⟩⟩⟩
  all_goals try exact .of _
  exact .guard fun _ => .bind (.of _) fun _ => .bind (.of _) fun _ => .guard fun _ => .bind (.ftWords _ _) fun _ =>
    .bind (.of _) fun _ => .bind (.paid _ (.of _)) fun _ => .pure _

omit [Codec K] in
/-- The averages take as many steps as they are said to take. -/
theorem needs_averages {v : Vocab} {ix : FtIndexer} {cols i : Nat} {ws : List PyStr} {rows rs : List (List K)} {s : RFile}
    (h : FF.precomputeWords v (.ft ix) cols i ws rows = .ok rs) :
    Needs (ftRounds ix ws) (Steps.precomputeWords v ix cols i ws rows) s := by
  induction ws generalizing i rows with
  | nil =>
    intro b hb
    simp [ftRounds] at hb
  | cons w ws ih =>
    rw [FF.precomputeWords] at h
    obtain ⟨sub', h1, h⟩ := res_bind_inv h
    obtain ⟨sel, h2, h⟩ := res_bind_inv h
    obtain ⟨rows1, h3, h⟩ := res_bind_inv h
    rw [Steps.precomputeWords]
    have : ftRounds ix (w :: ws) = (1 + Steps.ngramRounds ix.minN ix.maxN (bracketed true w)) + ftRounds ix ws := by
      simp [ftRounds]
    rw [this]
    refine Needs.paid ?_
    refine Needs.after (Limits.of _) (show Rd.lift (v.subwordIndices (.ft ix) w) s = .ok (sub', s) by rw [h1]; rfl) ?_
    refine Needs.after (Limits.of _) (show Rd.lift (npTake rows ((i : Int) :: sub')) s = .ok (sel, s) by rw [h2]; rfl) ?_
    refine Needs.after (Limits.of _) (show Rd.lift (npSet rows i _) s = .ok (rows1, s) by rw [h3]; rfl) ?_
    exact ih h

theorem needs_loadFasttext {lossy : Bool} {bs : Bytes} {e : Embeddings K} (h : Rd.run (FF.loadFasttext lossy) bs = .ok e)
    {ix : FtIndexer} (hix : e.vocab.sub = some (.ft ix)) :
    Needs (ftRounds ix e.vocab.words) (Steps.loadFasttext lossy : MRd (Embeddings K)) ⟨bs, 0⟩ := by
  obtain ⟨s', h⟩ := rd_run_ok h
  unfold FF.loadFasttext at h
  obtain ⟨u, t1, k1, h⟩ := rd_bind_inv h
  obtain ⟨cfg, t2, k2, h⟩ := rd_bind_inv h
  obtain ⟨⟨v, ix'⟩, t3, k3, h⟩ := rd_bind_inv h
  obtain ⟨m, t4, k4, h⟩ := rd_bind_inv h
  obtain ⟨e1, _⟩ := embNew_iff.mp (rd_lift_inv h).1
  obtain ⟨hv, hsub⟩ := readFtVocab_built k3
  have e2 : e.vocab = v := by rw [e1]
  rw [e2, hsub] at hix
  cases hix
  rw [e2]
  refine Needs.after (Limits.of _) k1 <| Needs.after (Limits.of _) k2 <| Needs.after (Limits.ftVocab _ _ _ _) k3 <|
    Needs.first ?_
  have k4' : FF.readFtStorage v ix' t3 = .ok (m, t4) := k4
  unfold FF.readFtStorage at k4'
  obtain ⟨q, t5, k5, k4'⟩ := rd_bind_inv k4'
  refine Needs.after (Limits.of _) k5 ?_
  by_cases hq : q ≠ 0
  · rw [if_pos hq] at k4'
    obtain ⟨_, _, k4', _⟩ := rd_bind_inv k4'
    cases k4'
  rw [if_neg hq] at k4' ⊢
  obtain ⟨xs, t6, k6, k4'⟩ := rd_bind_inv k4'
  refine Needs.after (Limits.of _) k6 ?_
  rcases xs with _ | ⟨a, _ | ⟨b, _ | ⟨_, _⟩⟩⟩
  all_goals try cases k4'
  obtain ⟨ys, t7, k7, k8⟩ := rd_bind_inv k4'
  obtain ⟨m', t8, k9, k10⟩ := rd_bind_inv k8
  obtain ⟨rs, t9, k11, k12⟩ := rd_bind_inv k10
  exact Needs.after (Limits.of _) k7 <| Needs.after (Limits.of _) k9 <| Needs.first (needs_averages (rd_lift_inv k11).1)

end

/-! ### Text files -/

theorem linesSoFar_length {t : PyStr} {ls : List PyStr} (h : LinesSoFar t ls) : ls.length ≤ t.length := by
  induction h with
  | rest _ => simp
  | pending _ => simp
  | lf _ _ ih => simp; omega
  | crlf _ _ ih => simp; omega
  | cr _ _ _ _ ih => simp; omega

/-- A text file has at most as many lines as bytes. -/
theorem textLines_length [TextIO] (lossy : Bool) (bs : Bytes) : (textLines lossy bs).lines.length ≤ bs.length := by
  obtain ⟨ls, stop, h⟩ := yields_total lossy bs
  obtain ⟨ls', h1, h2⟩ := textLines_yields h
  rw [h1]
  simp only
  rw [h2.length_eq]
  rcases h with ⟨text, hd, hs, _⟩ | ⟨_, _, _, k, text, _, ⟨b, tail, hb, hu, _⟩, _, hl⟩
  · exact (splitLines_size hs).2.trans (decodesTo_length hd)
  · refine (linesSoFar_length hl).trans ((utf8Text_length hu).trans ?_)
    have e1 := congrArg List.length hb
    rw [List.length_append] at e1
    have e2 : ((TextIO.cut bs).take k).flatten.length ≤ bs.length := by
      conv_rhs => rw [← TextIO.flatten_cut bs, ← List.take_append_drop k (TextIO.cut bs), List.flatten_append,
        List.length_append]
      omega
    omega

section
variable {K : Type} [NumOps K] [NumText K]

omit [NumOps K] in
theorem steps_textRows (cols : Nat) (stop : Option PyErr) (n : Nat) (ls : List PyStr) :
    ∀ b, ls.length ≤ b →
      match (FF.textRows cols stop n ls : Res (List (PyStr × List K))) with
      | .ok rs => ∃ b', Steps.textRows cols stop b n ls = .ok (rs, b') ∧ b' + rs.length = b ∧ rs.length ≤ ls.length
      | .error e => (Steps.textRows cols stop b n ls : Except Stop (List (PyStr × List K) × Nat)) = .error (.py e) := by
  induction ls generalizing n with
  | nil =>
    intro b _
    cases n with
    | zero => exact ⟨b, rfl, rfl, le_refl _⟩
    | succ n =>
      cases stop with
      | none => exact ⟨b, rfl, rfl, le_refl _⟩
      | some x => rfl
  | cons l ls ih =>
    intro b hb
    rw [List.length_cons] at hb
    cases n with
    | zero => exact ⟨b, rfl, rfl, by simp⟩
    | succ n =>
      have hi := ih n (b - 1) (by omega)
      have hs : Steps.spend 1 b = .ok (b - 1) := by unfold Steps.spend; rw [if_pos (by omega)]
      unfold FF.textRows Steps.textRows
      rw [hs]
      cases hr : (FF.textRow cols l : Res (PyStr × List K)) with
      | error e => rfl
      | ok r =>
        cases ht : (FF.textRows cols stop n ls : Res (List (PyStr × List K))) with
        | error e =>
          rw [ht] at hi
          simp only at hi
          show (Steps.textRows cols stop (b - 1) n ls >>= _) = _
          rw [hi]
          rfl
        | ok rs =>
          rw [ht] at hi
          obtain ⟨b', h1, h2, h3⟩ := hi
          refine ⟨b', ?_, by rw [List.length_cons]; omega, by simpa using h3⟩
          show (Steps.textRows cols stop (b - 1) n ls >>= _) = _
          rw [h1]
          rfl

theorem steps_loadTextLines (b : Nat) (file : Lines) (rows cols : Int) (hb : 2 * file.lines.length ≤ b) :
    (Steps.loadTextLines b file rows cols : Except Stop (Embeddings K)) = (FF.loadTextLines file rows cols).mapError .py := by
  unfold Steps.loadTextLines FF.loadTextLines
  cases hz : zerosShape rows cols with
  | error e => rfl
  | ok shape =>
    have h := steps_textRows (K := K) shape.2 file.stop shape.1 file.lines b (by omega)
    show (Steps.textRows shape.2 file.stop b shape.1 file.lines >>= _) = ((FF.textRows shape.2 file.stop shape.1 file.lines >>= _ : Res _)).mapError _
    cases ht : (FF.textRows shape.2 file.stop shape.1 file.lines : Res (List (PyStr × List K))) with
    | error e =>
      rw [ht] at h
      simp only at h
      rw [h]
      rfl
    | ok rs =>
      rw [ht] at h
      obtain ⟨b', h1, h2, h3⟩ := h
      rw [h1]
      have hs : Steps.spend rs.length b' = .ok (b' - rs.length) := by unfold Steps.spend; rw [if_pos (by omega)]
      show (Steps.spend rs.length b' >>= _) = _
      rw [hs]
      show ((Vocab.new (rs.map Prod.fst) none).mapError Stop.py >>= _) =
        Except.mapError Stop.py (Vocab.new (rs.map Prod.fst) none >>= _)
      cases Vocab.new (rs.map Prod.fst) none with
      | error e => rfl
      | ok v => rfl

end

end FF
