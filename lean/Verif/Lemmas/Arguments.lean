import Verif.Model.Arguments
import Verif.Lemmas.VocabLookup
import Verif.Lemmas.B2EEmb
import Verif.Lemmas.HashSpec
import Verif.Lemmas.Errs
import Verif.Lemmas.Exports
/-! Lemmas about the exceptions of single functions. -/

namespace FF

theorem toU32_val (n : Int) : (∃ m, toU32 n = .ok m ∧ (m : Int) = n ∧ 0 ≤ n ∧ n < 2 ^ 32) ∨
    (toU32 n = .error .overflowError ∧ ¬ (0 ≤ n ∧ n < 2 ^ 32)) := by
  unfold toU32
  by_cases h : 0 ≤ n ∧ n < 2 ^ 32
  · rw [if_pos h]; exact Or.inl ⟨_, rfl, by omega, h⟩
  · rw [if_neg h]; exact Or.inr ⟨rfl, h⟩

theorem toU64_val (n : Int) : (toU64 n = .ok n.toNat ∧ 0 ≤ n ∧ n < 2 ^ 64) ∨
    (toU64 n = .error .overflowError ∧ ¬ (0 ≤ n ∧ n < 2 ^ 64)) := by
  unfold toU64
  by_cases h : 0 ≤ n ∧ n < 2 ^ 64
  · rw [if_pos h]; exact Or.inl ⟨rfl, h⟩
  · rw [if_neg h]; exact Or.inr ⟨rfl, h⟩

theorem normsCompat_cases {K : Type} (st : Storage K) (v : Vocab) (n : List K) :
    (normsCompat st v n = .ok () ∧ n.length ≤ st.nRows ∧ v.len = n.length) ∨
    (normsCompat st v n = .error .assertionError ∧ ¬ (n.length ≤ st.nRows ∧ v.len = n.length)) := by
  unfold normsCompat
  by_cases h1 : n.length ≤ st.nRows
  · rw [pyAssert_true (by simpa using h1), res_bind_ok]
    by_cases h2 : v.len = n.length
    · rw [pyAssert_true (by simpa using h2)]; exact Or.inl ⟨rfl, h1, h2⟩
    · rw [pyAssert_false (by simpa using h2)]; exact Or.inr ⟨rfl, fun h => h2 h.2⟩
  · rw [pyAssert_false (by simpa using h1)]; exact Or.inr ⟨rfl, fun h => h1 h.1⟩

theorem bracketed_length (w : PyStr) : (bracketed true w).length = w.length + 2 := by
  simp [bracketed]

theorem occs_nil {len lo hi : Nat} (h0 : 0 < lo) (h1 : lo ≤ hi) : occs len lo hi = [] ↔ len < lo := by
  constructor
  · intro h
    by_contra hc
    have : (0, lo) ∈ occs len lo hi := (mem_occs h0).mpr ⟨le_refl _, h1, by omega⟩
    rw [h] at this
    cases this
  · exact occs_short

section
variable {P : PyErr → Prop} {α β : Type}

theorem ErrsR.mapRes {f : α → Res β} (h : ∀ x, ErrsR P (f x)) (xs : List α) : ErrsR P (mapRes f xs) := by
  intro e he
  obtain ⟨x, _, hx⟩ := mapRes_err he
  exact h x e hx

theorem ErrsR.foldRes {f : β → α → Res β} (h : ∀ b x, ErrsR P (f b x)) (xs : List α) :
    ∀ b, ErrsR P (foldRes f b xs) := by
  induction xs with
  | nil => intro b; exact ErrsR.ok _
  | cons x xs ih => intro b; exact (h b x).bind fun b' => ih b'

end

/-- Anything but `TypeError` -/
def NoTypeErr (e : PyErr) : Prop := e ≠ .typeError

theorem call_some {ix : Indexer} (hh : ∀ x, ix ≠ .expl x) {g : PyStr} {r : Option Int} (h : ix.call g = .ok r) :
    ∃ k, r = some k := by
  cases ix with
  | fifu ix => cases h; exact ⟨_, rfl⟩
  | ft ix =>
    obtain ⟨n, _, h⟩ := res_bind_inv h
    cases h
    exact ⟨_, rfl⟩
  | expl ix => exact absurd rfl (hh ix)

theorem call_errs {ix : Indexer} (hh : ∀ x, ix ≠ .expl x) (g : PyStr) : ErrsR NoTypeErr (ix.call g) := by
  cases ix with
  | fifu ix => exact ErrsR.ok _
  | ft ix =>
    refine ErrsR.bind ?_ fun _ => ErrsR.ok _
    unfold FtIndexer.call
    refine ErrsR.bind ?_ fun _ => ErrsR.ok _
    intro e he
    rw [(encode_err_iff.mp he).2]; simp [NoTypeErr]
  | expl ix => exact absurd rfl (hh ix)

theorem b2eStep_errs {ix : Indexer} (hh : ∀ x, ix ≠ .expl x) (st : B2E) (g : PyStr) :
    ErrsR NoTypeErr (b2eStep ix st g) := by
  unfold b2eStep
  split
  · exact ErrsR.ok _
  · intro e he
    cases hc : ix.call g with
    | error x => rw [hc] at he; cases he; exact call_errs hh g _ hc
    | ok r =>
      obtain ⟨k, rfl⟩ := call_some hh hc
      rw [hc, res_bind_ok] at he
      simp only at he
      split at he
      · cases he; simp [NoTypeErr]
      · cases he

theorem ngrams_errs (w : PyStr) (lo hi : Nat) (b : Bool) : ErrsR NoTypeErr (ngrams w lo hi b) := by
  rw [ngrams_eq]
  split
  · exact ErrsR.ok _
  · exact ErrsR.error (by simp [NoTypeErr])

theorem noTypeP : IoErrs NoTypeErr := by
  constructor <;> simp [NoTypeErr]

theorem bucketToExplicit_errs (v : Vocab) {ix : Indexer} (hh : ∀ x, ix ≠ .expl x) :
    ErrsR NoTypeErr (bucketToExplicit v ix) := by
  unfold bucketToExplicit
  refine (ErrsR.foldRes (fun st w => ?_) _ _).bind fun st => (explNew_errs noTypeP _ _ _ _).bind fun _ =>
    vocabNew_errs noTypeP _ _
  exact (ngrams_errs _ _ _ _).bind fun gs => ErrsR.foldRes (fun st g => b2eStep_errs hh st g) _ _

theorem toExplicit_errs (v : Vocab) : ErrsR NoTypeErr v.toExplicit := by
  unfold Vocab.toExplicit
  split
  · exact bucketToExplicit_errs v (by simp)
  · exact bucketToExplicit_errs v (by simp)
  · exact ErrsR.error (by simp [NoTypeErr])

section
variable {K : Type} [NumOps K]

omit [NumOps K] in
theorem slice_errs (s : Storage K) (sl : PySlice) : ErrsR NoTypeErr (s.slice sl) := by
  have key : ∀ {α : Type} (xs : List α), ErrsR NoTypeErr (npSlice xs sl) := by
    intro α xs e he
    rw [(npSlice_err he).1]; simp [NoTypeErr]
  cases s with
  | nd m => exact (key _).bind fun _ => ErrsR.ok _
  | quant q =>
    refine ErrsR.bind ?_ fun _ => ErrsR.ok _
    unfold QArr.slice
    refine (key _).bind fun _ => ?_
    cases q.norms with
    | none => exact ErrsR.ok _
    | some n => exact (key _).bind fun _ => ErrsR.ok _

theorem toArray_errs (s : Storage K) : ErrsR NoTypeErr s.toArray := by
  cases s with
  | nd m => exact ErrsR.ok _
  | quant q =>
    have key : ErrsR NoTypeErr (mapRes q.pq.reconstruct q.codes) := by
      refine ErrsR.mapRes (fun c e he => ?_) _
      rw [reconstruct_err he]; simp [NoTypeErr]
    show ErrsR NoTypeErr q.toArray
    unfold QArr.toArray
    cases q.norms with
    | none => exact key
    | some n =>
      refine key.bind fun out => ?_
      simp only
      split
      · exact (ErrsR.error (by simp [NoTypeErr])).bind fun _ => ErrsR.ok _
      · exact ErrsR.ok _

theorem b2eRow_errs (e : Embeddings K) {ix : Indexer} (hh : ∀ x, ix ≠ .expl x) (eix : ExplIndexer) (n : Nat)
    (rows : List (List K)) (g : PyStr) : ErrsR NoTypeErr (b2eRow e ix eix n rows g) := by
  unfold b2eRow
  split
  · exact ErrsR.error (by simp [NoTypeErr])
  · intro x hx
    cases hc : ix.call g with
    | error y => rw [hc] at hx; cases hx; exact call_errs hh g _ hc
    | ok r =>
      obtain ⟨k, rfl⟩ := call_some hh hc
      rw [hc, res_bind_ok] at hx
      refine ErrsR.bind (P := NoTypeErr) ?_ (fun row => ?_) x hx
      · intro y hy; rw [getOne_err hy]; simp [NoTypeErr]
      · unfold npSet
        refine ErrsR.bind ?_ fun _ => ErrsR.ok _
        intro y hy; rw [(npIndex_err hy).1]; simp [NoTypeErr]

omit [NumOps K] in
theorem embNew_errs (st : Storage K) (v : Vocab) (n : Option (List K)) (m : Option Meta) :
    ErrsR NoTypeErr (Embeddings.new st v n m) := by
  have ha : NoTypeErr .assertionError := by simp [NoTypeErr]
  unfold Embeddings.new checkRequirements normsCompat
  refine ErrsR.bind ((ErrsR.assert ha _).bind fun _ => ?_) fun _ => ErrsR.ok _
  cases n with
  | none => exact ErrsR.ok _
  | some n => exact (ErrsR.assert ha _).bind fun _ => ErrsR.assert ha _

theorem embToExplicit_errs (e : Embeddings K) {ix : Indexer} (hs : e.vocab.sub = some ix) (hh : ∀ x, ix ≠ .expl x) :
    ErrsR NoTypeErr e.bucketToExplicit := by
  have tail : ∀ ix : Indexer, (∀ x, ix ≠ .expl x) → ErrsR NoTypeErr (do
      let vocab ← e.vocab.toExplicit
      match vocab.sub with
      | some (.expl eix) => do
        let cols := e.storage.nCols
        let n := vocab.len
        let _ ← zerosShape vocab.upperBound cols
        let zero := List.replicate vocab.upperBound.toNat (List.replicate cols NumOps.zero)
        let known ← e.storage.slice (.upTo n)
        let known ← known.toArray
        if known.length ≠ n then .error .valueError
        let rows := known ++ zero.drop n
        let rows ← foldRes (b2eRow e ix eix n) rows eix.ngrams
        Embeddings.new (.nd ⟨cols, rows⟩) vocab e.norms none
      | _ => .error .attributeError : Res (Embeddings K)) := by
    intro ix hh
    refine (toExplicit_errs _).bind fun vocab => ?_
    split
    · rename_i eix _
      refine ErrsR.bind ?_ fun _ => (slice_errs _ _).bind fun known => (toArray_errs known).bind fun known => ?_
      · unfold zerosShape
        split
        · exact ErrsR.error (by simp [NoTypeErr])
        · exact ErrsR.ok _
      · have fin : ErrsR NoTypeErr (do
            let rows ← foldRes (b2eRow e ix eix vocab.len) (known ++ (List.replicate vocab.upperBound.toNat
              (List.replicate e.storage.nCols NumOps.zero)).drop vocab.len) eix.ngrams
            Embeddings.new (.nd ⟨e.storage.nCols, rows⟩) vocab e.norms none : Res (Embeddings K)) :=
          (ErrsR.foldRes (fun rows g => b2eRow_errs e hh _ _ rows g) _ _).bind fun _ => embNew_errs _ _ _ _
        split
        · exact (ErrsR.error (by simp [NoTypeErr])).bind fun _ => fin
        · exact fin
    · exact ErrsR.error (by simp [NoTypeErr])
  unfold Embeddings.bucketToExplicit
  rw [hs]
  cases ix with
  | fifu ix => exact tail _ (by simp)
  | ft ix => exact tail _ (by simp)
  | expl ix => exact absurd rfl (hh ix)

end

end FF
