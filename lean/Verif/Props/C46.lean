import Verif.Model.Scripts
import Verif.Props.C33
/-! C46: `ffp-analogy --include` allows exactly the named query words. -/

namespace FF

/-- The answers that the option forbids: query words that it does not name. -/
def Forbidden (a b c : PyStr) (includes : List PyStr) (w : PyStr) : Prop :=
  (w = a ∧ [97] ∉ includes) ∨ (w = b ∧ [98] ∉ includes) ∨ (w = c ∧ [99] ∉ includes)

theorem mem_getSkips {a b c w : PyStr} {includes : List PyStr} (h : includes ≠ []) :
    w ∈ getSkips a b c includes ↔
      (w = a ∧ [97] ∉ includes) ∨ (w = b ∧ [98] ∉ includes) ∨ (w = b ∧ [99] ∉ includes) := by
  unfold getSkips
  rw [if_neg h]
  by_cases h1 : [97] ∈ includes <;> by_cases h2 : [98] ∈ includes <;>
    by_cases h3 : [99] ∈ includes <;> simp [h1, h2, h3]

/-- The skip set is right without `--include`, if `c` is among the named parts, or if the last two
query words coincide.  (Missing: the other calls, see `C46_skips_iff` and `C46_refuted`.) -/
theorem C46_skips_partial (a b c : PyStr) (includes : List PyStr)
    (h : includes = [] ∨ [99] ∈ includes ∨ b = c) (w : PyStr) :
    w ∈ getSkips a b c includes ↔ Forbidden a b c includes w := by
  by_cases h0 : includes = []
  · subst h0
    simp only [getSkips, if_true, Forbidden, List.mem_cons, List.not_mem_nil, not_false_eq_true,
      and_true, or_false]
    constructor <;> (rintro (h | h | h) <;> simp [h])
  · rw [mem_getSkips h0]
    unfold Forbidden
    rcases h with h | h | h
    · exact absurd h h0
    · simp [h]
    · rw [h]

/-- Exactly when the skip set is right. -/
theorem C46_skips_iff (a b c : PyStr) (includes : List PyStr) :
    (∀ w, w ∈ getSkips a b c includes ↔ Forbidden a b c includes w) ↔
      includes = [] ∨ [99] ∈ includes ∨ b = c ∨ (a = c ∧ [97] ∉ includes ∧ [98] ∉ includes) := by
  constructor
  · intro h
    by_cases h0 : includes = []
    · exact Or.inl h0
    by_cases h3 : [99] ∈ includes
    · exact Or.inr (Or.inl h3)
    have hc := (h c).mpr (Or.inr (Or.inr ⟨rfl, h3⟩))
    have hb := (h b).mp ((mem_getSkips h0).mpr (Or.inr (Or.inr ⟨rfl, h3⟩)))
    rw [mem_getSkips h0] at hc
    rcases hc with ⟨h1, h2⟩ | ⟨h1, _⟩ | ⟨h1, _⟩
    · rcases hb with ⟨h4, _⟩ | ⟨_, h4⟩ | ⟨h4, _⟩
      · exact Or.inr (Or.inr (Or.inl (h4.trans h1.symm)))
      · exact Or.inr (Or.inr (Or.inr ⟨h1.symm, h2, h4⟩))
      · exact Or.inr (Or.inr (Or.inl h4))
    · exact Or.inr (Or.inr (Or.inl h1.symm))
    · exact Or.inr (Or.inr (Or.inl h1.symm))
  · rintro (h | h | h | ⟨h, h1, h2⟩) w
    · exact C46_skips_partial a b c includes (Or.inl h) w
    · exact C46_skips_partial a b c includes (Or.inr (Or.inl h)) w
    · exact C46_skips_partial a b c includes (Or.inr (Or.inr h)) w
    · by_cases h0 : includes = []
      · exact C46_skips_partial a b c includes (Or.inl h0) w
      · rw [mem_getSkips h0]
        unfold Forbidden
        subst h
        by_cases hw : w = a <;> simp [hw, h1, h2]
        exact fun hb _ => hb

section
variable {K : Type} [NumOps K] [Score K]

theorem analogyLoop_get {S : Sel K} {e : Embeddings K} {k : Int} {includes lines : List PyStr}
    {fin : Option PyErr}
    {i : Nat} {o : PyStr × Option (List (PyStr × K))}
    (h : (analogyLoop S e k includes fin lines).1[i]? = some o) :
    ∃ line a b c, lines[i]? = some line ∧ splitWs (strip line) = [a, b, c] ∧
      e.analogy S a b c k (some (getSkips a b c includes)) = .ok o.2 := by
  induction lines generalizing i with
  | nil => cases fin <;> simp [analogyLoop, lastLine] at h
  | cons line lines ih =>
    unfold analogyLoop at h
    split at h
    · rename_i a b c hs
      split at h
      · simp at h
      · rename_i r hr
        cases i with
        | zero =>
          simp only [List.getElem?_cons_zero, Option.some.injEq] at h
          subst h
          exact ⟨line, a, b, c, rfl, hs, hr⟩
        | succ i =>
          simp only [List.getElem?_cons_succ] at h
          exact ih h
    · simp at h

/-- Whatever `ffp-analogy` answers to line `i`, if the skip set is right for its words: the
answers are no query words that were not named, and every other word was a candidate: nothing
that is left out is more similar than anything in the answer, if no similarity is NaN.  (Missing: the queries excluded by
`C46_skips_iff`.) -/
theorem C46_answers_partial (S : Sel K) (hS : S.Admissible) (e : Embeddings K) (he : BuiltEmb e)
    (m : Mat K) (hm : e.storage = .nd m) (k : Nat) (includes lines : List PyStr)
    (fin : Option PyErr) (i : Nat) (msg : PyStr) (res : List (PyStr × K))
    (h : (analogyLoop S e k includes fin lines).1[i]? = some (msg, some res)) :
    ∃ line a b c va vb vc, lines[i]? = some line ∧ splitWs (strip line) = [a, b, c] ∧
      e.embedding a = .ok (some va) ∧ e.embedding b = .ok (some vb) ∧
      e.embedding c = .ok (some vc) ∧
      (includes = [] ∨ [99] ∈ includes ∨ b = c →
        (∀ w x, (w, x) ∈ res → ¬ Forbidden a b c includes w) ∧
        (Comparable e (analogyVec va vb vc) (getSkips a b c includes) → ∀ (j : Nat) w row, e.vocab.words[j]? = some w → e.storage.getOne j = .ok row →
          ¬ Forbidden a b c includes w → w ∉ res.map Prod.fst →
          ∀ r ∈ res, Score.lt r.2 (NumOps.dot row (analogyVec va vb vc)) = false)) := by
  · obtain ⟨line, a, b, c, h1, h2, h3⟩ := analogyLoop_get h
    obtain ⟨va, vb, vc, ha, hb, hc, ht, _⟩ := C33_candidates S hS e he m hm a b c k _ res h3
    refine ⟨line, a, b, c, va, vb, vc, h1, h2, ha, hb, hc, fun hi => ⟨?_, ?_⟩⟩
    · intro w x hw hf
      exact ((C33_excluded S hS e he k).2.2.1 a b c _ res h3 w x hw).1 ((C46_skips_partial a b c includes hi w).mpr hf)
    · intro hcmp j w row hj hr hf hn
      exact (ht hcmp).best j w row hj hr (fun hm => hf ((C46_skips_partial a b c includes hi w).mp hm)) hn

end

/-- The claim fails: in `ffp-analogy -i a b` for the query `a b c`, `c` is answered although it is
not named, and `b` is not although it is named and more similar than another answer. -/
theorem C46_refuted : ∃ (e : Embeddings Int) (res : List (PyStr × Int)), BuiltEmb e ∧
    analogyLoop (Sel.sorting Int) e 4 [[97], [98]] none [[97, 32, 98, 32, 99, 10]] =
      ([(analogyQuery [97] [98] [99], some res)], .ok ()) ∧
    Forbidden [97] [98] [99] [[97], [98]] [99] ∧ [99] ∈ res.map Prod.fst ∧
    ¬ Forbidden [97] [98] [99] [[97], [98]] [98] ∧ [98] ∉ res.map Prod.fst := by
  refine ⟨Sample.embSim, [([99], 0), ([101], -1), ([100], -2), ([97], -3)], Sample.builtEmbSim,
    ?_, ?_, ?_, ?_, ?_⟩
  · decide +kernel
  · unfold Forbidden; decide
  · decide
  · unfold Forbidden; decide
  · decide

/-! ### The hypotheses can be met -/

/-- With `-i a c` the answers may be `a` and `c` but not `b`. -/
example : (Sel.sorting Int).Admissible ∧ BuiltEmb Sample.embSim ∧ [99] ∈ ([[97], [99]] : List PyStr) ∧
    analogyLoop (Sel.sorting Int) Sample.embSim 2 [[97], [99]] none [[97, 32, 98, 32, 99, 10]] =
      ([(analogyQuery [97] [98] [99], some [([99], 0), ([101], -1)])], .ok ()) :=
  ⟨sorting_admissible Int, Sample.builtEmbSim, by decide, by decide +kernel⟩

example : Forbidden [97] [98] [99] [[97], [99]] [98] ∧ ¬ Forbidden [97] [98] [99] [[97], [99]] [99] := by
  unfold Forbidden; decide

end FF
