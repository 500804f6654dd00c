import Verif.Spec.TextFile
import Verif.Lemmas.Dict
import Verif.Lemmas.PyText
/-! Lines of text files with any line ends. -/

namespace FF

theorem newlines_self {s : PyStr} (h : ∀ c ∈ s, c.val ≠ 13) : newlines s = s := by
  induction s with
  | nil => rfl
  | cons c s ih =>
    have hc : ¬ c = 13 := by intro e; subst e; exact h _ List.mem_cons_self rfl
    rw [newlines.eq_def]
    simp only
    rw [if_neg hc, ih fun d hd => h d (List.mem_cons_of_mem _ hd)]

theorem linesOf_line {l rest : PyStr} (h : ∀ c ∈ l, c.val ≠ 10) :
    linesOf (l ++ 10 :: rest) = (l ++ [10]) :: linesOf rest := by
  induction l with
  | nil => rw [List.nil_append, linesOf, if_pos rfl]; rfl
  | cons c l ih =>
    have hc : ¬ c = 10 := by intro e; subst e; exact h _ List.mem_cons_self rfl
    rw [List.cons_append, linesOf, if_neg hc, ih fun d hd => h d (List.mem_cons_of_mem _ hd)]
    rfl

theorem linesOf_flatMap {α : Type} {f : α → PyStr} {xs : List α}
    (h : ∀ x ∈ xs, ∀ c ∈ f x, c.val ≠ 10) :
    linesOf (xs.flatMap fun x => f x ++ [10]) = xs.map fun x => f x ++ [10] := by
  induction xs with
  | nil => rfl
  | cons x xs ih =>
    rw [List.flatMap_cons, List.append_assoc, List.singleton_append,
      linesOf_line (h x (by simp)), ih fun y hy => h y (List.mem_cons_of_mem _ hy)]
    rfl

/-! ### The format -/

theorem NoBreak.tail {c : Code} {l : PyStr} (h : NoBreak (c :: l)) : NoBreak l :=
  fun d hd => h d (List.mem_cons_of_mem _ hd)

theorem NoBreak.head {c : Code} {l : PyStr} (h : NoBreak (c :: l)) : ¬ c = 13 ∧ ¬ c = 10 := by
  have := h c List.mem_cons_self
  constructor
  · rintro rfl; exact this.2 rfl
  · rintro rfl; exact this.1 rfl

theorem newlines_append {l : PyStr} (h : NoBreak l) (rest : PyStr) :
    newlines (l ++ rest) = l ++ newlines rest := by
  induction l with
  | nil => rfl
  | cons c l ih =>
    rw [List.cons_append, newlines.eq_def]
    simp only
    rw [if_neg h.head.1, ih h.tail]
    rfl

theorem newlines_lf (rest : PyStr) : newlines (10 :: rest) = 10 :: newlines rest := by
  rw [newlines.eq_def]
  simp only
  rw [if_neg (by decide)]

theorem newlines_crlf (rest : PyStr) : newlines (13 :: 10 :: rest) = 10 :: newlines rest := by
  rw [newlines.eq_def]
  simp

theorem newlines_cr {rest : PyStr} (h : rest.head? ≠ some 10) :
    newlines (13 :: rest) = 10 :: newlines rest := by
  rw [newlines.eq_def]
  cases rest with
  | nil => rfl
  | cons d ds =>
    have hd : ¬ d = 10 := by rintro rfl; exact h rfl
    simp [hd]

theorem linesOf_last {l : PyStr} (h : NoBreak l) (hne : l ≠ []) : linesOf l = [l] := by
  induction l with
  | nil => exact absurd rfl hne
  | cons c l ih =>
    rw [linesOf, if_neg h.head.2]
    cases l with
    | nil => rfl
    | cons d l => rw [ih h.tail (by simp)]

/-- A line as the file yields it, with or without its end. -/
def Ended (l' l : PyStr) : Prop := l' = l ++ [10] ∨ l' = l

theorem splitLines_lines {text : PyStr} {ls : List PyStr} (h : SplitLines text ls) :
    List.Forall₂ Ended (linesOf (newlines text)) ls := by
  have nb : ∀ {l : PyStr}, NoBreak l → ∀ c ∈ l, c.val ≠ 10 := fun h c hc => (h c hc).1
  induction h with
  | nil => exact .nil
  | last h hne =>
    rename_i l
    have := newlines_append h []
    rw [List.append_nil, show newlines [] = [] from rfl, List.append_nil] at this
    rw [this, linesOf_last h hne]
    exact .cons (Or.inr rfl) .nil
  | lf h _ ih =>
    rw [newlines_append h, newlines_lf, linesOf_line (nb h)]
    exact .cons (Or.inl rfl) ih
  | crlf h _ ih =>
    rw [newlines_append h, newlines_crlf, linesOf_line (nb h)]
    exact .cons (Or.inl rfl) ih
  | cr h hr _ ih =>
    rw [newlines_append h, newlines_cr hr, linesOf_line (nb h)]
    exact .cons (Or.inl rfl) ih

theorem break_or (s : PyStr) : NoBreak s ∨ ∃ l c rest, NoBreak l ∧ (c = 10 ∨ c = 13) ∧
    s = l ++ c :: rest := by
  induction s with
  | nil => exact Or.inl (by intro c hc; cases hc)
  | cons c s ih =>
    by_cases h10 : c = 10
    · exact Or.inr ⟨[], c, s, (by intro c hc; cases hc), Or.inl h10, rfl⟩
    by_cases h13 : c = 13
    · exact Or.inr ⟨[], c, s, (by intro c hc; cases hc), Or.inr h13, rfl⟩
    have hc : c.val ≠ 10 ∧ c.val ≠ 13 :=
      ⟨fun e => h10 (Fin.ext e), fun e => h13 (Fin.ext e)⟩
    rcases ih with h | ⟨l, d, rest, h1, h2, rfl⟩
    · left
      intro d hd
      rcases List.mem_cons.mp hd with rfl | hd
      · exact hc
      · exact h d hd
    · right
      refine ⟨c :: l, d, rest, ?_, h2, rfl⟩
      intro e he
      rcases List.mem_cons.mp he with rfl | he
      · exact hc
      · exact h1 e he

theorem splitLines_total (text : PyStr) : ∃ ls, SplitLines text ls := by
  generalize hn : text.length = n
  induction n using Nat.strong_induction_on generalizing text with
  | _ n ih =>
    rcases break_or text with h | ⟨l, c, rest, h1, h2, rfl⟩
    · by_cases hne : text = []
      · subst hne; exact ⟨[], .nil⟩
      · exact ⟨[text], .last h hne⟩
    · rw [List.length_append, List.length_cons] at hn
      rcases h2 with rfl | rfl
      · obtain ⟨ls, h⟩ := ih rest.length (by omega) rest rfl
        exact ⟨l :: ls, .lf h1 h⟩
      · by_cases hr : rest.head? = some 10
        · cases rest with
          | nil => cases hr
          | cons d rest =>
            cases hr
            rw [List.length_cons] at hn
            obtain ⟨ls, h⟩ := ih rest.length (by omega) rest rfl
            exact ⟨l :: ls, .crlf h1 h⟩
        · obtain ⟨ls, h⟩ := ih rest.length (by omega) rest rfl
          exact ⟨l :: ls, .cr h1 hr h⟩

theorem splitLines_noBreak {text : PyStr} {ls : List PyStr} (h : SplitLines text ls) :
    ∀ l ∈ ls, NoBreak l := by
  induction h with
  | nil => intro l hl; cases hl
  | last h _ => intro l hl; rw [List.mem_singleton] at hl; subst hl; exact h
  | lf h _ ih | crlf h _ ih =>
    intro l hl
    rcases List.mem_cons.mp hl with rfl | hl
    · exact h
    · exact ih l hl
  | cr h _ _ ih =>
    intro l hl
    rcases List.mem_cons.mp hl with rfl | hl
    · exact h
    · exact ih l hl

theorem Ended.unique {l' l m : PyStr} (hl : NoBreak l) (hm : NoBreak m) (h1 : Ended l' l)
    (h2 : Ended l' m) : l = m := by
  have key : ∀ {a b : PyStr}, NoBreak b → a ++ [10] = b → False := by
    intro a b hb e
    exact (hb 10 (by rw [← e]; simp)).1 rfl
  rcases h1 with rfl | rfl <;> rcases h2 with h2 | h2
  · exact List.append_cancel_right h2
  · exact (key hm h2).elim
  · exact (key hl h2.symm).elim
  · exact h2

theorem splitLines_unique {text : PyStr} {ls ms : List PyStr} (h1 : SplitLines text ls)
    (h2 : SplitLines text ms) : ls = ms := by
  have key : ∀ {xs ls ms : List PyStr}, List.Forall₂ Ended xs ls → List.Forall₂ Ended xs ms →
      (∀ l ∈ ls, NoBreak l) → (∀ l ∈ ms, NoBreak l) → ls = ms := by
    intro xs ls ms h1
    induction h1 generalizing ms with
    | nil => intro h2 _ _; cases h2; rfl
    | cons h _ ih =>
      intro h2 hl hm
      cases h2 with
      | cons h' h2 =>
        rw [h.unique (hl _ (by simp)) (hm _ (by simp)) h',
          ih h2 (fun l hl' => hl l (List.mem_cons_of_mem _ hl'))
            (fun l hl' => hm l (List.mem_cons_of_mem _ hl'))]
  exact key (splitLines_lines h1) (splitLines_lines h2) (splitLines_noBreak h1)
    (splitLines_noBreak h2)

/-! ### The end of a line does not matter -/

end FF
