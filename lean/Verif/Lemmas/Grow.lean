import Verif.Lemmas.Size
import Verif.Lemmas.Chain
import Verif.Lemmas.FloatStr
import Verif.Props.C41
/-!
# Small files with large matrices
-/

namespace FF

/-- Two integers -/
theorem dimsAre_decimal (r c : Nat) : DimsAre (decimal r ++ [32] ++ decimal c) (r : Int) (c : Int) := by
  have hd : ∀ n, ∀ x ∈ decimal n, isSpace x = false := fun n x hx => digit_not_space (decimal_digits n x hx)
  have h1 := (pyInt_iff_of_none (hd r)).mp (pyInt_decimal r)
  have h2 := (pyInt_iff_of_none (hd c)).mp (pyInt_decimal c)
  have h3 : ∀ x ∈ ([32] : PyStr), isSpace x = true := by
    intro x hx
    rw [List.mem_singleton.mp hx]
    decide +kernel
  refine ⟨[], decimal r, [32], decimal c, [], ?_, ?_, h3, ?_, hd r, hd c, decimal_ne_nil r, decimal_ne_nil c,
    List.cons_ne_nil _ _, h1, h2⟩
  · rw [List.nil_append, List.append_nil]
  · intro x hx; cases hx
  · intro x hx; cases hx

theorem dims_ascii (r c : Nat) : ∀ x ∈ decimal r ++ [32] ++ decimal c, x.val < 128 ∧ x.val ≠ 10 ∧ x.val ≠ 13 := by
  intro x hx
  simp only [List.mem_append, List.mem_singleton] at hx
  rcases hx with (h | rfl) | h
  · have := decimal_digits _ x h; omega
  · decide
  · have := decimal_digits _ x h; omega

theorem decimal_short {n : Nat} (h : 4 * n < 2 ^ 63) : (decimal n).length ≤ 19 :=
  B32.decimal_length_le (by omega) (by decide)

theorem fields_same {l w w' : PyStr} {ps ps' : List PyStr} (h : HasFields l w ps) (h' : HasFields l w' ps') :
    w = w' ∧ ps = ps' := by
  have := (C41_fields l).unique (y₁ := (w, ps)) (y₂ := (w', ps')) h h'
  exact ⟨congrArg Prod.fst this, congrArg Prod.snd this⟩

/-- One field behind the word for every element -/
theorem hasFields_ones (w : PyStr) (hw : ∀ c ∈ w, c.val = 97) (k : Nat) (hk : 0 < k) :
    HasFields (w ++ (List.replicate k ([32, 49] : PyStr)).flatten) w (List.replicate k [49]) := by
  have he : ((List.replicate k (([32], [49]) : PyStr × PyStr)).flatMap fun x => x.1 ++ x.2)
      = (List.replicate k ([32, 49] : PyStr)).flatten := by
    rw [List.flatMap_def, List.map_replicate]
    rfl
  refine ⟨List.replicate k ([32], [49]), by simp, ⟨?_, ?_, ?_⟩, [], by simp, ?_, ?_⟩
  · intro c hc
    have h97 : c = 97 := Fin.ext (hw c hc)
    rw [h97]
    decide +kernel
  · intro x hx
    rw [(List.mem_replicate.mp hx).2]
    refine ⟨List.cons_ne_nil _ _, fun c hc => ?_⟩
    rw [List.mem_singleton.mp hc]
    decide +kernel
  · intro x hx
    rw [(List.mem_replicate.mp hx).2]
    refine ⟨List.cons_ne_nil _ _, fun c hc => ?_⟩
    rw [List.mem_singleton.mp hc]
    decide +kernel
  · rw [he, List.append_nil]
  · intro c hc
    obtain ⟨j, rfl⟩ : ∃ j, k = j + 1 := ⟨k - 1, by omega⟩
    rw [he, List.replicate_succ', List.flatten_append, ← List.append_assoc] at hc
    have h49 : c = 49 := by
      rw [List.flatten_singleton, show ([32, 49] : PyStr) = [32] ++ [49] from rfl, ← List.append_assoc,
        List.getLast?_concat] at hc
      exact (Option.some.inj hc).symm
    rw [h49]
    decide +kernel

/-- A line with a word of `n` letters and `k` ones -/
def onesLine (n k : Nat) : PyStr := List.replicate n 97 ++ (List.replicate k ([32, 49] : PyStr)).flatten

theorem onesLine_length (n k : Nat) : (onesLine n k).length = n + 2 * k := by
  unfold onesLine
  rw [List.length_append, List.length_replicate, List.length_flatten, List.map_replicate, List.sum_replicate]
  simp only [List.length_cons, List.length_nil, smul_eq_mul]
  omega

theorem onesLine_chars (n k : Nat) : ∀ c ∈ onesLine n k, c.val = 97 ∨ c.val = 32 ∨ c.val = 49 := by
  intro c hc
  rcases List.mem_append.mp hc with hc | hc
  · rw [(List.mem_replicate.mp hc).2]
    exact .inl rfl
  · obtain ⟨l, hl, hc⟩ := List.mem_flatten.mp hc
    rw [(List.mem_replicate.mp hl).2] at hc
    rcases List.mem_cons.mp hc with rfl | hc
    · exact .inr (.inl rfl)
    · rw [List.mem_singleton.mp hc]
      exact .inr (.inr rfl)

/-- The lines of a text with their ends -/
def linesText (ls : List PyStr) : PyStr := ls.flatMap (· ++ [10])

theorem linesText_split {ls : List PyStr} (h : ∀ l ∈ ls, NoBreak l) : SplitLines (linesText ls) ls := by
  induction ls with
  | nil => exact .nil
  | cons l ls ih =>
    have := SplitLines.lf (h l (by simp)) (ih fun x hx => h x (List.mem_cons_of_mem _ hx))
    unfold linesText at this ⊢
    rw [List.flatMap_cons, List.append_assoc]
    exact this

theorem linesText_ascii {ls : List PyStr} (h : ∀ l ∈ ls, ∀ c ∈ l, c.val < 128) : ∀ c ∈ linesText ls, c.val < 128 := by
  intro c hc
  obtain ⟨l, hl, hc⟩ := List.mem_flatMap.mp hc
  rcases List.mem_append.mp hc with hc | hc
  · exact h l hl c hc
  · rw [List.mem_singleton.mp hc]
    decide

theorem ascii_decodes {s : PyStr} (lossy : Bool) (h : ∀ c ∈ s, c.val < 128) : DecodesTo lossy (utf8 s) s := by
  have hs : s.any isSurrogate = false := by
    rw [List.any_eq_false]
    intro c hc
    have := h c hc
    unfold isSurrogate
    simp
    omega
  exact decodeLossy_iff.mp (decodeLossy_utf8 lossy hs)

theorem onesLine_reads {K : Type} [NumText K] {x : K} (hx : NumText.parse [49] = .ok x) (n : Nat) {cols k : Nat} (hk : 0 < k)
    (h : k = cols ∨ k = 1) : ReadsAs cols (onesLine n k) (List.replicate n 97, List.replicate cols x) := by
  refine ⟨List.replicate k [49], List.replicate k x, hasFields_ones _ ?_ k hk, ?_, by simp, ?_⟩
  · intro c hc
    rw [(List.mem_replicate.mp hc).2]
    rfl
  · clear h hk
    induction k with
    | zero => exact .nil
    | succ k ih => exact .cons hx ih
  · rcases h with rfl | rfl
    · exact .inl rfl
    · exact .inr ⟨x, rfl, rfl⟩

end FF
