import Verif.Model.Scripts
import Verif.Lemmas.TextFile
import Verif.Props.C33
import Verif.Props.C40
import Verif.Props.C01
/-!
# C55: the query tools answer every query, in order, and print the answers readably

`ffp-similar` answers the non-blank lines of its input with `word_similarity`, `ffp-analogy` every
line with `analogy`; they stop at the first exception.  What they print can be read back.
-/

namespace FF

section
variable {K : Type} [NumOps K]

/-- `answers` and `exit` are what comes out if the queries `qs` are answered by `ask` one after the
other until one raises; after the last one reading further queries raises `fin`, if that is an exception. -/
structure AnsweredInOrder {Q A : Type} (ask : Q → Res A) (qs : List Q) (fin : Option PyErr)
    (answers : List A) (exit : Res Unit) : Prop where
  each : ∀ (i : Nat) (a : A), answers[i]? = some a → ∃ q, qs[i]? = some q ∧ ask q = .ok a
  done : exit = .ok () → answers.length = qs.length ∧ fin = none
  stop : ∀ x, exit = .error x → (∃ q, qs[answers.length]? = some q ∧ ask q = .error x) ∨
    (answers.length = qs.length ∧ fin = some x)

theorem AnsweredInOrder.nil {Q A K : Type} {ask : Q → Res A} {fin : Option PyErr} :
    AnsweredInOrder ask [] fin [] (lastLine (K := K) fin).2 := by
  cases fin with
  | none => exact ⟨fun i a h => by simp at h, fun _ => ⟨rfl, rfl⟩, fun x h => by cases h⟩
  | some y =>
    exact ⟨fun i a h => by simp at h, fun h => (by cases h),
      fun x h => by cases h; exact .inr ⟨rfl, rfl⟩⟩

theorem AnsweredInOrder.cons {Q A : Type} {ask : Q → Res A} {q : Q} {qs : List Q} {fin : Option PyErr} {a : A}
    {as : List A} {exit : Res Unit} (hq : ask q = .ok a) (h : AnsweredInOrder ask qs fin as exit) :
    AnsweredInOrder ask (q :: qs) fin (a :: as) exit := by
  refine ⟨fun i b hb => ?_, fun he => by simp [h.done he], fun x hx => ?_⟩
  · cases i with
    | zero =>
      simp only [List.getElem?_cons_zero, Option.some.injEq] at hb
      subst hb
      exact ⟨q, rfl, hq⟩
    | succ i => exact h.each i b (by simpa using hb)
  · rcases h.stop x hx with h | ⟨h1, h2⟩
    · exact .inl h
    · exact .inr ⟨by simp [h1], h2⟩

theorem AnsweredInOrder.fail {Q A : Type} {ask : Q → Res A} {q : Q} {qs : List Q} {fin : Option PyErr} {x : PyErr}
    (hq : ask q = .error x) : AnsweredInOrder ask (q :: qs) fin ([] : List A) (.error x) :=
  ⟨fun i a h => by simp at h, fun h => (by cases h), fun y h => by cases h; exact .inl ⟨q, rfl, hq⟩⟩

/-- `ffp-similar`: blank lines are no queries; surrounding white space is no part of a query. -/
theorem C55_similar (S : Sel K) (e : Embeddings K) (k : Int) (fin : Option PyErr) (lines : List PyStr) :
    AnsweredInOrder (fun q => (e.wordSimilarity S q k).map fun r => (q, r))
      ((lines.map strip).filter fun q => q ≠ []) fin
      (similarLoop S e k fin lines).1 (similarLoop S e k fin lines).2 := by
  induction lines with
  | nil =>
    unfold similarLoop
    have : (lastLine fin : Answers K).1 = [] := by cases fin <;> rfl
    rw [this]
    exact .nil
  | cons line lines ih =>
    unfold similarLoop
    by_cases hq : strip line = []
    · rw [if_pos hq]
      simpa [hq] using ih
    · rw [if_neg hq]
      have hf : ((line :: lines).map strip).filter (fun q => q ≠ []) =
          strip line :: (lines.map strip).filter (fun q => q ≠ []) := by
        simp [hq]
      rw [hf]
      cases hr : e.wordSimilarity S (strip line) k with
      | error x => exact .fail (by simp only [hr]; rfl)
      | ok r => exact .cons (by simp only [hr]; rfl) ih

/-- `a : b, c : ? ` -/
def queryText (a b c : PyStr) : PyStr := a ++ [32, 58, 32] ++ b ++ [44, 32] ++ c ++ [32, 58, 32, 63, 32]

/-- `ffp-analogy`: every line is a query, and one that does not consist of three words raises
`ValueError`, blank lines included. -/
theorem C55_analogy (S : Sel K) (e : Embeddings K) (k : Int) (includes : List PyStr) (fin : Option PyErr)
    (lines : List PyStr) :
    AnsweredInOrder (fun line => match splitWs line with
        | [a, b, c] => (e.analogy S a b c k (some (getSkips a b c includes))).map fun r =>
            (queryText a b c, r)
        | _ => .error .valueError) (lines.map strip) fin
      (analogyLoop S e k includes fin lines).1 (analogyLoop S e k includes fin lines).2 := by
  induction lines with
  | nil =>
    unfold analogyLoop
    have : (lastLine fin : Answers K).1 = [] := by cases fin <;> rfl
    rw [this]
    exact .nil
  | cons line lines ih =>
    unfold analogyLoop
    split
    · rename_i a b c hs
      cases hr : e.analogy S a b c k (some (getSkips a b c includes)) with
      | error x => exact .fail (by simp only [hs, hr]; rfl)
      | ok r => exact .cons (by simp only [hs, hr]; rfl) ih
    · rename_i hs
      refine .fail ?_
      split
      · rename_i a b c hs'
        exact absurd hs' (hs a b c)
      · rfl

end

/-! ### The tools on files -/

section
variable [NumOps F32] [NumText F32]

/-- `ffp-similar` on the files: the queries are the non-blank lines of the input.  If that is not UTF-8 the
lines read before this is noticed are answered, then `UnicodeDecodeError` is raised. -/
theorem C55_similar_files [TextIO] (T : Toml) (S : Sel F32) (f : Format) (embeddings input : PyStr) (k : Int)
    (lossy mmap : Bool) (fs : FS) (bs : Bytes) (e : Embeddings F32) (qs : Bytes) (ls : List PyStr)
    (fin : Option PyErr) (hb : fs embeddings = some bs) (he : f.load T lossy mmap bs = .ok e)
    (hq : fs input = some qs) (hl : Yields false qs ls fin) :
    AnsweredInOrder (fun q => (e.wordSimilarity S q k).map fun r => (q, r))
      ((ls.map strip).filter fun q => q ≠ []) fin
      (similarMain T S f embeddings input k lossy mmap fs).1
      (similarMain T S f embeddings input k lossy mmap fs).2 := by
  obtain ⟨ls', h1, h2⟩ := textLines_yields hl
  unfold similarMain
  rw [hq, show readFile embeddings (f.load T lossy mmap) fs = .ok e by
    unfold readFile; rw [hb]; exact he]
  simp only
  rw [h1, ← ended_strip h2]
  exact C55_similar S e k fin ls'

/-- `ffp-analogy` on the files: every line of the input is a query, see `C55_similar_files` for input that
is not UTF-8. -/
theorem C55_analogy_files [TextIO] (T : Toml) (S : Sel F32) (f : Format) (embeddings input : PyStr) (k : Int)
    (includes : List PyStr) (hi : includes.length ≤ 3)
    (lossy mmap : Bool) (fs : FS) (bs : Bytes) (e : Embeddings F32) (qs : Bytes) (ls : List PyStr)
    (fin : Option PyErr) (hb : fs embeddings = some bs) (he : f.load T lossy mmap bs = .ok e)
    (hq : fs input = some qs) (hl : Yields false qs ls fin) :
    AnsweredInOrder (fun line => match splitWs line with
        | [a, b, c] => (e.analogy S a b c k (some (getSkips a b c includes))).map fun r =>
            (queryText a b c, r)
        | _ => .error .valueError) (ls.map strip) fin
      (analogyMain T S f embeddings input k includes lossy mmap fs).1
      (analogyMain T S f embeddings input k includes lossy mmap fs).2 := by
  unfold analogyMain
  obtain ⟨ls', h1, h2⟩ := textLines_yields hl
  rw [if_neg (by omega), hq, show readFile embeddings (f.load T lossy mmap) fs = .ok e by
    unfold readFile; rw [hb]; exact he]
  simp only
  rw [h1, ← ended_strip h2]
  exact C55_analogy S e k includes fin ls'

/-- Both tools answer from a finalfusion file what the embeddings that were written to it answer,
in order. -/
theorem C55_written_embeddings [TextIO] (T : Toml) (S : Sel F32) (e : Embeddings F32) (bs : Bytes)
    (he : BuiltEmb e) (hT : TomlOk T e.metadata) (hw : (e.write T).file = (.ok (), bs))
    (hx : ∀ ix, e.vocab.sub ≠ some (.expl ix)) (embeddings input : PyStr) (k : Int) (lossy : Bool)
    (fs : FS) (qs : Bytes) (ls : List PyStr) (fin : Option PyErr) (hb : fs embeddings = some bs)
    (hq : fs input = some qs) (hl : Yields false qs ls fin) :
    AnsweredInOrder (fun q => (e.wordSimilarity S q k).map fun r => (q, r))
      ((ls.map strip).filter fun q => q ≠ []) fin
      (similarMain T S .finalfusion embeddings input k lossy false fs).1
      (similarMain T S .finalfusion embeddings input k lossy false fs).2 ∧
    ∀ includes : List PyStr, includes.length ≤ 3 →
      AnsweredInOrder (fun line => match splitWs line with
          | [a, b, c] => (e.analogy S a b c k (some (getSkips a b c includes))).map fun r =>
              (queryText a b c, r)
          | _ => .error .valueError) (ls.map strip) fin
        (analogyMain T S .finalfusion embeddings input k includes lossy false fs).1
        (analogyMain T S .finalfusion embeddings input k includes lossy false fs).2 := by
  have h := C01_roundtrip_eq T e bs he hT hw hx
  exact ⟨C55_similar_files T S .finalfusion embeddings input k lossy false fs bs e qs ls fin hb h hq hl,
    fun includes hi => C55_analogy_files T S .finalfusion embeddings input k includes hi lossy false
      fs bs e qs ls fin hb h hq hl⟩

/-- If the embeddings cannot be read or there is no file with queries nothing is answered, and the exception
is the one of the read or `FileNotFoundError`: of the read of the embeddings, if both fail. More than three includes are refused whatever the
files are. -/
theorem C55_unreadable [TextIO] (T : Toml) (S : Sel F32) (f : Format) (embeddings input : PyStr) (k : Int)
    (includes : List PyStr) (lossy mmap : Bool) (fs : FS) (x : PyErr) :
    (readFile embeddings (f.load T lossy mmap) fs = .error x ∨
      (∃ e, readFile embeddings (f.load T lossy mmap) fs = .ok e) ∧
        fs input = none ∧ x = .osError →
      similarMain T S f embeddings input k lossy mmap fs = ([], .error x) ∧
      (includes.length ≤ 3 →
        analogyMain T S f embeddings input k includes lossy mmap fs = ([], .error x))) ∧
    (3 < includes.length →
      analogyMain T S f embeddings input k includes lossy mmap fs = ([], .error .systemExit)) := by
  constructor
  · unfold similarMain analogyMain
    rintro (h | ⟨⟨e, h⟩, h2, rfl⟩)
    · rw [h]
      exact ⟨rfl, fun hi => by rw [if_neg (by omega)]⟩
    · rw [h, h2]
      exact ⟨rfl, fun hi => by rw [if_neg (by omega)]⟩
  · intro h
    unfold analogyMain
    rw [if_pos ⟨by rintro rfl; simp at h, h⟩]

end

section
variable {K : Type} [NumOps K]

/-! ### The output -/

/-- The result `(w, x)` is printed as `line`: the last blank separates the word from the number. -/
def Shows [NumText K] (line : PyStr) (r : PyStr × K) : Prop :=
  line = r.1 ++ 32 :: NumText.str r.2 ++ [10] ∧ 32 ∉ (NumText.str r.2 : PyStr)

/-- Words and numbers of the results fit on a line, numbers contain no blank, and no result is
empty. -/
structure Readable [NumText K] (answers : List (PyStr × Option (List (PyStr × K)))) : Prop where
  words : ∀ a ∈ answers, ∀ res, a.2 = some res → ∀ r ∈ res, 10 ∉ r.1
  numbers : ∀ a ∈ answers, ∀ res, a.2 = some res → ∀ r ∈ res,
    10 ∉ (NumText.str r.2 : PyStr) ∧ 32 ∉ (NumText.str r.2 : PyStr)
  nonempty : ∀ a ∈ answers, a.2 ≠ some []

/-- The results of all queries, in order. -/
def allResults (answers : List (PyStr × Option (List (PyStr × K)))) : List (PyStr × K) :=
  answers.flatMap fun a => a.2.getD []

omit [NumOps K] in
theorem joinNl_lines {α : Type} (f : α → PyStr) (xs : List α) (h : xs ≠ []) :
    joinNl (xs.map f) ++ [10] = xs.flatMap fun x => f x ++ [10] := by
  induction xs with
  | nil => exact absurd rfl h
  | cons x xs ih =>
    cases xs with
    | nil => simp [joinNl]
    | cons y ys =>
      have := ih (by simp)
      simp only [List.map_cons, joinNl, List.flatMap_cons, List.append_assoc, List.cons_append] at this ⊢
      rw [this]
      simp

omit [NumOps K] in
theorem stdout_lines [NumText K] {a : Answers K} (h : Readable a.1) :
    a.stdout = (allResults a.1).flatMap fun r => (r.1 ++ 32 :: NumText.str r.2) ++ [10] := by
  unfold Answers.stdout allResults
  rw [List.flatMap_assoc]
  refine List.flatMap_congr fun x hx => ?_
  obtain ⟨q, o⟩ := x
  cases o with
  | none => rfl
  | some res =>
    have hne : res ≠ [] := fun h0 => h.nonempty _ hx (by rw [h0])
    exact joinNl_lines _ res hne

omit [NumOps K] in
/-- The lines of the output show the results of all queries, in order and nothing else.  (Missing:
words with line feeds, and queries without any result, for which a blank line is printed.) -/
theorem C55_stdout_partial [NumText K] (a : Answers K) (h : Readable a.1) :
    List.Forall₂ Shows (linesOf a.stdout) (allResults a.1) := by
  rw [stdout_lines h]
  have hmem : ∀ r ∈ allResults a.1, 10 ∉ r.1 ∧ 10 ∉ (NumText.str r.2 : PyStr) ∧
      32 ∉ (NumText.str r.2 : PyStr) := by
    intro r hr
    obtain ⟨x, hx, hr⟩ := List.mem_flatMap.mp hr
    cases ho : x.2 with
    | none => rw [ho] at hr; simp at hr
    | some res =>
      rw [ho] at hr
      exact ⟨h.words x hx res ho r hr, h.numbers x hx res ho r hr⟩
  rw [linesOf_flatMap (f := fun r : PyStr × K => r.1 ++ 32 :: NumText.str r.2)]
  · rw [List.forall₂_map_left_iff, List.forall₂_same]
    exact fun r hr => ⟨rfl, (hmem r hr).2.2⟩
  · intro r hr c hc
    have := hmem r hr
    intro h10
    have hc10 : c = 10 := Fin.ext h10
    subst hc10
    simp only [List.mem_append, List.mem_cons] at hc
    rcases hc with hc | hc | hc
    · exact this.1 hc
    · cases hc
    · exact this.2.1 hc

omit [NumOps K] in
/-- A line shows one result only, if numbers are printed faithfully. -/
theorem C55_line_unique [NumText K] (hinj : Function.Injective (NumText.str : K → PyStr))
    {line : PyStr} {r r' : PyStr × K} (h : Shows line r) (h' : Shows line r') : r = r' := by
  have key : ∀ (u v s t : PyStr), u ++ 32 :: s = v ++ 32 :: t → 32 ∉ s → 32 ∉ t → u = v ∧ s = t := by
    intro u
    induction u with
    | nil =>
      intro v s t he hs ht
      cases v with
      | nil => simpa using he
      | cons c v =>
        simp only [List.nil_append, List.cons_append, List.cons.injEq] at he
        exact absurd (by rw [he.2]; simp) hs
    | cons c u ih =>
      intro v s t he hs ht
      cases v with
      | nil =>
        simp only [List.nil_append, List.cons_append, List.cons.injEq] at he
        exact absurd (by rw [← he.2]; simp) ht
      | cons d v =>
        simp only [List.cons_append, List.cons.injEq] at he
        obtain ⟨rfl, he⟩ := he
        obtain ⟨rfl, rfl⟩ := ih v s t he hs ht
        exact ⟨rfl, rfl⟩
  have he := h.1.symm.trans h'.1
  obtain ⟨h1, h2⟩ := key _ _ _ _ (List.append_cancel_right he) h.2 h'.2
  exact Prod.ext h1 (hinj h2)

omit [NumOps K] in
/-- The output determines the results of all queries together. -/
theorem C55_readable_partial [NumText K] (hinj : Function.Injective (NumText.str : K → PyStr))
    (a b : Answers K) (ha : Readable a.1) (hb : Readable b.1) (h : a.stdout = b.stdout) :
    allResults a.1 = allResults b.1 := by
  have h1 := C55_stdout_partial a ha
  have h2 := C55_stdout_partial b hb
  rw [h] at h1
  generalize linesOf b.stdout = ls at h1 h2
  generalize allResults a.1 = xs at h1
  generalize allResults b.1 = ys at h2
  induction ls generalizing xs ys with
  | nil => cases h1; cases h2; rfl
  | cons l ls ih =>
    cases h1 with
    | cons p1 q1 =>
      cases h2 with
      | cons p2 q2 => rw [C55_line_unique hinj p1 p2, ih _ q1 _ q2]

omit [NumOps K] in
/-- A query without results prints a blank line (k = 0); a query that cannot be answered prints
nothing here and one line to the standard error. -/
theorem C55_no_results [NumText K] (msg q : PyStr) : printAnswer (K := K) (q, some []) = [10] ∧
    printAnswer (K := K) (q, none) = [] ∧ printError (K := K) msg (q, none) = msg ++ q ++ [10] :=
  ⟨rfl, rfl, rfl⟩

end

section
variable {K : Type}

theorem flatMap_errors (msg : PyStr) (as : List (PyStr × Option (List (PyStr × K)))) :
    as.flatMap (printError msg) =
      (as.filter fun x => x.2.isNone).flatMap fun x => (msg ++ x.1) ++ [10] := by
  induction as with
  | nil => rfl
  | cons x as ih =>
    obtain ⟨q, r⟩ := x
    cases r <;> simp [printError, ih]

/-- The lines of the standard error name the queries that have no answer, in order and nothing
else. -/
theorem C55_stderr (a : Answers K) (msg : PyStr) (hm : 10 ∉ msg)
    (hq : ∀ x ∈ a.1, x.2 = none → 10 ∉ x.1) :
    linesOf (a.stderr msg) = (a.1.filter fun x => x.2.isNone).map fun x => msg ++ x.1 ++ [10] := by
  unfold Answers.stderr
  rw [flatMap_errors, linesOf_flatMap (f := fun x : PyStr × Option (List (PyStr × K)) => msg ++ x.1)]
  intro x hx c hc h10
  have hc10 : c = 10 := Fin.ext h10
  subst hc10
  rw [List.mem_filter] at hx
  rcases List.mem_append.mp hc with hc | hc
  · exact hm hc
  · exact hq x hx.1 (by simpa using hx.2) hc

/-- `Could not compute neighbours for: `, `Could not compute for: ` -/
theorem C55_messages :
    similarMessage = [67, 111, 117, 108, 100, 32, 110, 111, 116, 32, 99, 111, 109, 112, 117, 116, 101,
      32, 110, 101, 105, 103, 104, 98, 111, 117, 114, 115, 32, 102, 111, 114, 58, 32] ∧
    analogyMessage = [67, 111, 117, 108, 100, 32, 110, 111, 116, 32, 99, 111, 109, 112, 117, 116, 101,
      32, 102, 111, 114, 58, 32] := by
  decide +kernel

/-- Three blank-free words are determined by the text that names them. -/
theorem C55_query_unique (a b c a' b' c' : PyStr) (ha : 32 ∉ a) (hb : 32 ∉ b) (hc : 32 ∉ c)
    (ha' : 32 ∉ a') (hb' : 32 ∉ b') (hc' : 32 ∉ c') (h : queryText a b c = queryText a' b' c') :
    a = a' ∧ b = b' ∧ c = c' := by
  have key : ∀ (u v s t : PyStr), u ++ 32 :: s = v ++ 32 :: t → 32 ∉ u → 32 ∉ v → u = v ∧ s = t := by
    intro u
    induction u with
    | nil =>
      intro v s t he _ hv
      cases v with
      | nil => simpa using he
      | cons x v =>
        simp only [List.nil_append, List.cons_append, List.cons.injEq] at he
        exact absurd (by rw [he.1]; exact List.mem_cons_self ..) hv
    | cons x u ih =>
      intro v s t he hu hv
      cases v with
      | nil =>
        simp only [List.nil_append, List.cons_append, List.cons.injEq] at he
        exact absurd (by rw [← he.1]; exact List.mem_cons_self ..) hu
      | cons y v =>
        simp only [List.cons_append, List.cons.injEq] at he
        obtain ⟨h1, h2⟩ := ih v s t he.2 (fun h => hu (List.mem_cons_of_mem _ h))
          (fun h => hv (List.mem_cons_of_mem _ h))
        exact ⟨by rw [he.1, h1], h2⟩
  have key2 : ∀ (u v s t : PyStr), u ++ 44 :: 32 :: s = v ++ 44 :: 32 :: t → 32 ∉ u → 32 ∉ v →
      u = v ∧ s = t := by
    intro u v s t he hu hv
    have e : ∀ w r : PyStr, w ++ 44 :: 32 :: r = (w ++ [44]) ++ 32 :: r := by intros; simp
    rw [e, e] at he
    obtain ⟨h1, h2⟩ := key _ _ _ _ he (by
      rw [List.mem_append]; rintro (h | h)
      · exact hu h
      · revert h; decide) (by
      rw [List.mem_append]; rintro (h | h)
      · exact hv h
      · revert h; decide)
    exact ⟨List.append_cancel_right h1, h2⟩
  unfold queryText at h
  simp only [List.append_assoc, List.cons_append, List.nil_append] at h
  obtain ⟨h1, h⟩ := key _ _ _ _ h ha ha'
  obtain ⟨h2, h⟩ := key2 _ _ _ _ (List.cons.inj (List.cons.inj h).2).2 hb hb'
  exact ⟨h1, h2, (key _ _ _ _ h hc hc').1⟩

end

/-- Words with line feeds make the output ambiguous: one result whose word is `a 1⏎b` prints the same
as two results. -/
theorem C55_refuted : ∃ r r' : List (PyStr × F32), r ≠ r' ∧
    @printAnswer F32 Sample.f32Text ([97], some r) = @printAnswer F32 Sample.f32Text ([97], some r') :=
  ⟨[([97, 32, 49, 10, 98], 2)], [([97], 1), ([98], 2)], by decide, by decide +kernel⟩

/-! ### The hypotheses can be met -/

/-- Numbers are printed as in `Sample.f32Text`, integers here. -/
@[instance_reducible] def Sample.intText : NumText Int := ⟨fun x => decimal x.natAbs, fun s => pyInt s⟩

/-- The lines `  c `, an empty one, `zz` and `b`: two answers and one error. -/
def Sample.someAnswers : Answers Int := similarLoop (Sel.sorting Int) Sample.embSim 2 none
  [[32, 32, 99, 32, 10], [10], [122, 122, 10], [98, 10]]

theorem Sample.someAnswers_eq : Sample.someAnswers =
    ([([99], some [([101], 10), ([100], 10)]), ([122, 122], none),
      ([98], some [([99], 10), ([100], 6)])], .ok ()) := by
  decide +kernel

/-- `e 10`, `d 10`, `c 10`, `d 6` -/
example : @Readable Int Sample.intText Sample.someAnswers.1 ∧
    @Answers.stdout Int Sample.intText Sample.someAnswers =
      [101, 32, 49, 48, 10, 100, 32, 49, 48, 10, 99, 32, 49, 48, 10, 100, 32, 54, 10] := by
  rw [Sample.someAnswers_eq]
  refine ⟨@Readable.mk Int Sample.intText _ ?_ ?_ ?_, by decide +kernel⟩ <;>
    (simp only [List.mem_cons, List.not_mem_nil, or_false]
     rintro a (rfl | rfl | rfl)) <;> try (intro res hr; cases hr) <;> decide +kernel
  all_goals simp

/-- One query has no answer. -/
example : Sample.someAnswers.stderr similarMessage = similarMessage ++ [122, 122, 10] ∧
    10 ∉ similarMessage ∧ ∀ x ∈ Sample.someAnswers.1, x.2 = none → 10 ∉ x.1 := by
  rw [Sample.someAnswers_eq]
  refine ⟨by decide +kernel, by decide +kernel, ?_⟩
  simp only [List.mem_cons, List.not_mem_nil, or_false]
  rintro x (rfl | rfl | rfl) _ <;> decide

/-- Natural numbers are printed faithfully. -/
example : Function.Injective (@NumText.str Nat ⟨decimal, fun _ => .ok 0⟩) := by
  intro m n h
  have h1 := pyInt_decimal m
  rw [show decimal m = decimal n from h, pyInt_decimal n] at h1
  exact (Int.ofNat_inj.mp (Except.ok.inj h1)).symm

/-- `a b c` is answered, the blank line ends the program. -/
example : analogyLoop (Sel.sorting Int) Sample.embSim 2 [] none [[97, 32, 98, 32, 99, 10], [10]] =
    ([(queryText [97] [98] [99], some [([101], -1), ([100], -2)])], .error .valueError) := by
  decide +kernel

/-- The file `f` holds embeddings that were written, the file `q` the lines `  ab ` and nothing. -/
example : ∃ (fs : FS) (bs : Bytes), BuiltEmb Sample.embBucket ∧
    TomlOk Sample.toml Sample.embBucket.metadata ∧
    (Sample.embBucket.write Sample.toml).file = (.ok (), bs) ∧
    (∀ ix, Sample.embBucket.vocab.sub ≠ some (.expl ix)) ∧
    fs [102] = some bs ∧ fs [113] = some [32, 32, 97, 98, 32, 10, 10] ∧
    @Yields Sample.textIO false [32, 32, 97, 98, 32, 10, 10] [[32, 32, 97, 98, 32], []] none := by
  obtain ⟨bs, hbs⟩ : ∃ bs, (Sample.embBucket.write Sample.toml).file = (.ok (), bs) :=
    ⟨_, Sample.file_ok Sample.writeBucket⟩
  exact ⟨fun p => if p = [102] then some bs else some [32, 32, 97, 98, 32, 10, 10], bs,
    Sample.builtEmbBucket, Sample.tomlBucket, hbs, (fun ix h => by cases h), if_pos rfl, if_neg (by decide),
    @Sample.yieldsLf Sample.textIO _ _ _ (by decide) (by decide)⟩

end FF
