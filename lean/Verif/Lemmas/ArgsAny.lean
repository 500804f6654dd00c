import Verif.Lemmas.ArgsTools
import Verif.Spec.ArgsAny
import Mathlib.Data.List.TakeWhile
/-!
# Lemmas about command lines: any words at all
-/

namespace FF

section
variable {acts : List Act}

/-! ### Tokens -/

theorem optTuples_act {s : PyStr} {t : OptTuple} (h : t ∈ optTuples acts s) : ∃ f a, t.act = some a ∧ IsFlag acts f a := by
  rcases s with _ | ⟨c0, _ | ⟨c, rest⟩⟩
  · simp [optTuples] at h
  · simp [optTuples] at h
  · rw [optTuples] at h
    split_ifs at h with hc
    · simp only [List.mem_map, List.mem_filter] at h
      obtain ⟨q, ⟨hq, -⟩, rfl⟩ := h
      exact ⟨q.1, q.2, rfl, mem_optMap.1 hq⟩
    · simp only [List.mem_filterMap] at h
      obtain ⟨q, hq, h⟩ := h
      refine ⟨q.1, q.2, ?_, mem_optMap.1 hq⟩
      split_ifs at h <;> · cases h; rfl

theorem parseOptional_act (hs : Sound acts) {s : PyStr} {t : OptTuple} (h : parseOptional acts s = .ok (some t)) {a : Act}
    (ha : t.act = some a) : a ∈ acts ∧ a.flags ≠ [] := by
  have key : ∀ f, IsFlag acts f a → a ∈ acts ∧ a.flags ≠ [] := fun f hf => ⟨hf.1, hf.flags_ne⟩
  rcases s with _ | ⟨c, cs⟩
  · cases h
  rw [parseOptional] at h
  by_cases h1 : c ≠ 45
  · rw [if_pos h1] at h
    cases h
  rw [if_neg h1] at h
  rcases hf : findOpt acts (c :: cs) with _ | b
  · rw [hf] at h
    simp only at h
    by_cases h2 : cs = []
    · rw [if_pos h2] at h
      cases h
    rw [if_neg h2] at h
    rcases hp : (partitionEq (c :: cs)).2 with _ | x
    · rw [hp] at h
      simp only at h
      rcases ho : optTuples acts (c :: cs) with _ | ⟨t', _ | ⟨t'', ts⟩⟩
      · rw [ho] at h
        simp only at h
        split_ifs at h <;> cases h
        cases ha
      · rw [ho] at h
        cases h
        obtain ⟨f, b, h3, h4⟩ := optTuples_act (acts := acts) (s := c :: cs) (t := t) (by rw [ho]; exact List.mem_singleton_self _)
        rw [ha] at h3
        cases h3
        exact key f h4
      · rw [ho] at h
        cases h
    · rcases hg : findOpt acts (partitionEq (c :: cs)).1 with _ | b
      · rw [hp, hg] at h
        simp only at h
        rcases ho : optTuples acts (c :: cs) with _ | ⟨t', _ | ⟨t'', ts⟩⟩
        · rw [ho] at h
          simp only at h
          split_ifs at h <;> cases h
          cases ha
        · rw [ho] at h
          cases h
          obtain ⟨f, b, h3, h4⟩ := optTuples_act (acts := acts) (s := c :: cs) (t := t) (by rw [ho]; exact List.mem_singleton_self _)
          rw [ha] at h3
          cases h3
          exact key f h4
        · rw [ho] at h
          cases h
      · rw [hp, hg] at h
        cases h
        cases ha
        exact key _ ((findOpt_iff hs).1 hg)
  · rw [hf] at h
    cases h
    cases ha
    exact key _ ((findOpt_iff hs).1 hf)

theorem classify_any (hs : Sound acts) : ∀ (argv : List PyStr) (ts : List Tok), classify acts argv = .ok ts →
    ts.map Tok.word = argv ∧ (∀ s t, Tok.opt s t ∈ ts → ∀ a, t.act = some a → a ∈ acts ∧ a.flags ≠ []) ∧
    (Tok.arg [45, 45] ∈ ts → 2 ≤ argv.count [45, 45]) := by
  intro argv
  induction argv with
  | nil => intro ts h; cases h; exact ⟨rfl, by simp, by simp⟩
  | cons s ss ih =>
    intro ts h
    rw [classify] at h
    split_ifs at h with h1
    · cases h
      subst h1
      refine ⟨?_, ?_, ?_⟩
      · simp [Tok.word, Function.comp_def]
      · intro s t hm
        simp at hm
      · intro hm
        simp only [List.mem_cons, reduceCtorEq, List.mem_map, Tok.arg.injEq, exists_eq_right, false_or] at hm
        rw [List.count_cons_self]
        have := List.count_pos_iff.2 hm
        omega
    · rcases hp : parseOptional acts s with x | t
      · rw [hp] at h
        cases h
      · rcases hc : classify acts ss with x | ts'
        · rw [hp, hc] at h
          cases h
        · rw [hp, hc] at h
          simp only [ex_bind_ok, ex_pure, Except.ok.injEq] at h
          obtain ⟨i1, i2, i3⟩ := ih ts' hc
          subst h
          rw [List.count_cons_of_ne h1]
          rcases t with _ | t
          · refine ⟨by simp [Tok.word, i1], ?_, ?_⟩
            · intro s' t' hm
              simp only [List.mem_cons, reduceCtorEq, false_or] at hm
              exact i2 s' t' hm
            · intro hm
              rcases List.mem_cons.1 hm with e | hm
              · exact absurd (Tok.arg.inj e).symm h1
              · exact i3 hm
          · refine ⟨by simp [Tok.word, i1], ?_, ?_⟩
            · intro s' t' hm a ha
              rcases List.mem_cons.1 hm with e | hm
              · obtain ⟨rfl, rfl⟩ := Tok.opt.inj e
                exact parseOptional_act hs hp ha
              · exact i2 s' t' hm a ha
            · intro hm
              simp only [List.mem_cons, reduceCtorEq, false_or] at hm
              exact i3 hm

/-! ### Options -/

theorem matchOpt_arity {a : Act} (ho : a.nargs ≠ .opt) {ts : List Tok} {n : Nat} (h : matchOpt a ts = .ok n) :
    ArityOk a ((ts.take n).map Tok.word) := by
  rw [matchOpt] at h
  rcases hn : a.nargs
  · rw [hn] at h
    cases h
    exact Or.inl ⟨hn, rfl⟩
  · simp only [hn] at h
    split_ifs at h with h0
    cases h
    refine Or.inr (Or.inl ⟨hn, ?_⟩)
    rcases ts with _ | ⟨t, ts⟩
    · simp at h0
    · exact ⟨t.word, by simp⟩
  · exact absurd hn ho
  · simp only [hn] at h
    split_ifs at h with h0
    cases h
    refine Or.inr (Or.inr ⟨hn, ?_⟩)
    rcases ts with _ | ⟨t, ts⟩
    · simp at h0
    · intro e
      rcases hl : ((t :: ts).takeWhile Tok.isArg).length with _ | m
      · exact h0 hl
      · rw [hl] at e
        simp at e

theorem optChain_good (hs : Sound acts) (ts : List Tok) : ∀ (fuel : Nat) (a : Act) (flag : PyStr) (sep : Bool) (x : Option PyStr)
    (r : List (Act × List PyStr) × List PyStr × Nat), a ∈ acts → a.flags ≠ [] → optChain acts ts fuel a flag sep x = .ok r →
    ∀ o ∈ r.1, GoodOpt acts o := by
  intro fuel
  induction fuel with
  | zero =>
    intro a flag sep x r ha hf h
    rcases x with _ | x
    · rw [optChain] at h
      rcases hm : matchOpt a ts with y | n
      · rw [hm] at h; cases h
      · rw [hm] at h
        simp only [ex_bind_ok, ex_pure, Except.ok.injEq] at h
        subst h
        intro o ho
        simp only [List.mem_singleton] at ho
        subst ho
        exact ⟨ha, hf, matchOpt_arity (hs.kinds a ha hf).2.1 hm⟩
    · rw [optChain] at h
      cases h
  | succ fuel ih =>
    intro a flag sep x r ha hf h
    rcases x with _ | x
    · rw [optChain] at h
      rcases hm : matchOpt a ts with y | n
      · rw [hm] at h; cases h
      · rw [hm] at h
        simp only [ex_bind_ok, ex_pure, Except.ok.injEq] at h
        subst h
        intro o ho
        simp only [List.mem_singleton] at ho
        subst ho
        exact ⟨ha, hf, matchOpt_arity (hs.kinds a ha hf).2.1 hm⟩
    · rw [optChain] at h
      rcases hm : matchOpt a [.arg x] with y | n
      · rw [hm] at h; cases h
      · rw [hm] at h
        have har := matchOpt_arity (hs.kinds a ha hf).2.1 hm
        simp only [ex_bind_ok] at h
        by_cases h1 : n = 0 ∧ flag[1]? ≠ some 45 ∧ x ≠ []
        · rw [if_pos h1] at h
          obtain ⟨rfl, -⟩ := h1
          by_cases h2 : sep = true ∨ x.head? = some 45
          · rw [if_pos h2] at h
            cases h
          · rw [if_neg h2] at h
            rcases hfo : findOpt acts (45 :: x.take 1) with _ | a'
            · rw [hfo] at h
              simp only [ex_pure, Except.ok.injEq] at h
              subst h
              intro o ho
              simp only [List.mem_singleton] at ho
              subst ho
              exact ⟨ha, hf, har⟩
            · rw [hfo] at h
              simp only at h
              have hfl := (findOpt_iff hs).1 hfo
              generalize (if x.drop 1 = [] then (false, none)
                else if (x.drop 1).head? = some 61 then (true, some ((x.drop 1).drop 1))
                else (false, some (x.drop 1)) : Bool × Option PyStr) = sa at h
              rcases hr : optChain acts ts fuel a' (45 :: x.take 1) sa.1 sa.2 with y | r'
              · rw [hr] at h; cases h
              · rw [hr] at h
                simp only [ex_bind_ok, ex_pure, Except.ok.injEq] at h
                subst h
                intro o ho
                rcases List.mem_cons.1 ho with rfl | ho
                · exact ⟨ha, hf, har⟩
                · exact ih a' _ _ _ r' hfl.1 hfl.flags_ne hr o ho
        · rw [if_neg h1] at h
          by_cases h3 : n = 1
          · rw [if_pos h3] at h
            subst h3
            simp only [ex_pure, Except.ok.injEq] at h
            subst h
            intro o ho
            simp only [List.mem_singleton] at ho
            subst ho
            exact ⟨ha, hf, har⟩
          · rw [if_neg h3] at h
            cases h

/-! ### Words of positional arguments -/

/-- The words in a value -/
def valWords : Val → List PyStr
  | .str s => [s]
  | _ => []

theorem dashRun_count (ts : List Tok) : ((ts.take (dashRun ts)).map Tok.word).count [45, 45] = dashRun ts := by
  induction ts with
  | nil => rfl
  | cons t ts ih =>
    by_cases h : t = .dashes
    · subst h
      have : dashRun (Tok.dashes :: ts) = dashRun ts + 1 := by simp [dashRun]
      rw [this]
      simp only [List.take_succ_cons, List.map_cons, Tok.word]
      rw [List.count_cons_self, ih]
    · have : dashRun (t :: ts) = 0 := by simp [dashRun, h]
      rw [this]
      rfl

theorem dashRun_le (ts : List Tok) : dashRun ts ≤ ts.length := (List.takeWhile_prefix _).length_le

theorem dashRun_noOpt (ts : List Tok) : ∀ t ∈ ts.take (dashRun ts), t.isOpt = false := by
  intro t ht
  have : ts.take (dashRun ts) = ts.takeWhile fun t => t = .dashes := by
    rw [dashRun]
    exact (List.prefix_iff_eq_take.1 (List.takeWhile_prefix _)).symm
  rw [this] at ht
  have := List.mem_takeWhile_imp ht
  simp only [decide_eq_true_eq] at this
  rw [this]
  rfl

/-- Of the words of a positional argument all but one are `--`. -/
theorem matchPos_count {a : Act} {ts : List Tok} {n : Nat} (h : matchPos a ts = some n) :
    n ≤ ts.length ∧ n ≤ ((ts.take n).map Tok.word).count [45, 45] + 1 ∧ (a.nargs = .one → ∃ s, Tok.arg s ∈ ts.take n) ∧
      ∀ t ∈ ts.take n, t.isOpt = false := by
  have h1 := dashRun_count ts
  have h0 := dashRun_le ts
  have hopt : (if a.nargs = .opt then some (dashRun ts) else none) = some n →
      n ≤ ts.length ∧ n ≤ ((ts.take n).map Tok.word).count [45, 45] + 1 ∧ (a.nargs = .one → ∃ s, Tok.arg s ∈ ts.take n) ∧
      ∀ t ∈ ts.take n, t.isOpt = false := by
    intro h
    split_ifs at h with ho
    cases h
    refine ⟨h0, by omega, fun h1 => ?_, dashRun_noOpt ts⟩
    rw [ho] at h1
    cases h1
  rw [matchPos] at h
  rcases hd : ts.drop (dashRun ts) with _ | ⟨t, rest⟩
  · rw [hd] at h
    exact hopt h
  · rw [hd] at h
    rcases t with ⟨s, t⟩ | s | _
    · exact hopt h
    · simp only [Option.some.injEq] at h
      subst h
      have hts : ts = ts.take (dashRun ts) ++ (Tok.arg s :: rest) := by rw [← hd, List.take_append_drop]
      have hl : (ts.take (dashRun ts)).length = dashRun ts := List.length_take_of_le h0
      have ht : ts.take (dashRun ts + 1 + dashRun rest) = ts.take (dashRun ts) ++ (Tok.arg s :: rest.take (dashRun rest)) := by
        rw [show dashRun ts + 1 + dashRun rest = dashRun ts + (dashRun rest + 1) by omega, List.take_add, hd, List.take_succ_cons]
      rw [ht]
      refine ⟨?_, ?_, fun _ => ⟨s, by simp⟩, ?_⟩
      · have := congrArg List.length hts
        have := dashRun_le rest
        simp only [List.length_append, List.length_cons] at *
        omega
      · rw [List.map_append, List.count_append, h1, List.map_cons]
        have := dashRun_count rest
        have := List.count_le_count_cons (a := ([45, 45] : PyStr)) (b := (Tok.arg s).word) (l := (rest.take (dashRun rest)).map Tok.word)
        omega
      · intro t ht
        rcases List.mem_append.1 ht with ht | ht
        · exact dashRun_noOpt ts t ht
        · rcases List.mem_cons.1 ht with rfl | ht
          · rfl
          · exact dashRun_noOpt rest t ht
    · exact hopt h

/-- What a positional argument may get -/
def PosVal (argv : List PyStr) (a : Act) (v : Val) : Prop :=
  (∃ s, v = .str s) ∨ (a.nargs = .opt ∧ v = a.default) ∨ 2 ≤ argv.count [45, 45]

theorem getValues_any {argv : List PyStr} {a : Act} (ha : PosAct a) (hd : a.nargs = .opt → valWords a.default = []) {ts : List Tok}
    {n : Nat} (h : matchPos a ts = some n) (hc : ((ts.take n).map Tok.word).count [45, 45] ≤ argv.count [45, 45])
    (ha2 : Tok.arg [45, 45] ∈ ts → 2 ≤ argv.count [45, 45]) {v : Val}
    (hv : getValues a ((ts.take n).map Tok.word) = .ok v) : PosVal argv a v ∧ (valWords v).Sublist ((ts.take n).map Tok.word) := by
  obtain ⟨h0, h1, h2, -⟩ := matchPos_count h
  have hlen : ((ts.take n).map Tok.word).length = n := by rw [List.length_map, List.length_take_of_le h0]
  have hmem : ∀ s, Tok.arg s ∈ ts.take n → s ∈ (ts.take n).map Tok.word := fun s hs => List.mem_map.2 ⟨_, hs, rfl⟩
  have hone : a.nargs = .one → ((ts.take n).map Tok.word).erase [45, 45] = [] → 2 ≤ argv.count [45, 45] := by
    intro hn he
    obtain ⟨s, hs⟩ := h2 hn
    by_cases e : s = [45, 45]
    · subst e
      exact ha2 (List.mem_of_mem_take hs)
    · have := (List.mem_erase_of_ne e).2 (hmem s hs)
      rw [he] at this
      cases this
  generalize (ts.take n).map Tok.word = w at *
  have hsub : (w.erase [45, 45]).Sublist w := List.erase_sublist
  have hlong : 2 ≤ (w.erase [45, 45]).length → 2 ≤ argv.count [45, 45] := by
    intro h3
    by_cases hm : [45, 45] ∈ w
    · have := List.length_erase_of_mem hm
      omega
    · rw [List.erase_of_not_mem hm] at h3
      rw [List.count_eq_zero_of_not_mem hm] at h1
      omega
  obtain ⟨p1, p2, p3, p4⟩ := ha
  rw [getValues] at hv
  simp only [p1, if_true, p2, reduceCtorEq, if_false, checkChoice, p3] at hv
  rcases he : w.erase [45, 45] with _ | ⟨x, _ | ⟨y, ys⟩⟩
  · rw [he] at hv
    rcases p4 with p4 | p4
    · rw [p4] at hv
      simp only [List.mapM_nil, ex_pure, ex_bind_ok, Except.ok.injEq] at hv
      subst hv
      exact ⟨Or.inr (Or.inr (hone p4 he)), List.nil_sublist _⟩
    · rw [p4] at hv
      cases hv
      exact ⟨Or.inr (Or.inl ⟨p4, rfl⟩), by rw [hd p4]; exact List.nil_sublist _⟩
  · rw [he] at hv
    have : v = .str x := by
      rcases p4 with p4 | p4 <;> · rw [p4] at hv; cases hv; rfl
    subst this
    exact ⟨Or.inl ⟨x, rfl⟩, by rw [he] at hsub; exact hsub⟩
  · rw [he] at hlong
    have h3 := hlong (by simp)
    refine ⟨Or.inr (Or.inr h3), ?_⟩
    have : ∃ xs, v = .list xs := by
      rw [he] at hv
      rcases p4 with p4 | p4 <;>
      · rw [p4] at hv
        simp only at hv
        generalize List.mapM (m := Except Exit) _ (x :: y :: ys) = r at hv
        rcases r with r | r
        · cases hv
        · cases hv
          exact ⟨_, rfl⟩
    obtain ⟨xs, rfl⟩ := this
    exact List.nil_sublist _

/-! ### The loop -/

/-- What an option may get -/
def OptVal (a : Act) (v : Val) : Prop := v = a.default ∨ ∃ args, ArityOk a args ∧ meaning a args = .ok v

/-- A word that is understood as options -/
def Understood (acts : List Act) (s : PyStr) (t : OptTuple) : Prop :=
  ∃ a os n ts, t.act = some a ∧ optChain acts ts (s.length + 1) a t.flag t.sep t.arg = .ok (os, [], n)

/-- What holds after the words `front`: the positional arguments `done` have the values `vs`. -/
structure AnyInv (acts : List Act) (argv : List PyStr) (done : List Act) (vs : List Val) (front : List Tok) (st : PState) : Prop where
  pos : acts.filter (fun a => a.flags = []) = done ++ st.pos
  opts : ∀ a ∈ acts, a.flags ≠ [] → a.kind ≠ .help → ∃ v, st.ns.get? a.dest = some v ∧ OptVal a v
  rest : ∀ a ∈ st.pos, st.ns.get? a.dest = some a.default ∧ a.dest ∉ st.seen
  vals : List.Forall₂ (fun a v => st.ns.get? a.dest = some v ∧ PosVal argv a v) done vs
  words : (vs.flatMap valWords).Sublist (front.map Tok.word)
  known : st.extras = [] → ∀ s t, Tok.opt s t ∈ front → Understood acts s t

theorem mem_pos {done as : List Act} (h : acts.filter (fun a => a.flags = []) = done ++ as) {a : Act} (ha : a ∈ done ++ as) :
    a ∈ acts ∧ a.flags = [] := by
  rw [← h] at ha
  simpa using ha

theorem AnyInv.put_opt (hs : Sound acts) {argv : List PyStr} {done : List Act} {vs : List Val} {front : List Tok} {st : PState}
    (h : AnyInv acts argv done vs front st) {o : Act × List PyStr} (ho : GoodOpt acts o) {v : Val}
    (hv : meaning o.1 o.2 = .ok v) : AnyInv acts argv done vs front (st.put o.1 v) := by
  have hne : ∀ b ∈ done ++ st.pos, o.1.dest ≠ b.dest := by
    intro b hb e
    obtain ⟨h1, h2⟩ := mem_pos h.pos hb
    have := dest_inj hs ho.1 h1 e
    exact ho.2.1 (this ▸ h2)
  refine ⟨h.pos, fun a ha hf hk => ?_, fun a ha => ?_, ?_, h.words, h.known⟩
  · rw [get_put]
    by_cases hd : o.1.dest = a.dest
    · rw [if_pos hd]
      have := dest_inj hs ho.1 ha hd
      subst this
      exact ⟨v, rfl, Or.inr ⟨o.2, ho.2.2, hv⟩⟩
    · rw [if_neg hd]
      exact h.opts a ha hf hk
  · have hd := hne a (List.mem_append_right _ ha)
    rw [get_put, if_neg hd]
    refine ⟨(h.rest a ha).1, ?_⟩
    simp only [PState.put, List.mem_cons, not_or]
    exact ⟨Ne.symm hd, (h.rest a ha).2⟩
  · refine (List.forall₂_iff_get.2 ?_)
    obtain ⟨hl, hg⟩ := List.forall₂_iff_get.1 h.vals
    refine ⟨hl, fun i h1 h2 => ?_⟩
    have := hg i h1 h2
    rw [get_put, if_neg (hne _ (List.mem_append_left _ (List.get_mem done ⟨i, h1⟩)))]
    exact this

theorem AnyInv.opts_fold (hs : Sound acts) {argv : List PyStr} {done : List Act} {vs : List Val} {front : List Tok} :
    ∀ (os : List (Act × List PyStr)), (∀ o ∈ os, GoodOpt acts o) → ∀ (st st' : PState), AnyInv acts argv done vs front st →
      os.foldlM (fun st p => takeAction st p.1 p.2) st = .ok st' →
      AnyInv acts argv done vs front st' ∧ st'.extras = st.extras ∧ st'.pos = st.pos := by
  intro os
  induction os with
  | nil => intro _ st st' h hf; cases hf; exact ⟨h, rfl, rfl⟩
  | cons o os ih =>
    intro hg st st' h hf
    rw [List.foldlM_cons, take_meaning hs (hg o List.mem_cons_self) st] at hf
    rcases hm : meaning o.1 o.2 with x | v
    · rw [hm] at hf
      cases hf
    · rw [hm] at hf
      simp only [ex_bind_ok] at hf
      obtain ⟨h1, h2, h3⟩ := ih (fun o' ho => hg o' (List.mem_cons_of_mem _ ho)) (st.put o.1 v) st'
        (h.put_opt hs (hg o List.mem_cons_self) hm) hf
      exact ⟨h1, h2, h3⟩

/-- More words are read that are no options. -/
theorem AnyInv.skip {argv : List PyStr} {done : List Act} {vs : List Val} {front : List Tok} {st : PState}
    (h : AnyInv acts argv done vs front st) (more : List Tok) (hm : ∀ t ∈ more, t.isOpt = false) (ex : List PyStr) :
    AnyInv acts argv done vs (front ++ more) { st with extras := st.extras ++ ex } := by
  refine ⟨h.pos, h.opts, h.rest, h.vals, ?_, fun he s t ht => ?_⟩
  · rw [List.map_append]
    exact h.words.trans (List.sublist_append_left _ _)
  · rcases List.mem_append.1 ht with ht | ht
    · exact h.known (List.append_eq_nil_iff.1 he).1 s t ht
    · exact absurd (hm _ ht) (by simp [Tok.isOpt])

theorem AnyInv.put_pos (hs : Sound acts) {argv : List PyStr} {done : List Act} {vs : List Val} {front : List Tok} {st : PState}
    {a : Act} {as : List Act} (h : AnyInv acts argv done vs front { st with pos := a :: as }) {v : Val} (hp : PosVal argv a v)
    {more : List Tok} (hm : ∀ t ∈ more, t.isOpt = false) (hsub : (valWords v).Sublist (more.map Tok.word)) :
    AnyInv acts argv (done ++ [a]) (vs ++ [v]) (front ++ more) { st.put a v with pos := as } := by
  have hpos := h.pos
  simp only at hpos
  have hnd : ((done ++ a :: as).map Act.dest).Nodup := by
    rw [← hpos]
    exact hs.dests.sublist (List.filter_sublist.map _)
  rw [List.map_append, List.map_cons, List.nodup_append, List.nodup_cons] at hnd
  obtain ⟨-, ⟨n1, -⟩, n2⟩ := hnd
  have hget : ∀ d, Dict.get? ({ st.put a v with pos := as } : PState).ns d = if a.dest = d then some v else st.ns.get? d :=
    fun d => get_put st a v d
  refine ⟨by rw [hpos]; simp, fun b hb hf hk => ?_, fun b hb => ?_, ?_, ?_, fun he s t ht => ?_⟩
  · obtain ⟨ha, haf⟩ := mem_pos hpos (a := a) (by simp)
    have : a.dest ≠ b.dest := by
      intro e
      have := dest_inj hs ha hb e
      rw [this] at haf
      exact hf haf
    rw [hget, if_neg this]
    exact h.opts b hb hf hk
  · have hd : a.dest ≠ b.dest := fun e => n1 (e ▸ List.mem_map.2 ⟨b, hb, rfl⟩)
    rw [hget, if_neg hd]
    have := h.rest b (List.mem_cons_of_mem _ hb)
    refine ⟨this.1, ?_⟩
    simp only [PState.put, List.mem_cons, not_or]
    exact ⟨Ne.symm hd, this.2⟩
  · refine List.rel_append ?_ ?_
    · obtain ⟨hl, hg⟩ := List.forall₂_iff_get.1 h.vals
      refine List.forall₂_iff_get.2 ⟨hl, fun i h1 h2 => ?_⟩
      have hd : a.dest ≠ (done.get ⟨i, h1⟩).dest :=
        fun e => n2 _ (List.mem_map.2 ⟨_, List.get_mem done ⟨i, h1⟩, rfl⟩) _ List.mem_cons_self e.symm
      rw [hget, if_neg hd]
      exact hg i h1 h2
    · refine .cons ⟨?_, hp⟩ .nil
      rw [hget, if_pos rfl]
  · rw [List.flatMap_append, List.map_append]
    refine h.words.append ?_
    simpa using hsub
  · rcases List.mem_append.1 ht with ht | ht
    · exact h.known he s t ht
    · exact absurd (hm _ ht) (by simp [Tok.isOpt])

theorem posAct_of (hs : Sound acts) {a : Act} (ha : a ∈ acts) (hf : a.flags = []) : PosAct a :=
  ⟨hf, hs.positional a ha hf⟩

section
variable {argv : List PyStr}

/-- The words of a command line -/
structure Words (acts : List Act) (argv : List PyStr) (ts : List Tok) : Prop where
  word : ts.map Tok.word = argv
  second : Tok.arg [45, 45] ∈ ts → 2 ≤ argv.count [45, 45]
  act : ∀ s t, Tok.opt s t ∈ ts → ∀ a, t.act = some a → a ∈ acts ∧ a.flags ≠ []

theorem AnyInv.take (hs : Sound acts) (hd : ∀ a ∈ acts, a.flags = [] → a.nargs = .opt → valWords a.default = []) {ts0 : List Tok}
    (hw : Words acts argv ts0) : ∀ (as : List Act) (st : PState) (done : List Act) (vs : List Val) (front ts : List Tok)
    (r : PState × List Tok), AnyInv acts argv done vs front { st with pos := as } → front ++ ts = ts0 →
    takePositionals st as (greedy as ts) ts = .ok r →
    ∃ done' vs' more, AnyInv acts argv done' vs' (front ++ more) { r.1 with pos := as.drop (greedy as ts).length } ∧ more ++ r.2 = ts ∧
      r.1.extras = st.extras := by
  intro as
  induction as with
  | nil =>
    intro st done vs front ts r h hc ht
    cases ht
    exact ⟨done, vs, [], by simpa using h, rfl, rfl⟩
  | cons a as ih =>
    intro st done vs front ts r h hc ht
    rw [greedy] at ht ⊢
    rcases hm : matchPos a ts with _ | n
    · rw [hm] at ht
      cases ht
      exact ⟨done, vs, [], by simpa using h, rfl, rfl⟩
    · rw [hm] at ht
      simp only [takePositionals] at ht
      obtain ⟨ha, haf⟩ := mem_pos h.pos (a := a) (by simp)
      have hpa := posAct_of hs ha haf
      rcases hv : getValues a ((ts.take n).map Tok.word) with x | v
      · rw [takeAction, hv] at ht
        cases ht
      · rw [takeAction_word hpa st hv] at ht
        simp only [ex_bind_ok] at ht
        have hcnt : ((ts.take n).map Tok.word).count [45, 45] ≤ argv.count [45, 45] := by
          rw [← hw.word, ← hc, List.map_append, List.count_append]
          have := ((List.take_sublist n ts).map Tok.word).count_le [45, 45]
          omega
        obtain ⟨g1, g2⟩ := getValues_any hpa (hd a ha haf) hm hcnt
          (fun hx => hw.second (hc ▸ List.mem_append_right _ hx)) hv
        obtain ⟨-, -, -, hno⟩ := matchPos_count hm
        have hi := h.put_pos hs g1 hno g2
        obtain ⟨d', v', f', i1, i2, i3⟩ := ih (st.put a v) _ _ _ (ts.drop n) r hi
          (by rw [List.append_assoc, List.take_append_drop, hc]) ht
        exact ⟨d', v', ts.take n ++ f', by simpa using i1, by rw [List.append_assoc, i2, List.take_append_drop], i3⟩

theorem AnyInv.positionals (hs : Sound acts) (hd : ∀ a ∈ acts, a.flags = [] → a.nargs = .opt → valWords a.default = []) {ts0 : List Tok}
    (hw : Words acts argv ts0) {st : PState} {done : List Act} {vs : List Val} {front ts : List Tok}
    {r : PState × List Tok} (h : AnyInv acts argv done vs front st) (hc : front ++ ts = ts0)
    (ht : consumePositionals st ts = .ok r) :
    ∃ done' vs' more, AnyInv acts argv done' vs' (front ++ more) r.1 ∧ more ++ r.2 = ts ∧ r.1.extras = st.extras := by
  rw [consumePositionals, matchPartial_greedy] at ht
  rcases hp : takePositionals st st.pos (greedy st.pos ts) ts with x | q
  · simp only [hp] at ht
    cases ht
  · simp only [hp, ex_bind_ok, ex_pure, Except.ok.injEq] at ht
    subst ht
    obtain ⟨d, v, f, h1, h2, h3⟩ := AnyInv.take hs hd hw st.pos st done vs front ts q h hc hp
    exact ⟨d, v, f, h1, h2, h3⟩

theorem optChain_noOpt (ts : List Tok) : ∀ (fuel : Nat) (a : Act) (flag : PyStr) (sep : Bool) (x : Option PyStr)
    (r : List (Act × List PyStr) × List PyStr × Nat), optChain acts ts fuel a flag sep x = .ok r →
    ∀ t ∈ ts.take r.2.2, t.isOpt = false := by
  have hrun : ∀ t ∈ ts.takeWhile Tok.isArg, t.isOpt = false := by
    intro t ht
    have := List.mem_takeWhile_imp ht
    rcases t with _ | _ | _
    · cases this
    · rfl
    · rfl
  have htake : ∀ n ≤ (ts.takeWhile Tok.isArg).length, ∀ t ∈ ts.take n, t.isOpt = false := by
    intro n hn t ht
    refine hrun t ?_
    have h1 : ts.takeWhile Tok.isArg = ts.take (ts.takeWhile Tok.isArg).length :=
      List.prefix_iff_eq_take.1 (List.takeWhile_prefix _)
    rw [h1]
    exact (List.take_subset_take_left ts hn) ht
  have hmatch : ∀ a n, matchOpt a ts = .ok n → ∀ t ∈ ts.take n, t.isOpt = false := by
    intro a n h
    apply htake
    rw [matchOpt] at h
    rcases hn : a.nargs <;> simp only [hn] at h
    · cases h; omega
    · split_ifs at h with h0
      cases h
      omega
    · cases h
      exact Nat.min_le_left _ _
    · split_ifs at h with h0
      cases h
      exact le_rfl
  have hnone : ∀ fuel a flag sep r, optChain acts ts fuel a flag sep none = .ok r → ∀ t ∈ ts.take r.2.2, t.isOpt = false := by
    intro fuel a flag sep r h
    have : optChain acts ts fuel a flag sep none = (do
        let n ← matchOpt a ts
        return ([(a, (ts.take n).map Tok.word)], [], n)) := by cases fuel <;> rfl
    rw [this] at h
    rcases hm : matchOpt a ts with y | n
    · rw [hm] at h; cases h
    · rw [hm] at h
      simp only [ex_bind_ok, ex_pure, Except.ok.injEq] at h
      subst h
      exact hmatch a n hm
  intro fuel
  induction fuel with
  | zero =>
    intro a flag sep x r h
    rcases x with _ | x
    · exact hnone 0 a flag sep r h
    · cases h
  | succ fuel ih =>
    intro a flag sep x r h
    rcases x with _ | x
    · exact hnone _ a flag sep r h
    · rw [optChain] at h
      rcases hm : matchOpt a [.arg x] with y | n
      · rw [hm] at h; cases h
      · rw [hm] at h
        simp only [ex_bind_ok] at h
        by_cases h1 : n = 0 ∧ flag[1]? ≠ some 45 ∧ x ≠ []
        · rw [if_pos h1] at h
          by_cases h2 : sep = true ∨ x.head? = some 45
          · rw [if_pos h2] at h
            cases h
          · rw [if_neg h2] at h
            rcases hfo : findOpt acts (45 :: x.take 1) with _ | a'
            · rw [hfo] at h
              simp only [ex_pure, Except.ok.injEq] at h
              subst h
              intro t ht
              simp at ht
            · rw [hfo] at h
              simp only at h
              generalize (if x.drop 1 = [] then (false, none)
                else if (x.drop 1).head? = some 61 then (true, some ((x.drop 1).drop 1))
                else (false, some (x.drop 1)) : Bool × Option PyStr) = sa at h
              rcases hr : optChain acts ts fuel a' (45 :: x.take 1) sa.1 sa.2 with y | r'
              · rw [hr] at h; cases h
              · rw [hr] at h
                simp only [ex_bind_ok, ex_pure, Except.ok.injEq] at h
                subst h
                exact ih a' _ _ _ r' hr
        · rw [if_neg h1] at h
          by_cases h3 : n = 1
          · rw [if_pos h3] at h
            simp only [ex_pure, Except.ok.injEq] at h
            subst h
            intro t ht
            simp at ht
          · rw [if_neg h3] at h
            cases h

theorem AnyInv.loop (hs : Sound acts) (hd : ∀ a ∈ acts, a.flags = [] → a.nargs = .opt → valWords a.default = []) {ts0 : List Tok}
    (hw : Words acts argv ts0) : ∀ (fuel : Nat) (st : PState) (done : List Act) (vs : List Val) (front ts : List Tok) (r : PState),
    AnyInv acts argv done vs front st → front ++ ts = ts0 → argLoop acts fuel st ts = .ok r →
    ∃ done' vs', AnyInv acts argv done' vs' ts0 r := by
  intro fuel
  induction fuel with
  | zero => intro st done vs front ts r _ _ h; cases h
  | succ fuel ih =>
    intro st done vs front ts r hi hc h
    by_cases hany : ts.any Tok.isOpt = true
    · have hpos : (∀ s t rest, ts ≠ .opt s t :: rest) → ∃ done' vs', AnyInv acts argv done' vs' ts0 r := by
        intro hne
        have hstep : argLoop acts (fuel + 1) st ts = (do
            let r ← consumePositionals st ts
            if r.2.length < ts.length then argLoop acts fuel r.1 r.2
            else
              let extra := ts.takeWhile fun t => !t.isOpt
              argLoop acts fuel { r.1 with extras := r.1.extras ++ extra.map Tok.word } (ts.drop extra.length)) := by
          rcases ts with _ | ⟨⟨s, t⟩ | s | _, rest⟩
          · simp at hany
          · exact absurd rfl (hne s t rest)
          · exact loop_arg _ _ _ _ hany
          · simp only [argLoop, hany, if_true]
        rw [hstep] at h
        rcases hq : consumePositionals st ts with x | q
        · rw [hq] at h; cases h
        · rw [hq] at h
          simp only [ex_bind_ok] at h
          obtain ⟨d1, v1, f1, j1, j2, j3⟩ := hi.positionals hs hd hw hc hq
          by_cases hlt : q.2.length < ts.length
          · rw [if_pos hlt] at h
            exact ih _ _ _ _ _ _ j1 (by rw [List.append_assoc, j2, hc]) h
          · rw [if_neg hlt] at h
            have hf1 : f1 = [] := by
              have e2 := congrArg List.length j2
              simp only [List.length_append] at e2
              exact List.length_eq_zero_iff.1 (by omega)
            subst hf1
            rw [List.append_nil] at j1
            have htw : ∀ t ∈ ts.takeWhile fun t => !t.isOpt, t.isOpt = false := by
              intro t ht
              simpa using List.mem_takeWhile_imp ht
            refine ih _ _ _ _ _ _ (j1.skip (ts.takeWhile fun t => !t.isOpt) htw _) ?_ h
            have hts : (ts.takeWhile fun t => !t.isOpt) ++ ts.drop (ts.takeWhile fun t => !t.isOpt).length = ts := by
              conv_rhs => rw [← List.take_append_drop (ts.takeWhile fun t => !t.isOpt).length ts]
              congr 1
              exact List.prefix_iff_eq_take.1 (List.takeWhile_prefix _)
            rw [List.append_assoc, hts, hc]
      rcases ts with _ | ⟨⟨s, t⟩ | s | _, rest⟩
      · exact hpos (by simp)
      · rw [loop_opt] at h
        rcases hq : consumeOptional acts st s t rest with x | q
        · rw [hq] at h; cases h
        · rw [hq] at h
          simp only [ex_bind_ok] at h
          have hmem : Tok.opt s t ∈ ts0 := by rw [← hc]; simp
          have hdrop : (front ++ Tok.opt s t :: rest.take q.2) ++ rest.drop q.2 = ts0 := by
            rw [List.append_assoc, List.cons_append, List.take_append_drop, hc]
          refine ih _ _ _ _ _ _ (?_ : AnyInv acts argv done vs (front ++ Tok.opt s t :: rest.take q.2) q.1) hdrop h
          rw [consumeOptional] at hq
          rcases ha : t.act with _ | a
          · rw [ha] at hq
            simp only [Except.ok.injEq] at hq
            subst hq
            refine ⟨hi.pos, hi.opts, hi.rest, hi.vals, ?_, fun he => ?_⟩
            · rw [List.map_append]
              exact hi.words.trans (List.sublist_append_left _ _)
            · simp at he
          · rw [ha] at hq
            simp only at hq
            rcases hch : optChain acts rest (s.length + 1) a t.flag t.sep t.arg with x | c
            · rw [hch] at hq; cases hq
            · rw [hch] at hq
              simp only [ex_bind_ok] at hq
              rcases hfo : c.1.foldlM (fun st p => takeAction st p.1 p.2) st with x | st'
              · rw [hfo] at hq; cases hq
              · rw [hfo] at hq
                simp only [ex_bind_ok, ex_pure, Except.ok.injEq] at hq
                subst hq
                obtain ⟨m1, m2⟩ := hw.act s t hmem a ha
                obtain ⟨k1, k2, k3⟩ := AnyInv.opts_fold hs c.1 (optChain_good hs rest _ a _ _ _ c m1 m2 hch) st st' hi hfo
                refine ⟨k1.pos, k1.opts, k1.rest, k1.vals, ?_, fun he s' t' ht => ?_⟩
                · rw [List.map_append]
                  exact k1.words.trans (List.sublist_append_left _ _)
                · obtain ⟨he1, he2⟩ := List.append_eq_nil_iff.1 he
                  rcases List.mem_append.1 ht with ht | ht
                  · exact k1.known he1 s' t' ht
                  · rcases List.mem_cons.1 ht with e | ht
                    · cases e
                      obtain ⟨os, ex, n⟩ := c
                      simp only at he2
                      subst he2
                      exact ⟨a, os, n, rest, ha, hch⟩
                    · exact absurd (optChain_noOpt rest _ _ _ _ _ c hch _ ht) (by simp [Tok.isOpt])
      · exact hpos (by simp)
      · exact hpos (by simp)
    · rw [loop_end _ _ _ hany] at h
      rcases hq : consumePositionals st ts with x | q
      · rw [hq] at h; cases h
      · rw [hq] at h
        simp only [ex_bind_ok, ex_pure, Except.ok.injEq] at h
        obtain ⟨d1, v1, f1, j1, j2, j3⟩ := hi.positionals hs hd hw hc hq
        refine ⟨d1, v1, ?_⟩
        have := j1.skip q.2 (fun t ht => ?_) (q.2.map Tok.word)
        · rw [List.append_assoc, j2, hc, h] at this
          exact this
        · by_contra hx
          refine hany (List.any_eq_true.2 ⟨t, ?_, by simpa using hx⟩)
          rw [← j2]
          exact List.mem_append_right _ ht

/-- What holds of every command line that is accepted -/
theorem parse_any (hs : Sound acts) (hd : ∀ a ∈ acts, a.flags = [] → a.nargs = .opt → valWords a.default = []) {ns : Dict PyStr Val}
    (h : parseArgs acts argv = .ok ns) :
    (∀ a ∈ acts, a.flags ≠ [] → a.kind ≠ .help → ∃ v, ns.get? a.dest = some v ∧ OptVal a v) ∧
    (∃ vs, List.Forall₂ (fun a v => ns.get? a.dest = some v ∧ PosVal argv a v) (acts.filter fun a => a.flags = []) vs ∧
      (vs.flatMap valWords).Sublist argv) ∧
    ∃ ts, classify acts argv = .ok ts ∧ ∀ s t, Tok.opt s t ∈ ts → Understood acts s t := by
  rw [parseArgs] at h
  rcases hc : classify acts argv with x | ts
  · simp only [hc] at h
    cases h
  · simp only [hc, ex_bind_ok] at h
    obtain ⟨c1, c2, c3⟩ := classify_any hs argv ts hc
    generalize hst0 : (⟨(acts.filter fun a => a.kind ≠ .help).map fun a => (a.dest, a.default), [], acts.filter fun a => a.flags = [], []⟩ : PState) = st0 at h
    have hi : AnyInv acts argv [] [] [] st0 := by
      subst hst0
      refine ⟨rfl, fun a ha hf hk => ⟨a.default, get_default hs.dests ha hk, Or.inl rfl⟩, fun a ha => ?_, .nil, .slnil, fun _ s t ht => by cases ht⟩
      simp only [List.mem_filter, decide_eq_true_eq] at ha
      refine ⟨get_default hs.dests ha.1 ?_, by simp⟩
      rw [(hs.positional a ha.1 ha.2).1]
      simp
    rcases hl : argLoop acts (ts.length + 1) st0 ts with x | st
    · rw [hl] at h
      cases h
    · rw [hl] at h
      simp only [ex_bind_ok] at h
      split_ifs at h with h1 h2
      cases h
      obtain ⟨done, vs, k⟩ := AnyInv.loop hs hd ⟨c1, c3, c2⟩ _ st0 [] [] [] ts st hi rfl hl
      push Not at h2
      refine ⟨k.opts, ⟨vs ++ st.pos.map Act.default, ?_, ?_⟩, ts, rfl, k.known h2⟩
      all_goals
        have hopt : ∀ a ∈ st.pos, a ∈ acts ∧ a.flags = [] ∧ a.nargs = .opt := by
          intro a ha
          obtain ⟨m1, m2⟩ := mem_pos k.pos (List.mem_append_right _ ha)
          refine ⟨m1, m2, ?_⟩
          rcases (hs.positional a m1 m2).2.2 with hn | hn
          · refine absurd (List.any_eq_true.2 ⟨a, m1, ?_⟩) h1
            simp [m2, hn, (k.rest a ha).2]
          · exact hn
      · rw [k.pos]
        refine List.rel_append k.vals ?_
        refine List.forall₂_map_right_iff.2 (List.forall₂_same.2 fun a ha => ?_)
        exact ⟨(k.rest a ha).1, Or.inr (Or.inl ⟨(hopt a ha).2.2, rfl⟩)⟩
      · rw [List.flatMap_append]
        have : (st.pos.map Act.default).flatMap valWords = [] := by
          rw [List.flatMap_eq_nil_iff]
          intro v hv
          obtain ⟨a, ha, rfl⟩ := List.mem_map.1 hv
          obtain ⟨m1, m2, m3⟩ := hopt a ha
          exact hd a m1 m2 m3
        rw [this, List.append_nil, ← c1]
        exact k.words

/-! ### Words that are understood -/

theorem chain_short (hs : Sound acts) {ts : List Tok} : ∀ (fuel : Nat) (a : Act) (c : Code) (rest : PyStr)
    (os : List (Act × List PyStr)) (n : Nat), IsFlag acts [45, c] a →
    optChain acts ts fuel a [45, c] (cut rest).1 (cut rest).2 = .ok (os, [], n) → ∃ os p, Short acts (c :: rest) os p := by
  intro fuel
  induction fuel with
  | zero =>
    intro a c rest os n hf h
    rcases rest with _ | ⟨d, r⟩
    · rcases hn : a.nargs
      · exact ⟨_, _, .switch hf hn⟩
      · exact ⟨_, _, .next hf (Or.inl hn)⟩
      · exact absurd hn (hs.kinds a hf.1 hf.flags_ne).2.1
      · exact ⟨_, _, .next hf (Or.inr hn)⟩
    · rw [cut] at h
      split_ifs at h <;> cases h
  | succ fuel ih =>
    intro a c rest os n hf h
    rcases rest with _ | ⟨d, r⟩
    · rcases hn : a.nargs
      · exact ⟨_, _, .switch hf hn⟩
      · exact ⟨_, _, .next hf (Or.inl hn)⟩
      · exact absurd hn (hs.kinds a hf.1 hf.flags_ne).2.1
      · exact ⟨_, _, .next hf (Or.inr hn)⟩
    · have hcase : a.nargs = .zero ∨ a.takes := by
        rcases hn : a.nargs
        · exact Or.inl rfl
        · exact Or.inr (Or.inl hn)
        · exact absurd hn (hs.kinds a hf.1 hf.flags_ne).2.1
        · exact Or.inr (Or.inr hn)
      by_cases hd : d = 61
      · subst hd
        rcases hcase with hz | ht
        · exfalso
          rw [show cut (61 :: r) = (true, some r) from rfl, optChain, matchOpt_zero hz] at h
          simp only [ex_bind_ok, true_or, if_true, Nat.zero_ne_one, if_false] at h
          split_ifs at h <;> cases h
        · exact ⟨_, _, .eq hf ht⟩
      · rcases hcase with hz | ht
        · rw [show cut (d :: r) = (false, some (d :: r)) by rw [cut, if_neg hd], optChain, matchOpt_zero hz] at h
          simp only [ex_bind_ok] at h
          have h45 : c ≠ 45 := by
            rcases hs.cases hf with ⟨e, he, h1, -⟩ | ⟨e, name, he, -⟩
            · cases he; exact h1
            · cases he
          rw [if_pos ⟨trivial, by simpa using h45, by simp⟩] at h
          by_cases h2 : false = true ∨ (d :: r).head? = some 45
          · rw [if_pos h2] at h
            cases h
          · rw [if_neg h2] at h
            have ht1 : (d :: r).take 1 = [d] := rfl
            rw [ht1] at h
            rcases hfo : findOpt acts [45, d] with _ | a'
            · rw [hfo] at h
              cases h
            · rw [hfo] at h
              simp only at h
              have hcut : (if (d :: r).drop 1 = [] then (false, none)
                else if ((d :: r).drop 1).head? = some 61 then (true, some (((d :: r).drop 1).drop 1))
                else (false, some ((d :: r).drop 1)) : Bool × Option PyStr) = cut r := by
                rcases r with _ | ⟨e, r⟩
                · rfl
                · by_cases he : e = 61
                  · simp [cut, he]
                  · simp [cut, he]
              rw [hcut] at h
              rcases hr : optChain acts ts fuel a' [45, d] (cut r).1 (cut r).2 with y | ⟨os', ex, n'⟩
              · rw [hr] at h; cases h
              · rw [hr] at h
                simp only [ex_bind_ok, ex_pure, Except.ok.injEq, Prod.mk.injEq] at h
                obtain ⟨-, rfl, -⟩ := h
                obtain ⟨os2, p2, h5⟩ := ih a' d r os' n' ((findOpt_iff hs).1 hfo) hr
                refine ⟨_, _, .more hf hz ?_ ?_ h5⟩
                · intro e
                  exact h2 (Or.inr e)
                · simpa using hd
        · exact ⟨_, _, .glued hf ht (by simp) (by simpa using hd)⟩

theorem optword_of (hs : Sound acts) {p : PyStr} {a : Act} (ha : a ∈ acts) (hf : a.flags ≠ []) (h : Abbrev acts p a) :
    ∃ os q, OptWord acts p os q := by
  rcases hn : a.nargs
  · exact ⟨_, _, .long h hn⟩
  · exact ⟨_, _, .next h (Or.inl hn)⟩
  · exact absurd hn (hs.kinds a ha hf).2.1
  · exact ⟨_, _, .next h (Or.inr hn)⟩

/-- A word that is understood sets options. -/
theorem understood_word (hs : Sound acts) (hlong : ∃ f g, f ≠ g ∧ (∃ a, IsFlag acts f a) ∧ (∃ b, IsFlag acts g b) ∧ [45, 45] <+: f ∧ [45, 45] <+: g)
    {s : PyStr} (hne : s ≠ [45, 45]) {t : OptTuple} (h : parseOptional acts s = .ok (some t)) (hu : Understood acts s t) :
    ∃ os p, OptWord acts s os p := by
  obtain ⟨a, os, n, ts, ha, hch⟩ := hu
  rcases s with _ | ⟨c0, cs⟩
  · cases h
  have h0 : c0 = 45 := by
    by_contra hx
    rw [parseOptional, if_pos hx] at h
    cases h
  subst h0
  rcases cs with _ | ⟨c, rest⟩
  · have : findOpt acts [45] = none := by
      rw [findOpt_none hs]
      intro b hb
      rcases hs.cases hb with ⟨e, he, -⟩ | ⟨e, name, he, -⟩ <;> cases he
    rw [parseOptional, if_neg (by simp), this] at h
    cases h
  by_cases hc : c = 45
  · subst hc
    -- a long option
    rw [parseOptional, if_neg (by simp)] at h
    have pre2 : ∀ q : PyStr, 61 ∉ q → q ++ [61] <+: 45 :: 45 :: rest → [45, 45] <+: q := by
      intro q hq hp
      rcases q with _ | ⟨q0, _ | ⟨q1, q⟩⟩
      · exact absurd (List.cons_prefix_cons.1 hp).1 (by decide)
      · exact absurd (List.cons_prefix_cons.1 (List.cons_prefix_cons.1 hp).2).1 (by decide)
      · have h1 := List.cons_prefix_cons.1 hp
        have h2 := List.cons_prefix_cons.1 h1.2
        exact List.cons_prefix_cons.2 ⟨h1.1.symm, List.cons_prefix_cons.2 ⟨h2.1.symm, List.nil_prefix⟩⟩
    rcases hf : findOpt acts (45 :: 45 :: rest) with _ | b
    · rw [hf] at h
      simp only [List.cons_ne_nil, if_false] at h
      -- what it stands for
      have hsing : ∀ t', optTuples acts (45 :: 45 :: rest) = [t'] → ∃ os p, OptWord acts (45 :: 45 :: rest) os p := by
        intro t' ho
        rw [optTuples, if_pos rfl] at ho
        obtain ⟨q, hq, -⟩ := List.map_eq_singleton_iff.1 ho
        have hqm : q ∈ (optMap acts).filter fun q => (partitionEq (45 :: 45 :: rest)).1.isPrefixOf q.1 := by rw [hq]; simp
        rw [List.mem_filter] at hqm
        have hflag := mem_optMap.1 (show (q.1, q.2) ∈ optMap acts from hqm.1)
        have hpre := List.isPrefixOf_iff_prefix.1 hqm.2
        have huniq : ∀ g b, IsFlag acts g b → (partitionEq (45 :: 45 :: rest)).1 <+: g → g = q.1 := by
          intro g b hg hp
          have : (g, b) ∈ (optMap acts).filter fun q => (partitionEq (45 :: 45 :: rest)).1.isPrefixOf q.1 :=
            List.mem_filter.2 ⟨mem_optMap.2 hg, List.isPrefixOf_iff_prefix.2 hp⟩
          rw [hq, List.mem_singleton] at this
          rw [← this]
        have hdd : (partitionEq (45 :: 45 :: rest)).1 ≠ [45, 45] := by
          intro e
          rw [e] at huniq
          obtain ⟨f, g, hfg, ⟨a1, h1⟩, ⟨a2, h2⟩, p1, p2⟩ := hlong
          exact hfg ((huniq f a1 h1 p1).trans (huniq g a2 h2 p2).symm)
        rcases partitionEq_cases (45 :: 45 :: rest) with ⟨h61, e⟩ | ⟨p, w, h61, e1, e2⟩
        · rw [e] at huniq hdd hpre
          exact optword_of hs hflag.1 hflag.flags_ne ⟨h61, hdd, ⟨rest, rfl⟩, Or.inr ⟨q.1, hflag, hpre, huniq⟩⟩
        · rw [e2] at huniq hdd hpre
          simp only at huniq hdd hpre
          rw [e1]
          exact ⟨_, _, .eq ⟨h61, hdd, pre2 p h61 ⟨w, by rw [e1]; simp⟩, Or.inr ⟨q.1, hflag, hpre, huniq⟩⟩⟩
      have hrest : (match optTuples acts (45 :: 45 :: rest) with
            | [t] => Except.ok (some t)
            | _ :: _ :: _ => .error .usage
            | [] =>
              if looksNegative (45 :: 45 :: rest) then .ok none
              else if (45 :: 45 :: rest).contains 32 then .ok none
              else .ok (some ⟨none, 45 :: 45 :: rest, false, none⟩)) = (.ok (some t) : Except Exit (Option OptTuple)) →
          ∃ os p, OptWord acts (45 :: 45 :: rest) os p := by
        intro h
        rcases ho : optTuples acts (45 :: 45 :: rest) with _ | ⟨t', _ | ⟨t'', r⟩⟩
        · rw [ho] at h
          simp only at h
          split_ifs at h <;> cases h
          cases ha
        · exact hsing t' ho
        · rw [ho] at h
          cases h
      rcases partitionEq_cases (45 :: 45 :: rest) with ⟨h61, e⟩ | ⟨p, w, h61, e1, e2⟩
      · rw [e] at h
        exact hrest h
      · rcases hg : findOpt acts p with _ | b
        · rw [e2, hg] at h
          exact hrest h
        · have hflag := (findOpt_iff hs).1 hg
          rw [e1]
          have h2 := pre2 p h61 ⟨w, by rw [e1]; simp⟩
          refine ⟨_, _, .eq (a := b) ⟨h61, ?_, h2, Or.inl hflag⟩⟩
          rintro rfl
          rcases hs.cases hflag with ⟨e, he, h1, -⟩ | ⟨e, name, he, -⟩
          · cases he; exact h1 rfl
          · cases he
    · have hflag := (findOpt_iff hs).1 hf
      have h61 : 61 ∉ (45 :: 45 :: rest : PyStr) := by
        rcases hs.flag _ _ hflag with ⟨e, he, hl⟩ | ⟨e, name, he, h1⟩
        · cases he
          revert hl
          decide
        · exact h1
      exact optword_of hs hflag.1 hflag.flags_ne ⟨h61, hne, ⟨rest, rfl⟩, Or.inl hflag⟩
  · -- letters
    by_cases hex : ∃ b, IsFlag acts [45, c] b
    · obtain ⟨b, hb⟩ := hex
      rw [parse_short hs hb] at h
      cases h
      cases ha
      obtain ⟨os2, p2, h2⟩ := chain_short hs _ _ c rest _ _ hb hch
      exact ⟨_, _, .short h2⟩
    · exfalso
      have hno : ∀ p : PyStr, p <+: 45 :: c :: rest → findOpt acts p = none := by
        intro p hp
        rw [findOpt_none hs]
        intro b hb
        rcases hs.cases hb with ⟨e, rfl, -⟩ | ⟨e, name, rfl, -⟩
        · have := (List.cons_prefix_cons.1 (List.cons_prefix_cons.1 hp).2).1
          subst this
          exact hex ⟨b, hb⟩
        · have := (List.cons_prefix_cons.1 (List.cons_prefix_cons.1 hp).2).1
          exact hc this.symm
      have hot := optTuples_short hs hc (rest := rest)
      rw [hno [45, c] ⟨rest, rfl⟩] at hot
      have hp1 : (partitionEq (45 :: c :: rest)).1 <+: 45 :: c :: rest := by
        rcases partitionEq_cases (45 :: c :: rest) with ⟨h61, e⟩ | ⟨p, w, h61, e1, e2⟩
        · rw [e]
        · rw [e2, e1]
          exact ⟨_, rfl⟩
      rw [parseOptional, if_neg (by simp), hno _ (List.prefix_refl _)] at h
      simp only [List.cons_ne_nil, if_false, hno _ hp1, hot] at h
      generalize (partitionEq (45 :: c :: rest)).2 = y at h
      rcases y with _ | x <;>
      · simp only at h
        split_ifs at h <;> cases h
        cases ha

theorem classify_split : ∀ (pre : List PyStr) (w : PyStr) (post : List PyStr) (ts : List Tok), [45, 45] ∉ pre → w ≠ [45, 45] →
    classify acts (pre ++ w :: post) = .ok ts → ∃ t, parseOptional acts w = .ok t ∧ ∀ o, t = some o → Tok.opt w o ∈ ts := by
  intro pre
  induction pre with
  | nil =>
    intro w post ts _ hw h
    rw [List.nil_append, classify, if_neg hw] at h
    rcases hp : parseOptional acts w with x | t
    · rw [hp] at h; cases h
    · refine ⟨t, rfl, ?_⟩
      rw [hp] at h
      rcases hc : classify acts post with x | ts'
      · rw [hc] at h; cases h
      · rw [hc] at h
        simp only [ex_bind_ok, ex_pure, Except.ok.injEq] at h
        rintro o rfl
        rw [← h]
        exact List.mem_cons_self
  | cons s pre ih =>
    intro w post ts hp hw h
    simp only [List.mem_cons, not_or] at hp
    rw [List.cons_append, classify, if_neg (Ne.symm hp.1)] at h
    rcases hs : parseOptional acts s with x | t
    · rw [hs] at h; cases h
    · rw [hs] at h
      rcases hc : classify acts (pre ++ w :: post) with x | ts'
      · rw [hc] at h; cases h
      · rw [hc] at h
        simp only [ex_bind_ok, ex_pure, Except.ok.injEq] at h
        obtain ⟨t', h1, h2⟩ := ih w post ts' hp.2 hw hc
        refine ⟨t', h1, fun o ho => ?_⟩
        rw [← h]
        exact List.mem_cons_of_mem _ (h2 o ho)

theorem parse_known (hs : Sound acts) (hd : ∀ a ∈ acts, a.flags = [] → a.nargs = .opt → valWords a.default = [])
    (hlong : ∃ f g, f ≠ g ∧ (∃ a, IsFlag acts f a) ∧ (∃ b, IsFlag acts g b) ∧ [45, 45] <+: f ∧ [45, 45] <+: g)
    {ns : Dict PyStr Val} (h : parseArgs acts argv = .ok ns) : AllKnown acts argv := by
  intro pre post c rest he hp hne h32 hl
  obtain ⟨-, -, ts, hc, hu⟩ := parse_any hs hd h
  rw [he] at hc
  obtain ⟨t, h1, h2⟩ := classify_split pre _ post ts hp hne hc
  rcases t with _ | t
  · exfalso
    have hneg := looksNegative_letter (rest := rest) hl
    rw [parseOptional, if_neg (by simp)] at h1
    rcases hf : findOpt acts (45 :: c :: rest) with _ | b
    · rw [hf] at h1
      simp only [List.cons_ne_nil, if_false] at h1
      have hrest : (match optTuples acts (45 :: c :: rest) with
            | [t] => Except.ok (some t)
            | _ :: _ :: _ => .error .usage
            | [] =>
              if looksNegative (45 :: c :: rest) then .ok none
              else if (45 :: c :: rest).contains 32 then .ok none
              else .ok (some ⟨none, 45 :: c :: rest, false, none⟩)) ≠ (.ok none : Except Exit (Option OptTuple)) := by
        rcases optTuples acts (45 :: c :: rest) with _ | ⟨t', _ | ⟨t'', r⟩⟩
        · simp only [hneg, Bool.false_eq_true, if_false]
          rw [if_neg]
          · simp
          · rw [List.contains_iff_mem]
            exact h32
        · simp
        · simp
      rcases partitionEq_cases (45 :: c :: rest) with ⟨h61, e⟩ | ⟨p, w, h61, e1, e2⟩
      · rw [e] at h1
        exact hrest h1
      · rcases hg : findOpt acts p with _ | b
        · rw [e2, hg] at h1
          exact hrest h1
        · rw [e2] at h1
          simp only [hg] at h1
          cases h1
    · rw [hf] at h1
      cases h1
  · exact understood_word hs hlong hne h1 (hu _ _ (h2 t rfl))

/-! ### Values for the tools -/

theorem any_format {ns : Dict PyStr Val} {a : Act} (hk : a.kind = .store) (hn : a.nargs = .one) {cs : List PyStr}
    (hc : a.choices = some cs) {P : Format → Prop} (hcs : ∀ s ∈ cs, ∃ f : Format, P f ∧ s = f.name) {d : Format} (hP : P d)
    (hd : a.default = .str d.name) (h : ∃ v, ns.get? a.dest = some v ∧ OptVal a v) :
    ∃ f, P f ∧ formatOf ns a.dest = .ok f := by
  obtain ⟨v, h1, rfl | ⟨args, h2, h3⟩⟩ := h
  · refine ⟨d, hP, ?_⟩
    rw [formatOf, h1, hd]
    simp only [ofName_name]
  · have hlen : args.length ≤ 1 := by
      rcases h2 with ⟨h4, -⟩ | ⟨-, w, rfl⟩ | ⟨h4, -⟩
      · rw [hn] at h4; cases h4
      · simp
      · rw [hn] at h4; cases h4
    obtain ⟨s, hs, rfl⟩ := meaning_choice hk hn hc hlen h3
    obtain ⟨f, hf, rfl⟩ := hcs s hs
    refine ⟨f, hf, ?_⟩
    rw [formatOf, h1]
    simp only [ofName_name]

theorem any_int {ns : Dict PyStr Val} {a : Act} (hk : a.kind = .storeInt) {d : Int} (hd : a.default = .int d)
    (h : ∃ v, ns.get? a.dest = some v ∧ OptVal a v) : ∃ k, intOf ns a.dest = .ok k := by
  obtain ⟨v, h1, rfl | ⟨args, h2, h3⟩⟩ := h
  · exact ⟨d, by rw [intOf, h1, hd]⟩
  · obtain ⟨k, rfl⟩ := meaning_int hk h3
    exact ⟨k, by rw [intOf, h1]⟩

theorem pathOf_any {ns : Dict PyStr Val} {a : Act} {v : Val} (h : ns.get? a.dest = some v) :
    pathOf ns a.dest = .error .typeError ∧ valWords v = [] ∨ ∃ s, v = .str s ∧ valWords v = [s] ∧ pathOf ns a.dest = .ok s := by
  rcases v with s | i | b | xs
  all_goals first
    | exact Or.inl ⟨by rw [pathOf, h], rfl⟩
    | exact Or.inr ⟨_, rfl, rfl, by rw [pathOf, h]⟩

end

end

end FF
