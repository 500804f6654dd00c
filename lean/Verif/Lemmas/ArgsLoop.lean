import Verif.Lemmas.ArgsLine
/-!
# Lemmas about command lines: the loop over the words
-/

namespace FF

section
variable {acts : List Act}

/-! ### Patterns of positional arguments -/

/-- Match the actions one after the other as far as possible. -/
def greedy : List Act → List Tok → List Nat
  | [], _ => []
  | a :: as, ts =>
    match matchPos a ts with
    | none => []
    | some n => n :: greedy as (ts.drop n)

theorem matchAll_take (as : List Act) : ∀ (ts : List Tok) (i : Nat), i ≤ as.length →
    matchAll (as.take i) ts = if i ≤ (greedy as ts).length then some ((greedy as ts).take i) else none := by
  induction as with
  | nil =>
    intro ts i hi
    have : i = 0 := by simpa using hi
    subst this
    simp [matchAll, greedy]
  | cons a as ih =>
    intro ts i hi
    rcases i with _ | i
    · simp [matchAll]
    · rw [List.take_succ_cons, matchAll, greedy]
      rcases matchPos a ts with _ | n
      · simp
      · simp only
        rw [ih _ i (by simpa using hi)]
        by_cases h : i ≤ (greedy as (ts.drop n)).length
        · simp [h]
        · simp [h]

theorem greedy_length (as : List Act) : ∀ ts : List Tok, (greedy as ts).length ≤ as.length := by
  induction as with
  | nil => intro ts; simp [greedy]
  | cons a as ih =>
    intro ts
    rw [greedy]
    rcases matchPos a ts with _ | n
    · simp
    · simpa using ih _

theorem matchPartial_greedy (as : List Act) (ts : List Tok) : matchPartial as ts as.length = greedy as ts := by
  have key : ∀ i, i ≤ as.length → (greedy as ts).length ≤ i → matchPartial as ts i = greedy as ts := by
    intro i
    induction i with
    | zero =>
      intro _ h
      rw [matchPartial]
      exact (List.length_eq_zero_iff.1 (Nat.le_zero.1 h)).symm
    | succ i ih =>
      intro h1 h2
      rw [matchPartial, matchAll_take as ts (i + 1) h1]
      by_cases h : i + 1 ≤ (greedy as ts).length
      · rw [if_pos h]
        simp only
        exact List.take_of_length_le h2
      · rw [if_neg h]
        exact ih (by omega) (by omega)
  exact key _ le_rfl (greedy_length as ts)

/-! ### Runs of words -/

/-- `ts` begins with the words `ws`, of which none is an option, and goes on with `rest`.  A `--` stands between the words only
if nothing else comes after them. -/
inductive Run : List Tok → List PyStr → List Tok → Prop
  | args {ws : List PyStr} {rest} : [45, 45] ∉ ws → (rest = [] ∨ ∃ s t r, rest = .opt s t :: r) →
      Run (ws.map .arg ++ rest) ws rest
  | dashes {ws vs : List PyStr} : [45, 45] ∉ ws → [45, 45] ∉ vs → vs ≠ [] →
      Run (ws.map .arg ++ .dashes :: vs.map .arg) (ws ++ vs) []

theorem dashRun_rest {rest : List Tok} (h : rest = [] ∨ ∃ s t r, rest = .opt s t :: r) : dashRun rest = 0 := by
  rcases h with rfl | ⟨s, t, r, rfl⟩
  · rfl
  · simp [dashRun]

theorem dashRun_args {rest : List Tok} (h : rest = [] ∨ ∃ s t r, rest = .opt s t :: r) (ws : List PyStr) :
    dashRun (ws.map .arg ++ rest) = 0 := by
  rcases ws with _ | ⟨w, ws⟩
  · exact dashRun_rest h
  · simp [dashRun]

/-- A positional argument as the tools have it -/
def PosAct (a : Act) : Prop := a.flags = [] ∧ a.kind = .store ∧ a.choices = none ∧ (a.nargs = .one ∨ a.nargs = .opt)

theorem getValues_pos {a : Act} (ha : PosAct a) {w : PyStr} {args : List PyStr} (h : args.erase [45, 45] = [w]) :
    getValues a args = .ok (.str w) := by
  obtain ⟨h1, h2, h3, h4 | h4⟩ := ha <;> simp [getValues, h1, h2, h3, h4, h, checkChoice]

/-- One positional argument takes one word. -/
theorem match_word {a : Act} (ha : PosAct a) {ts rest : List Tok} {w : PyStr} {ws : List PyStr} (h : Run ts (w :: ws) rest) :
    ∃ n, matchPos a ts = some n ∧ Run (ts.drop n) ws rest ∧ (ts.drop n).length < ts.length ∧
      getValues a ((ts.take n).map Tok.word) = .ok (.str w) := by
  generalize hw : w :: ws = ws' at h
  cases h with
  | @args ws' rest h1 h2 =>
    subst hw
    have hd : dashRun ((w :: ws).map .arg ++ rest) = 0 := dashRun_args h2 _
    have hd' : dashRun (ws.map .arg ++ rest) = 0 := dashRun_args h2 _
    refine ⟨1, ?_, ?_, ?_, getValues_pos ha ?_⟩
    · simp only [List.map_cons, List.cons_append] at hd
      simp [matchPos, hd, hd']
    · simp only [List.map_cons, List.cons_append, List.drop_succ_cons, List.drop_zero]
      exact .args (fun hm => h1 (List.mem_cons_of_mem _ hm)) h2
    · simp
    · have : w ≠ [45, 45] := fun e => h1 (by simp [e])
      simp [Tok.word, this]
  | @dashes us vs h1 h2 h3 =>
    rcases us with _ | ⟨u, us⟩
    · rw [List.nil_append] at hw
      subst hw
      have hd : dashRun ((ws.map .arg : List Tok)) = 0 := by
        have := dashRun_args (rest := []) (Or.inl rfl) ws
        simpa using this
      have hd0 : dashRun (Tok.dashes :: Tok.arg w :: ws.map .arg) = 1 := by simp [dashRun]
      refine ⟨2, ?_, ?_, ?_, getValues_pos ha ?_⟩
      · simp [matchPos, hd0, hd]
      · have := Run.args (ws := ws) (rest := []) (fun hm => h2 (List.mem_cons_of_mem _ hm)) (Or.inl rfl)
        simpa using this
      · simp
      · simp [Tok.word]
    · simp only [List.cons_append, List.cons.injEq] at hw
      obtain ⟨rfl, rfl⟩ := hw
      have hwne : w ≠ [45, 45] := fun e => h1 (by simp [e])
      have hd0 : ∀ r, dashRun (Tok.arg w :: r) = 0 := by intro r; simp [dashRun]
      rcases us with _ | ⟨u, us⟩
      · have hd1 : dashRun (Tok.dashes :: vs.map .arg) = 1 := by
          obtain ⟨v, vs, rfl⟩ := List.exists_cons_of_ne_nil h3
          simp [dashRun]
        refine ⟨2, ?_, ?_, ?_, getValues_pos ha ?_⟩
        · simp [matchPos, hd0, hd1]
        · have := Run.args (ws := vs) (rest := []) h2 (Or.inl rfl)
          simpa using this
        · simp
        · simp [Tok.word, hwne]
      · refine ⟨1, ?_, ?_, ?_, getValues_pos ha ?_⟩
        · have : dashRun (Tok.arg u :: (us.map .arg ++ Tok.dashes :: vs.map .arg)) = 0 := by simp [dashRun]
          simp [matchPos, hd0, this]
        · have := Run.dashes (ws := u :: us) (vs := vs) (fun hm => h1 (List.mem_cons_of_mem _ hm)) h2 h3
          simpa using this
        · simp
        · simp [Tok.word, hwne]

theorem Run.nil_eq {ts rest : List Tok} (h : Run ts [] rest) : ts = rest ∧ (rest = [] ∨ ∃ s t r, rest = .opt s t :: r) := by
  generalize hw : ([] : List PyStr) = ws at h
  cases h with
  | args h1 h2 => subst hw; exact ⟨rfl, h2⟩
  | dashes h1 h2 h3 =>
    have := (List.append_eq_nil_iff.1 hw.symm).2
    exact absurd this h3

/-- Without a word only an optional argument matches. -/
theorem match_none {a : Act} {rest : List Tok} (h : rest = [] ∨ ∃ s t r, rest = .opt s t :: r) :
    matchPos a rest = if a.nargs = .opt then some 0 else none := by
  have hd := dashRun_rest h
  rcases h with rfl | ⟨s, t, r, rfl⟩ <;> simp [matchPos, hd]

/-! ### What the items do -/

/-- The next item is a word. -/
def nextWord : List CmdItem → Bool
  | .word _ :: _ => true
  | _ => false

/-- Take a positional argument with the value `v`. -/
def PState.put (st : PState) (a : Act) (v : Val) : PState :=
  { st with seen := a.dest :: st.seen, ns := st.ns.set a.dest v }

/-- An optional argument that comes next is settled if there is no word for it. -/
def settle (st : PState) (next : Bool) : PState :=
  match st.pos with
  | [o] => if o.nargs = .opt ∧ next = false then { st.put o o.default with pos := [] } else st
  | _ => st

/-- Do what the items say one by one. -/
def sim (st : PState) : List CmdItem → Except Exit PState
  | [] => .ok st
  | .opt a vs :: is =>
    match meaning a vs with
    | .error x => .error x
    | .ok v => sim (st.put a v) is
  | .unknown s :: is => sim { st with extras := st.extras ++ [s] } is
  | .word s :: is =>
    match st.pos with
    | [] => sim { st with extras := st.extras ++ [s] } is
    | a :: as => sim (settle { st.put a (.str s) with pos := as } (nextWord is)) is

/-- Positional arguments that are left: required ones, and at most one that may be missing. -/
def Shape (pos : List Act) : Prop :=
  ∃ R O, pos = R ++ O ∧ (∀ a ∈ R, PosAct a ∧ a.nargs = .one) ∧ (∀ a ∈ O, PosAct a ∧ a.nargs = .opt) ∧ O.length ≤ 1

theorem Shape.tail {a : Act} {as : List Act} (h : Shape (a :: as)) : Shape as := by
  obtain ⟨R, O, h1, h2, h3, h4⟩ := h
  rcases R with _ | ⟨r, R⟩
  · rw [List.nil_append] at h1
    subst h1
    have : as = [] := by
      simp only [List.length_cons] at h4
      exact List.length_eq_zero_iff.1 (by omega)
    subst this
    exact ⟨[], [], rfl, by simp, by simp, by simp⟩
  · simp only [List.cons_append, List.cons.injEq] at h1
    exact ⟨R, O, h1.2, fun a ha => h2 a (List.mem_cons_of_mem _ ha), h3, h4⟩

theorem Shape.head {a : Act} {as : List Act} (h : Shape (a :: as)) : PosAct a ∧ (a.nargs = .opt → as = []) := by
  obtain ⟨R, O, h1, h2, h3, h4⟩ := h
  rcases R with _ | ⟨r, R⟩
  · rw [List.nil_append] at h1
    subst h1
    refine ⟨(h3 a List.mem_cons_self).1, fun _ => ?_⟩
    simp only [List.length_cons] at h4
    exact List.length_eq_zero_iff.1 (by omega)
  · simp only [List.cons_append, List.cons.injEq] at h1
    have := h2 a (by simp [h1.1])
    refine ⟨this.1, fun ho => ?_⟩
    rw [this.2] at ho
    cases ho

/-- No optional argument waits unless a word comes next. -/
def Settled (pos : List Act) (next : Bool) : Prop := ∀ o, pos = [o] → o.nargs = .opt → next = true

theorem takeAction_word {a : Act} (ha : PosAct a) (st : PState) {args : List PyStr} {v : Val}
    (h : getValues a args = .ok v) : takeAction st a args = .ok (st.put a v) := by
  simp [takeAction, h, ha.2.1, PState.put]

/-- `consume_positionals` on a run of words -/
theorem eat (is : List CmdItem) (hn : nextWord is = false) {rest : List Tok} : ∀ (pos : List Act) (st : PState) (ts : List Tok)
    (ws : List PyStr), Run ts ws rest → Shape pos → Settled pos (!ws.isEmpty) →
    ∃ st' ts' ws', takePositionals st pos (greedy pos ts) ts = .ok (st', ts') ∧ Run ts' ws' rest ∧
      (ws' ≠ [] → pos.drop (greedy pos ts).length = []) ∧ Shape (pos.drop (greedy pos ts).length) ∧
      Settled (pos.drop (greedy pos ts).length) false ∧
      ts'.length ≤ ts.length ∧ (pos ≠ [] → ws ≠ [] → ts'.length < ts.length) ∧
      sim { st with pos := pos } (ws.map .word ++ is) =
        sim { st' with pos := pos.drop (greedy pos ts).length } (ws'.map .word ++ is) := by
  intro pos
  induction pos with
  | nil =>
    intro st ts ws hr hs hset
    exact ⟨st, ts, ws, rfl, hr, fun _ => rfl, hs, fun o ho => by simp at ho, le_rfl, fun h => absurd rfl h, rfl⟩
  | cons a as ih =>
    intro st ts ws hr hs hset
    obtain ⟨ha, hao⟩ := hs.head
    rcases ws with _ | ⟨w, ws⟩
    · obtain ⟨rfl, hrest⟩ := hr.nil_eq
      have hone : a.nargs ≠ .opt := by
        intro ho
        have h := hset a (by rw [hao ho]) ho
        cases h
      have hm : matchPos a ts = none := by rw [match_none hrest, if_neg hone]
      have hg : greedy (a :: as) ts = [] := by rw [greedy, hm]
      rw [hg]
      refine ⟨st, ts, [], rfl, hr, fun h => absurd rfl h, hs, ?_, le_rfl, fun _ h => absurd rfl h, rfl⟩
      intro o ho
      simp only [List.length_nil, List.drop_zero, List.cons.injEq] at ho
      rw [← ho.1]
      exact fun h => absurd h hone
    · obtain ⟨n, hm, hr', hlt, hv⟩ := match_word ha hr
      have hg : greedy (a :: as) ts = n :: greedy as (ts.drop n) := by rw [greedy, hm]
      have hsim : sim { st with pos := a :: as } ((w :: ws).map .word ++ is) =
          sim (settle { st.put a (.str w) with pos := as } (nextWord (ws.map .word ++ is))) (ws.map .word ++ is) := rfl
      have htake : takePositionals st (a :: as) (greedy (a :: as) ts) ts =
          takePositionals (st.put a (.str w)) as (greedy as (ts.drop n)) (ts.drop n) := by
        rw [hg, takePositionals, takeAction_word ha st hv]
        rfl
      rw [htake, hsim, hg]
      simp only [List.length_cons, List.drop_succ_cons]
      by_cases hset' : Settled as (!ws.isEmpty)
      · obtain ⟨st', ts', ws', h1, h2, h3, h4, h5, h6, -, h8⟩ := ih (st.put a (.str w)) (ts.drop n) ws hr' hs.tail hset'
        refine ⟨st', ts', ws', h1, h2, h3, h4, h5, by omega, fun _ _ => by omega, ?_⟩
        have hsettle : settle { st.put a (.str w) with pos := as } (nextWord (ws.map .word ++ is)) =
            { st.put a (.str w) with pos := as } := by
          rw [settle]
          rcases as with _ | ⟨o, _ | ⟨o', as⟩⟩
          · rfl
          · simp only
            rw [if_neg]
            rintro ⟨ho, hx⟩
            have := hset' o rfl ho
            rcases ws with _ | ⟨w', ws⟩
            · cases this
            · cases hx
          · rfl
        rw [hsettle]
        exact h8
      · -- the optional argument gets its default
        have hex : ∃ o, as = [o] ∧ o.nargs = .opt ∧ ws = [] := by
          rw [Settled] at hset'
          push Not at hset'
          obtain ⟨o, h1, h2, h3⟩ := hset'
          refine ⟨o, h1, h2, ?_⟩
          rcases ws with _ | ⟨w', ws⟩
          · rfl
          · exact absurd rfl h3
        obtain ⟨o, rfl, ho, rfl⟩ := hex
        obtain ⟨hts, hrest⟩ := hr'.nil_eq
        obtain ⟨hoa, -⟩ := hs.tail.head
        have hm' : matchPos o rest = some 0 := by rw [match_none hrest, if_pos ho]
        have hgv : getValues o [] = .ok o.default := by simp [getValues, ho]
        rw [hts]
        have hg' : greedy [o] rest = [0] := by rw [greedy, hm']; rfl
        have ht' : takePositionals (st.put a (.str w)) [o] [0] rest = .ok ((st.put a (.str w)).put o o.default, rest) := by
          rw [takePositionals, List.take_zero, List.map_nil, takeAction_word hoa _ hgv]
          rfl
        rw [hg', ht']
        refine ⟨_, rest, [], rfl, hts ▸ hr', fun h => absurd rfl h, hs.tail.tail, fun o' h => by simp at h, ?_, ?_, ?_⟩
        · rw [hts] at hlt; omega
        · rw [hts] at hlt; exact fun _ _ => hlt
        · simp only [List.map_nil, List.nil_append, hn, settle, ho, and_self, if_true]
          rfl

/-! ### The loop -/

/-- The first words of a line, and the rest that begins with an option -/
theorem TLine.split {ts : List Tok} {is : List CmdItem} (h : TLine acts ts is) :
    ∃ ws rest is', Run ts ws rest ∧ is = ws.map .word ++ is' ∧ nextWord is' = false ∧ TLine acts rest is' := by
  induction h with
  | nil => exact ⟨[], [], [], .args (ws := []) (by simp) (Or.inl rfl), rfl, rfl, .nil⟩
  | @word s ts is hne h ih =>
    obtain ⟨ws, rest, is', h1, h2, h3, h4⟩ := ih
    refine ⟨s :: ws, rest, is', ?_, by rw [h2]; rfl, h3, h4⟩
    cases h1 with
    | args h5 h6 =>
      have := Run.args (ws := s :: ws) (rest := rest) (by simp [h5, Ne.symm hne]) h6
      simpa using this
    | @dashes us vs h5 h6 h7 =>
      have := Run.dashes (ws := s :: us) (vs := vs) (by simp [h5, Ne.symm hne]) h6 h7
      simpa using this
  | @dashes ws h1 h2 =>
    refine ⟨ws, [], [], ?_, by simp, rfl, .nil⟩
    have := Run.dashes (ws := []) (vs := ws) (by simp) h2 h1
    simpa using this
  | @opt s t a os ts is vs h1 h0 h2 h3 h4 ih =>
    refine ⟨[], _, _, .args (ws := []) (by simp) (Or.inr ⟨s, t, _, rfl⟩), rfl, ?_, .opt h1 h0 h2 h3 h4⟩
    rcases os with _ | ⟨o, os⟩
    · exact absurd rfl h0
    · rfl
  | @bad s t a b vs ts is h1 h2 h3 h4 ih =>
    exact ⟨[], _, _, .args (ws := []) (by simp) (Or.inr ⟨s, t, _, rfl⟩), rfl, rfl, .bad h1 h2 h3 h4⟩
  | @unknown s t ts is h1 h2 ih =>
    exact ⟨[], _, _, .args (ws := []) (by simp) (Or.inr ⟨s, t, _, rfl⟩), rfl, rfl, .unknown h1 h2⟩

theorem foldl_put (hs : Sound acts) : ∀ (os : List (Act × List PyStr)), (∀ o ∈ os, GoodOpt acts o) → ∀ (st : PState)
    (is : List CmdItem), (∀ x, os.foldlM (fun st p => takeAction st p.1 p.2) st = .error x →
        sim st (os.map (fun o => .opt o.1 o.2) ++ is) = .error x) ∧
      (∀ st', os.foldlM (fun st p => takeAction st p.1 p.2) st = .ok st' →
        st'.pos = st.pos ∧ st'.extras = st.extras ∧ sim st (os.map (fun o => .opt o.1 o.2) ++ is) = sim st' is) := by
  intro os
  induction os with
  | nil =>
    intro _ st is
    refine ⟨fun x h => (by cases h), fun st' h => ?_⟩
    cases h
    exact ⟨rfl, rfl, rfl⟩
  | cons o os ih =>
    intro hg st is
    have ht := take_meaning hs (hg o List.mem_cons_self) st
    simp only [List.foldlM_cons, List.map_cons, List.cons_append, sim]
    rw [ht]
    rcases hm : meaning o.1 o.2 with x | v
    · simp only [ex_bind_error]
      exact ⟨fun y h => h, fun st' h => (by cases h)⟩
    · simp only [ex_bind_ok]
      obtain ⟨h1, h2⟩ := ih (fun o' ho => hg o' (List.mem_cons_of_mem _ ho)) (st.put o.1 v) is
      exact ⟨h1, fun st' h => h2 st' h⟩

theorem sim_extras : ∀ (ws : List PyStr) (st : PState) (is : List CmdItem), st.pos = [] →
    sim st (ws.map .word ++ is) = sim { st with extras := st.extras ++ ws } is := by
  intro ws
  induction ws with
  | nil =>
    intro st is _
    simp
  | cons w ws ih =>
    intro st is h
    simp only [List.map_cons, List.cons_append, sim, h]
    rw [ih { st with pos := [], extras := st.extras ++ [w] } is rfl]
    simp

theorem takeWhile_run {ws : List PyStr} {rest : List Tok} (h : ∃ s t r, rest = .opt s t :: r) :
    (ws.map Tok.arg ++ rest).takeWhile (fun t => !t.isOpt) = ws.map .arg := by
  induction ws with
  | nil =>
    obtain ⟨s, t, r, rfl⟩ := h
    simp [Tok.isOpt]
  | cons w ws ih =>
    rw [List.map_cons, List.cons_append, List.takeWhile_cons, ih]
    rfl

theorem Run.any {ts rest : List Tok} {ws : List PyStr} (h : Run ts ws rest) :
    ts.any Tok.isOpt = true ↔ ∃ s t r, rest = .opt s t :: r := by
  have harg : ∀ ws : List PyStr, (ws.map Tok.arg).any Tok.isOpt = false := by
    intro ws
    simp [Tok.isOpt]
  cases h with
  | args h1 h2 =>
    rw [List.any_append, harg, Bool.false_or]
    rcases h2 with rfl | ⟨s, t, r, rfl⟩
    · simp
    · simp [Tok.isOpt]
  | dashes h1 h2 h3 =>
    rw [List.any_append, List.any_cons, harg, harg]
    simp [Tok.isOpt]

theorem TLine.args {rest : List Tok} {is : List CmdItem} (h : TLine acts rest is) : ∀ ws : List PyStr, [45, 45] ∉ ws →
    TLine acts (ws.map .arg ++ rest) (ws.map .word ++ is) := by
  intro ws
  induction ws with
  | nil => intro _; exact h
  | cons w ws ih =>
    intro hn
    simp only [List.mem_cons, not_or] at hn
    exact .word (Ne.symm hn.1) (ih hn.2)

/-- What the loop should end with -/
def Ends (r s : Except Exit PState) : Prop :=
  (∀ x, s = .error x → r = .error x) ∧
  (∀ st, s = .ok st → ∃ ex, r = .ok { st with extras := ex } ∧ (ex = [] ↔ st.extras = []))

theorem loop_opt (fuel : Nat) (st : PState) (s : PyStr) (t : OptTuple) (r : List Tok) :
    argLoop acts (fuel + 1) st (.opt s t :: r) = (do
      let q ← consumeOptional acts st s t r
      argLoop acts fuel q.1 (r.drop q.2)) := by
  simp only [argLoop, List.any_cons, Tok.isOpt, Bool.true_or, if_true]

theorem loop_arg (fuel : Nat) (st : PState) (s : PyStr) (r : List Tok) (h : (Tok.arg s :: r).any Tok.isOpt = true) :
    argLoop acts (fuel + 1) st (.arg s :: r) = (do
      let q ← consumePositionals st (.arg s :: r)
      if q.2.length < (Tok.arg s :: r).length then argLoop acts fuel q.1 q.2
      else
        let extra := (Tok.arg s :: r).takeWhile fun t => !t.isOpt
        argLoop acts fuel { q.1 with extras := q.1.extras ++ extra.map Tok.word } ((Tok.arg s :: r).drop extra.length)) := by
  simp only [argLoop, h, if_true]

theorem loop_end (fuel : Nat) (st : PState) (ts : List Tok) (h : ¬ ts.any Tok.isOpt = true) :
    argLoop acts (fuel + 1) st ts = (do
      let q ← consumePositionals st ts
      return { q.1 with extras := q.1.extras ++ q.2.map Tok.word }) := by
  unfold argLoop
  rw [if_neg h]

theorem loop_sim (hs : Sound acts) : ∀ (n : Nat) (ts : List Tok), ts.length < n → ∀ (fuel : Nat) (st : PState) (is : List CmdItem),
    ts.length < fuel → TLine acts ts is → Shape st.pos → Settled st.pos false →
    Ends (argLoop acts fuel st ts) (sim st is) := by
  intro n
  induction n with
  | zero => intro ts h0; omega
  | succ n ih =>
    intro ts hn fuel st is hf ht hsh hset
    obtain ⟨fuel, rfl⟩ : ∃ m, fuel = m + 1 := ⟨fuel - 1, by omega⟩
    obtain ⟨ws, rest, is', hr, rfl, hnw, htl⟩ := ht.split
    have hset' : Settled st.pos (!ws.isEmpty) := fun o h1 h2 => by
      have := hset o h1 h2
      cases this
    obtain ⟨st', ts', ws', e1, e2, e3, e4, e5, e6, e7, e8⟩ := eat is' hnw st.pos st ts ws hr hsh hset'
    have hcp : consumePositionals st ts = .ok ({ st' with pos := st.pos.drop (greedy st.pos ts).length }, ts') := by
      rw [consumePositionals, matchPartial_greedy, e1]
      rfl
    by_cases hany : ts.any Tok.isOpt = true
    · obtain ⟨s, t, r, rfl⟩ := hr.any.1 hany
      rcases ws with _ | ⟨w, ws⟩
      · obtain ⟨rfl, -⟩ := hr.nil_eq
        rw [List.map_nil, List.nil_append, loop_opt]
        cases htl with
        | @opt _ _ a os ts2 is2 vs h1 h0 h2 h3 h4 =>
          obtain ⟨g1, g2⟩ := foldl_put hs os h3 st is2
          rw [consumeOptional, h1]
          simp only [h2, ex_bind_ok]
          rcases hfo : os.foldlM (fun st p => takeAction st p.1 p.2) st with x | st2
          · rw [hfo, g1 x hfo]
            exact ⟨fun y h => h, fun st3 h => by cases h⟩
          · obtain ⟨g3, g4, g5⟩ := g2 st2 hfo
            rw [hfo, g5]
            simp only [ex_bind_ok, ex_pure, List.append_nil]
            have hd : (vs.map Tok.arg ++ ts2).drop vs.length = ts2 := by
              have := List.drop_left (l₁ := vs.map Tok.arg) (l₂ := ts2)
              rwa [List.length_map] at this
            rw [hd]
            simp only [List.length_cons, List.length_append] at hn hf
            exact ih ts2 (by omega) fuel st2 is2 (by omega) h4 (g3 ▸ hsh) (g3 ▸ hset)
        | @bad _ _ a b vs _ is2 h1 h2 h3 h4 =>
          rw [consumeOptional, h1]
          simp only [h2, ex_bind_error, sim, h3]
          exact ⟨fun y h => h, fun st3 h => by cases h⟩
        | @unknown _ _ _ is2 h1 h2 =>
          rw [consumeOptional, h1]
          simp only [ex_bind_ok, sim, List.drop_zero]
          simp only [List.length_cons] at hn hf
          exact ih r (by omega) fuel _ is2 (by omega) h2 hsh hset
      · have hshape : ts = (w :: ws).map .arg ++ .opt s t :: r ∧ [45, 45] ∉ (w :: ws) := by
          generalize hw : w :: ws = ws1 at hr
          cases hr with
          | args h1 h2 => exact ⟨rfl, h1⟩
        obtain ⟨rfl, hnd⟩ := hshape
        simp only [List.map_cons, List.cons_append] at hany
        rw [List.map_cons, List.cons_append, loop_arg _ _ _ _ hany, ← List.cons_append, ← List.map_cons, hcp]
        simp only [ex_bind_ok]
        by_cases hpos : st.pos = []
        · have hst : st' = st ∧ ts' = (w :: ws).map .arg ++ .opt s t :: r := by
            rw [hpos] at e1
            simp only [takePositionals, Except.ok.injEq, Prod.mk.injEq] at e1
            exact ⟨e1.1.symm, e1.2.symm⟩
          obtain ⟨rfl, rfl⟩ := hst
          rw [if_neg (lt_irrefl _), takeWhile_run ⟨s, t, r, rfl⟩, sim_extras (w :: ws) st' is' hpos]
          have hd : ((w :: ws).map Tok.arg ++ .opt s t :: r).drop ((w :: ws).map Tok.arg).length = .opt s t :: r :=
            List.drop_left
          have hw : ((w :: ws).map Tok.arg).map Tok.word = w :: ws := by
            rw [List.map_map]
            exact List.map_id _
          rw [hd, hw]
          simp only [List.length_append, List.length_map, List.length_cons] at hn hf
          have hp : st'.pos.drop (greedy st'.pos ((w :: ws).map .arg ++ .opt s t :: r)).length = st'.pos := by
            rw [hpos, List.drop_nil]
          rw [hp]
          refine ih (.opt s t :: r) (by simp; omega) fuel _ is' (by simp; omega) htl ?_ ?_
          · exact hsh
          · exact hset
        · have hlt := e7 hpos (by simp)
          rw [if_pos hlt, e8]
          have htl' : TLine acts ts' (ws'.map .word ++ is') := by
            generalize hrest : Tok.opt s t :: r = rest at e2 htl
            cases e2 with
            | args h1 h2 => exact htl.args _ h1
            | dashes h1 h2 h3 => cases hrest
          exact ih ts' (by omega) fuel _ _ (by omega) htl' e4 e5
    · have hrest : rest = [] := by
        cases hr with
        | args h1 h2 =>
          rcases h2 with h2 | ⟨s, t, r, rfl⟩
          · exact h2
          · refine absurd ?_ hany
            simp [Tok.isOpt]
        | dashes => rfl
      subst hrest
      cases htl
      rw [loop_end _ _ _ hany, hcp, e8]
      simp only [ex_bind_ok, ex_pure]
      by_cases hw : ws' = []
      · subst hw
        obtain ⟨rfl, -⟩ := e2.nil_eq
        simp only [List.map_nil, List.append_nil, sim]
        refine ⟨fun x h => (by cases h), ?_⟩
        rintro st2 ⟨⟩
        exact ⟨_, rfl, Iff.rfl⟩
      · rw [sim_extras ws' _ [] (e3 hw)]
        simp only [sim]
        refine ⟨fun x h => (by cases h), ?_⟩
        rintro st2 ⟨⟩
        refine ⟨_, rfl, ?_⟩
        have hts : ts' ≠ [] := by
          cases e2 with
          | args h1 h2 => simpa using hw
          | dashes => simp
        simp [hts, hw]

end

end FF
