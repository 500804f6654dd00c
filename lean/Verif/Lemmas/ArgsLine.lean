import Verif.Lemmas.Args
/-!
# Lemmas about command lines: from words to tokens
-/

namespace FF

section
variable {acts : List Act}

/-- The arguments are as many as the action wants. -/
def ArityOk (a : Act) (vs : List PyStr) : Prop :=
  (a.nargs = .zero ∧ vs = []) ∨ (a.nargs = .one ∧ ∃ v, vs = [v]) ∨ (a.nargs = .plus ∧ vs ≠ [])

/-- An option of the parser with as many arguments as it wants -/
def GoodOpt (acts : List Act) (o : Act × List PyStr) : Prop := o.1 ∈ acts ∧ o.1.flags ≠ [] ∧ ArityOk o.1 o.2

theorem IsFlag.flags_ne {f : PyStr} {a : Act} (h : IsFlag acts f a) : a.flags ≠ [] := by
  intro e
  have := h.2
  rw [e] at this
  cases this

theorem mapM_checkChoice (a : Act) (ss : List PyStr) :
    ss.mapM (checkChoice a) = if ∀ s ∈ ss, ∀ cs ∈ a.choices, s ∈ cs then .ok ss else .error .usage := by
  induction ss with
  | nil => simp
  | cons s ss ih =>
    rw [List.mapM_cons, ih, checkChoice]
    rcases hc : a.choices with _ | cs
    · simp
    · by_cases h1 : s ∈ cs
      · have : cs.contains s = true := by simpa using h1
        simp only [this, if_true, ex_bind_ok]
        by_cases h2 : ∀ s ∈ ss, ∀ ds ∈ some cs, s ∈ ds
        · rw [if_pos h2, if_pos]
          · rfl
          · intro x hx
            rcases List.mem_cons.1 hx with rfl | hx
            · simpa using h1
            · exact h2 x hx
        · rw [if_neg h2, if_neg]
          · rfl
          · exact fun h => h2 fun x hx => h x (List.mem_cons_of_mem _ hx)
      · have : cs.contains s = false := by simpa using h1
        simp only [this, Bool.false_eq_true, if_false, ex_bind_error]
        rw [if_neg]
        exact fun h => h1 (h s List.mem_cons_self cs rfl)

theorem take_meaning (hs : Sound acts) {o : Act × List PyStr} (h : GoodOpt acts o) (st : PState) :
    takeAction st o.1 o.2 =
      match meaning o.1 o.2 with
      | .error x => .error x
      | .ok v => .ok { st with seen := o.1.dest :: st.seen, ns := st.ns.set o.1.dest v } := by
  obtain ⟨a, vs⟩ := o
  obtain ⟨hm, hf, har⟩ := h
  obtain ⟨hk1, hk2, hk3⟩ := hs.kinds a hm hf
  simp only at hm hf har hk1 hk2 hk3 ⊢
  rcases har with ⟨hn, rfl⟩ | ⟨hn, v, rfl⟩ | ⟨hn, hv⟩
  · rcases hk1.1 hn with hk | hk <;> simp [takeAction, getValues, hf, hn, hk, meaning]
  · have hz : ¬ (a.kind = .help ∨ a.kind = .storeTrue) := by
      rw [← hk1, hn]
      simp
    rcases hk : a.kind
    · have := mapM_checkChoice a [v]
      simp only [List.mapM_cons, List.mapM_nil, List.mem_singleton, forall_eq] at this
      simp only [takeAction, getValues, hf, hn, hk, meaning, if_false, reduceCtorEq, List.mem_singleton, forall_eq,
        ne_eq, List.cons_ne_nil, not_false_eq_true, true_and]
      rcases hc : checkChoice a v with x | x
      · rw [hc] at this
        simp only [ex_bind_error] at this
        split_ifs at this with hch
        rw [if_neg hch]
        simp only [ex_bind_error]
        exact congrArg _ (Except.error.inj this)
      · rw [hc] at this
        simp only [ex_bind_ok, ex_pure] at this
        split_ifs at this with hch
        have e : x = v := by simpa using this
        subst e
        rw [if_pos hch]
        rfl
    · simp only [takeAction, getValues, hf, hn, hk, meaning, if_false, if_true]
      rcases pyInt v with x | x <;> rfl
    · exact absurd (Or.inr hk) hz
    · exact absurd (Or.inl hk) hz
  · have hz : ¬ (a.kind = .help ∨ a.kind = .storeTrue) := by
      rw [← hk1, hn]
      simp
    rcases hk : a.kind
    · have := mapM_checkChoice a vs
      simp only [takeAction, getValues, hf, hn, hk, meaning, if_false, this]
      split_ifs with h1 h2 h2
      · rfl
      · exact absurd ⟨hv, h1⟩ h2
      · exact absurd h2.2 h1
      · rfl
    · have := (hk3 hk).1
      rw [hn] at this
      cases this
    · exact absurd (Or.inr hk) hz
    · exact absurd (Or.inl hk) hz

/-! ### Options in one word -/

/-- What reading the options of a word should yield -/
def chainResult (ts : List Tok) (os : List (Act × List PyStr)) : Option Act →
    Except Exit (List (Act × List PyStr) × List PyStr × Nat)
  | none => .ok (os, [], 0)
  | some b => do
    let n ← matchOpt b ts
    return (os ++ [(b, (ts.take n).map Tok.word)], [], n)

theorem matchOpt_explicit {a : Act} (h : a.takes) (x : PyStr) : matchOpt a [.arg x] = .ok 1 := by
  have e : [Tok.arg x].takeWhile Tok.isArg = [.arg x] := by simp [List.takeWhile_cons, Tok.isArg]
  rcases h with h | h <;> simp [matchOpt, h, e]

theorem matchOpt_zero {a : Act} (h : a.nargs = .zero) (ts : List Tok) : matchOpt a ts = .ok 0 := by
  simp [matchOpt, h]

theorem Short.ne_nil {x : PyStr} {os : List (Act × List PyStr)} {p : Option Act} (h : Short acts x os p) : x ≠ [] := by
  cases h <;> simp

theorem short_chain (hs : Sound acts) {x : PyStr} {os : List (Act × List PyStr)} {p : Option Act} (h : Short acts x os p)
    (ts : List Tok) : ∀ fuel, x.length ≤ fuel → ∃ c r a, x = c :: r ∧ IsFlag acts [45, c] a ∧
      optChain acts ts fuel a [45, c] (cut r).1 (cut r).2 = chainResult ts os p := by
  induction h with
  | @switch c a h1 h2 =>
    intro fuel hf
    refine ⟨c, [], a, rfl, h1, ?_⟩
    rw [cut, optChain, matchOpt_zero h2]
    rfl
  | @next c a h1 h2 =>
    intro fuel hf
    refine ⟨c, [], a, rfl, h1, ?_⟩
    rw [cut, optChain]
    rfl
  | @glued c a v h1 h2 h3 h4 =>
    intro fuel hf
    obtain ⟨fuel, rfl⟩ : ∃ n, fuel = n + 1 := ⟨fuel - 1, by simp at hf; omega⟩
    refine ⟨c, v, a, rfl, h1, ?_⟩
    obtain ⟨d, v, rfl⟩ := List.exists_cons_of_ne_nil h3
    have : cut (d :: v) = (false, some (d :: v)) := by
      rw [cut, if_neg]
      rintro rfl
      exact h4 rfl
    rw [this, optChain, matchOpt_explicit h2]
    rfl
  | @eq c a v h1 h2 =>
    intro fuel hf
    obtain ⟨fuel, rfl⟩ : ∃ n, fuel = n + 1 := ⟨fuel - 1, by simp at hf; omega⟩
    refine ⟨c, 61 :: v, a, rfl, h1, ?_⟩
    have : cut (61 :: v) = (true, some v) := by rw [cut, if_pos rfl]
    rw [this, optChain, matchOpt_explicit h2]
    rfl
  | @more c a rest os p h1 h2 h3 h4 h5 ih =>
    intro fuel hf
    obtain ⟨fuel, rfl⟩ : ∃ n, fuel = n + 1 := ⟨fuel - 1, by simp at hf; omega⟩
    obtain ⟨d, r, b, rfl, hb, hr⟩ := ih fuel (by simpa using hf)
    refine ⟨c, d :: r, a, rfl, h1, ?_⟩
    have hc : c ≠ 45 := by
      rcases hs.cases h1 with ⟨d, e, hd, -⟩ | ⟨d, name, e, -⟩
      · cases e; exact hd
      · cases e
    have hd61 : d ≠ 61 := by rintro rfl; exact h4 rfl
    have hd45 : d ≠ 45 := by rintro rfl; exact h3 rfl
    have : cut (d :: r) = (false, some (d :: r)) := by rw [cut, if_neg hd61]
    have key : (if r = [] then (false, none)
        else if r.head? = some 61 then (true, some (r.drop 1))
        else (false, some r) : Bool × Option PyStr) = cut r := by
      rcases r with _ | ⟨e, r⟩
      · rfl
      · by_cases he : e = 61
        · subst he
          simp [cut]
        · simp [cut, he]
    rw [this, optChain, matchOpt_zero h2]
    simp only [ex_bind_ok, List.getElem?_cons_succ, List.getElem?_cons_zero, ne_eq, Option.some.injEq, hc, not_false_eq_true,
      List.cons_ne_nil, and_self, if_true, Bool.false_eq_true, List.head?_cons, hd45, or_self, if_false, List.take_succ_cons,
      List.take_zero, (findOpt_iff hs).2 hb, List.drop_succ_cons, List.drop_zero, key, hr]
    rcases p with _ | q
    · rfl
    · simp only [chainResult]
      rcases matchOpt q ts with x | n <;> rfl

theorem short_good {x : PyStr} {os : List (Act × List PyStr)} {p : Option Act} (h : Short acts x os p) :
    (∀ o ∈ os, GoodOpt acts o) ∧ ∀ b, p = some b → b ∈ acts ∧ b.flags ≠ [] ∧ b.takes := by
  induction h with
  | switch h1 h2 =>
    refine ⟨?_, fun b hb => by cases hb⟩
    simp only [List.mem_singleton, forall_eq]
    exact ⟨h1.1, h1.flags_ne, Or.inl ⟨h2, rfl⟩⟩
  | next h1 h2 =>
    refine ⟨by simp, ?_⟩
    rintro b ⟨⟩
    exact ⟨h1.1, h1.flags_ne, h2⟩
  | glued h1 h2 h3 h4 =>
    refine ⟨?_, fun b hb => by cases hb⟩
    simp only [List.mem_singleton, forall_eq]
    refine ⟨h1.1, h1.flags_ne, ?_⟩
    rcases h2 with h2 | h2
    · exact Or.inr (Or.inl ⟨h2, _, rfl⟩)
    · exact Or.inr (Or.inr ⟨h2, by simp⟩)
  | eq h1 h2 =>
    refine ⟨?_, fun b hb => by cases hb⟩
    simp only [List.mem_singleton, forall_eq]
    refine ⟨h1.1, h1.flags_ne, ?_⟩
    rcases h2 with h2 | h2
    · exact Or.inr (Or.inl ⟨h2, _, rfl⟩)
    · exact Or.inr (Or.inr ⟨h2, by simp⟩)
  | more h1 h2 h3 h4 h5 ih =>
    refine ⟨?_, ih.2⟩
    intro o ho
    rcases List.mem_cons.1 ho with rfl | ho
    · exact ⟨h1.1, h1.flags_ne, Or.inl ⟨h2, rfl⟩⟩
    · exact ih.1 o ho

theorem optword_parse (hs : Sound acts) {w : PyStr} {os : List (Act × List PyStr)} {p : Option Act}
    (h : OptWord acts w os p) : ¬ PlainWord w ∧ w ≠ [45, 45] ∧ ∃ t a, parseOptional acts w = .ok (some t) ∧ t.act = some a ∧
      (((∀ o ∈ os, GoodOpt acts o) ∧ (∀ b, p = some b → b ∈ acts ∧ b.flags ≠ [] ∧ b.takes) ∧
          ∀ ts, optChain acts ts (w.length + 1) a t.flag t.sep t.arg = chainResult ts os p) ∨
        (p = none ∧ ∃ b v, os = [(b, v)] ∧ meaning b v = .error .usage ∧
          ∀ ts, optChain acts ts (w.length + 1) a t.flag t.sep t.arg = .error .usage)) := by
  have long : ∀ {q : PyStr} {a : Act}, Abbrev acts q a → ∀ r, ¬ PlainWord (q ++ r) ∧ q ++ r ≠ [45, 45] := by
    rintro q a ⟨-, hne, ⟨t, rfl⟩, -⟩ r
    have ht : t ≠ [] := by rintro rfl; exact hne rfl
    obtain ⟨c, t, rfl⟩ := List.exists_cons_of_ne_nil ht
    exact ⟨not_plain_letter (Or.inl rfl), by simp⟩
  cases h with
  | @short x os p h =>
    obtain ⟨c, r, a, rfl, ha, -⟩ := short_chain hs h [] _ le_rfl
    have hc : c ≠ 45 ∧ ¬ (48 ≤ c.val ∧ c.val ≤ 57) := by
      rcases hs.cases ha with ⟨d, e, hd⟩ | ⟨d, name, e, -⟩
      · cases e; exact hd
      · cases e
    refine ⟨not_plain_letter (Or.inr hc.2), ?_, _, a, parse_short hs ha, rfl, Or.inl ⟨(short_good h).1,
      (short_good h).2, ?_⟩⟩
    · intro e
      cases e
      exact hc.1 rfl
    · intro ts
      obtain ⟨c', r', a', e, ha', hr⟩ := short_chain hs h ts ((45 :: c :: r : PyStr).length + 1) (by simp)
      cases e
      cases flag_unique hs ha ha'
      exact hr
  | @long _ a h1 h2 =>
    obtain ⟨f, hf, -, hp, -⟩ := parse_long hs h1
    have := long h1 []
    rw [List.append_nil] at this
    refine ⟨this.1, this.2, _, a, hp, rfl, Or.inl ⟨?_, fun b hb => (by cases hb), fun ts => ?_⟩⟩
    · simp only [List.mem_singleton, forall_eq]
      exact ⟨hf.1, hf.flags_ne, Or.inl ⟨h2, rfl⟩⟩
    · simp only [optChain, matchOpt_zero h2]
      rfl
  | @next _ a h1 h2 =>
    obtain ⟨f, hf, -, hp, -⟩ := parse_long hs h1
    have := long h1 []
    rw [List.append_nil] at this
    refine ⟨this.1, this.2, _, a, hp, rfl, Or.inl ⟨by simp, ?_, fun ts => ?_⟩⟩
    · rintro b ⟨⟩
      exact ⟨hf.1, hf.flags_ne, h2⟩
    · simp only [optChain]
      rfl
  | @eq q a v h1 =>
    obtain ⟨f, hf, hpre, -, hp⟩ := parse_long hs h1
    have := long h1 (61 :: v)
    refine ⟨this.1, this.2, _, a, hp v, rfl, ?_⟩
    obtain ⟨hk1, hk2, hk3⟩ := hs.kinds a hf.1 hf.flags_ne
    by_cases ht : a.takes
    · refine Or.inl ⟨?_, fun b hb => (by cases hb), fun ts => ?_⟩
      · simp only [List.mem_singleton, forall_eq]
        refine ⟨hf.1, hf.flags_ne, ?_⟩
        rcases ht with ht | ht
        · exact Or.inr (Or.inl ⟨ht, _, rfl⟩)
        · exact Or.inr (Or.inr ⟨ht, by simp⟩)
      · simp only [optChain, matchOpt_explicit ht]
        rfl
    · have hz : a.nargs = .zero := by
        rcases hn : a.nargs
        · rfl
        · exact absurd (Or.inl hn) ht
        · exact absurd hn hk2
        · exact absurd (Or.inr hn) ht
      refine Or.inr ⟨rfl, a, [v], rfl, ?_, fun ts => ?_⟩
      · rcases hk1.1 hz with hk | hk <;> simp [meaning, hk]
      · obtain ⟨t, rfl⟩ := hpre
        simp [optChain, matchOpt_zero hz]

/-! ### Tokens -/

/-- `Line` for tokens -/
inductive TLine (acts : List Act) : List Tok → List CmdItem → Prop
  | nil : TLine acts [] []
  | word {s ts is} : s ≠ [45, 45] → TLine acts ts is → TLine acts (.arg s :: ts) (.word s :: is)
  | dashes {ws : List PyStr} : ws ≠ [] → [45, 45] ∉ ws → TLine acts (.dashes :: ws.map .arg) (ws.map .word)
  | opt {s t a os ts is} {vs : List PyStr} : t.act = some a → os ≠ [] →
      optChain acts (vs.map .arg ++ ts) (s.length + 1) a t.flag t.sep t.arg = .ok (os, [], vs.length) →
      (∀ o ∈ os, GoodOpt acts o) → TLine acts ts is →
      TLine acts (.opt s t :: (vs.map .arg ++ ts)) (os.map (fun o => .opt o.1 o.2) ++ is)
  | bad {s t a b vs ts is} : t.act = some a → optChain acts ts (s.length + 1) a t.flag t.sep t.arg = .error .usage →
      meaning b vs = .error .usage → TLine acts ts is → TLine acts (.opt s t :: ts) (.opt b vs :: is)
  | unknown {s t ts is} : t.act = none → TLine acts ts is → TLine acts (.opt s t :: ts) (.unknown s :: is)

theorem OptWord.ne_nil {w : PyStr} {os : List (Act × List PyStr)} (h : OptWord acts w os none) : os ≠ [] := by
  cases h with
  | short h => cases h <;> simp
  | long => simp
  | eq => simp

theorem PlainWord.ne_dashes {s : PyStr} (h : PlainWord s) : s ≠ [45, 45] := by
  rintro rfl
  exact not_plain_letter (rest := []) (Or.inl rfl) h

theorem classify_plain (hs : Sound acts) {ts : List Tok} {ws : List PyStr} (hw : classify acts ws = .ok ts) :
    ∀ vs : List PyStr, (∀ v ∈ vs, PlainWord v) → classify acts (vs ++ ws) = .ok (vs.map .arg ++ ts) := by
  intro vs
  induction vs with
  | nil => intro _; exact hw
  | cons v vs ih =>
    intro h
    rw [List.cons_append, classify, if_neg (h v List.mem_cons_self).ne_dashes, parse_plain hs (h v List.mem_cons_self),
      ih fun x hx => h x (List.mem_cons_of_mem _ hx)]
    rfl

theorem classify_opt {w : PyStr} {t : OptTuple} {ws : List PyStr} {ts : List Tok} (hne : w ≠ [45, 45])
    (h : parseOptional acts w = .ok (some t)) (hw : classify acts ws = .ok ts) :
    classify acts (w :: ws) = .ok (.opt w t :: ts) := by
  rw [classify, if_neg hne, h, hw]
  rfl

/-- No argument comes first. -/
def NoArg (ts : List Tok) : Prop := ∀ s, ts.head? ≠ some (.arg s)

theorem argRun_append {ts : List Tok} (h : NoArg ts) (vs : List PyStr) :
    ((vs.map Tok.arg ++ ts).takeWhile Tok.isArg) = vs.map .arg := by
  induction vs with
  | nil =>
    rcases ts with _ | ⟨t, ts⟩
    · rfl
    · rcases t with ⟨s, t⟩ | s | _
      · simp [Tok.isArg]
      · exact absurd rfl (h s)
      · simp [Tok.isArg]
  | cons v vs ih => simp [List.takeWhile_cons, ih, Tok.isArg]

theorem words_take (vs : List PyStr) (ts : List Tok) : ((vs.map Tok.arg ++ ts).take vs.length).map Tok.word = vs := by
  induction vs with
  | nil => simp
  | cons v vs ih => simpa [Tok.word] using ih

theorem classify_line (hs : Sound acts) {argv : List PyStr} {is : List CmdItem} (h : Line acts argv is) :
    ∃ ts, classify acts argv = .ok ts ∧ TLine acts ts is ∧ (Stops argv → NoArg ts) := by
  induction h with
  | nil => exact ⟨[], rfl, .nil, fun _ s => by simp⟩
  | @word s ws is h1 h2 ih =>
    obtain ⟨ts, h3, h4, -⟩ := ih
    refine ⟨.arg s :: ts, ?_, .word h1.ne_dashes h4, ?_⟩
    · have := classify_plain hs h3 [s] (by simpa using h1)
      simpa using this
    · intro hst
      exact absurd h1 (hst s (by simp))
  | @dashes ws h1 h2 =>
    refine ⟨.dashes :: ws.map .arg, ?_, .dashes h1 h2, fun _ s => by simp⟩
    rw [classify, if_pos rfl]
  | @opts w os ws is h1 h2 ih =>
    obtain ⟨ts, h3, h4, -⟩ := ih
    obtain ⟨h5, h6, t, a, h7, h8, h9⟩ := optword_parse hs h1
    refine ⟨.opt w t :: ts, classify_opt h6 h7 h3, ?_, fun _ s => by simp⟩
    rcases h9 with ⟨h9, -, h10⟩ | ⟨-, b, v, rfl, hm, h10⟩
    · exact .opt (vs := []) h8 h1.ne_nil (by rw [List.map_nil, List.nil_append, h10]; rfl) h9 h4
    · exact .bad h8 (h10 ts) hm h4
  | @one w os a v ws is h1 h2 h3 h4 ih =>
    obtain ⟨ts, h5, h6, -⟩ := ih
    obtain ⟨h7, h8, t, b, h9, h10, h11⟩ := optword_parse hs h1
    have hc := classify_plain hs h5 [v] (by simpa using h3)
    refine ⟨.opt w t :: ([v].map Tok.arg ++ ts), classify_opt h8 h9 hc, ?_, fun _ s => by simp⟩
    rcases h11 with ⟨h12, h13, h14⟩ | ⟨h15, -⟩
    · have : os.map (fun o => CmdItem.opt o.1 o.2) ++ CmdItem.opt a [v] :: is =
          (os ++ [(a, [v])]).map (fun o => CmdItem.opt o.1 o.2) ++ is := by simp
      rw [this]
      refine .opt h10 (by simp) ?_ ?_ h6
      · rw [h14, chainResult]
        have : matchOpt a ([v].map .arg ++ ts) = .ok 1 := by
          simp [matchOpt, h2, List.takeWhile_cons, Tok.isArg]
        rw [this]
        simp [Tok.word]
      · intro o ho
        rcases List.mem_append.1 ho with ho | ho
        · exact h12 o ho
        · cases List.mem_singleton.1 ho
          exact ⟨(h13 a rfl).1, (h13 a rfl).2.1, Or.inr (Or.inl ⟨h2, v, rfl⟩)⟩
    · cases h15
  | @plus w os a vs ws is h1 h2 h3 h4 h5 h6 ih =>
    obtain ⟨ts, h7, h8, hna⟩ := ih
    obtain ⟨h9, h10, t, b, h11, h12, h13⟩ := optword_parse hs h1
    have hc := classify_plain hs h7 vs h4
    refine ⟨.opt w t :: (vs.map .arg ++ ts), classify_opt h10 h11 hc, ?_, fun _ s => by simp⟩
    rcases h13 with ⟨h14, h15, h16⟩ | ⟨h17, -⟩
    · have : os.map (fun o => CmdItem.opt o.1 o.2) ++ CmdItem.opt a vs :: is =
          (os ++ [(a, vs)]).map (fun o => CmdItem.opt o.1 o.2) ++ is := by simp
      rw [this]
      refine .opt h12 (by simp) ?_ ?_ h8
      · rw [h16, chainResult]
        have : matchOpt a (vs.map .arg ++ ts) = .ok vs.length := by
          rw [matchOpt, argRun_append (hna h5)]
          simp only [h2, List.length_map]
          rw [if_neg]
          simpa using h3
        rw [this]
        simp only [ex_bind_ok, words_take]
        rfl
      · intro o ho
        rcases List.mem_append.1 ho with ho | ho
        · exact h14 o ho
        · cases List.mem_singleton.1 ho
          exact ⟨(h15 a rfl).1, (h15 a rfl).2.1, Or.inr (Or.inr ⟨h2, h3⟩)⟩
    · cases h17
  | @missing w a ws is h1 h2 h3 ih =>
    obtain ⟨ts, h4, h5, hna⟩ := ih
    obtain ⟨h6, h7, t, b, h8, h9, h10⟩ := optword_parse hs h1
    refine ⟨.opt w t :: ts, classify_opt h7 h8 h4, ?_, fun _ s => by simp⟩
    rcases h10 with ⟨-, h11, h12⟩ | ⟨h13, -⟩
    · obtain ⟨hm, hf, ht⟩ := h11 a rfl
      have h0 := argRun_append (hna h2) []
      simp only [List.map_nil, List.nil_append] at h0
      refine .bad h9 ?_ ?_ h5
      · rw [h12, chainResult]
        have : matchOpt a ts = .error .usage := by
          rw [matchOpt, h0]
          rcases ht with ht | ht <;> simp [ht]
        rw [this]
        rfl
      · obtain ⟨hk1, hk2, hk3⟩ := hs.kinds a hm hf
        have hz : ¬ (a.kind = .help ∨ a.kind = .storeTrue) := by
          rw [← hk1]
          rcases ht with ht | ht <;> simp [ht]
        rcases hk : a.kind
        · simp [meaning, hk]
        · simp [meaning, hk]
        · exact absurd (Or.inr hk) hz
        · exact absurd (Or.inl hk) hz
    · cases h13
  | @unknown w ws is h1 h2 ih =>
    obtain ⟨ts, h3, h4, -⟩ := ih
    obtain ⟨h5, h6, h7⟩ := parse_unknown hs h1
    exact ⟨.opt w _ :: ts, classify_opt h7 h5 h3, .unknown rfl h4, fun _ s => by simp⟩

end

end FF
