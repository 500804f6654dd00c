import Verif.Lemmas.ArgsLoop
/-!
# Lemmas about command lines: the result
-/

namespace FF

section
variable {acts : List Act}

/-! ### Items -/

@[simp] theorem positionals_word (s : PyStr) (is : List CmdItem) : positionals (.word s :: is) = s :: positionals is := rfl

@[simp] theorem positionals_opt (a : Act) (vs : List PyStr) (is : List CmdItem) : positionals (.opt a vs :: is) = positionals is := rfl

@[simp] theorem positionals_unknown (s : PyStr) (is : List CmdItem) : positionals (.unknown s :: is) = positionals is := rfl

theorem adjacent_skip {i : CmdItem} {is : List CmdItem} {n : Nat} (h : ∀ s, i ≠ .word s) (hp : positionals (i :: is) = positionals is) :
    Adjacent (i :: is) n ↔ Adjacent is n := by
  constructor
  · rintro ⟨pre, x, y, post, h1, h2⟩
    rcases pre with _ | ⟨j, pre⟩
    · simp only [List.nil_append, List.cons.injEq] at h1
      exact absurd h1.1 (h x)
    · simp only [List.cons_append, List.cons.injEq] at h1
      obtain ⟨rfl, h1⟩ := h1
      refine ⟨pre, x, y, post, h1, ?_⟩
      rw [← h2]
      congr 1
      rcases i with s | ⟨a, vs⟩ | s
      · exact absurd rfl (h s)
      · rfl
      · rfl
  · rintro ⟨pre, x, y, post, h1, h2⟩
    refine ⟨i :: pre, x, y, post, by rw [h1]; rfl, ?_⟩
    rw [← h2]
    congr 1
    rcases i with s | ⟨a, vs⟩ | s
    · exact absurd rfl (h s)
    · rfl
    · rfl

theorem adjacent_word_one {s : PyStr} {is : List CmdItem} : Adjacent (.word s :: is) 1 ↔ nextWord is = true := by
  constructor
  · rintro ⟨pre, x, y, post, h1, h2⟩
    rcases pre with _ | ⟨j, pre⟩
    · simp only [List.nil_append, List.cons.injEq] at h1
      rw [h1.2]
      rfl
    · simp only [List.cons_append, List.cons.injEq] at h1
      rw [← h1.1] at h2
      simp at h2
  · intro h
    rcases is with _ | ⟨i, is⟩
    · cases h
    · rcases i with t | ⟨a, vs⟩ | t
      · exact ⟨[], s, t, is, rfl, rfl⟩
      · cases h
      · cases h

theorem adjacent_word_succ {s : PyStr} {is : List CmdItem} {n : Nat} (hn : n ≠ 0) :
    Adjacent (.word s :: is) (n + 1) ↔ Adjacent is n := by
  constructor
  · rintro ⟨pre, x, y, post, h1, h2⟩
    rcases pre with _ | ⟨j, pre⟩
    · simp only [positionals, List.filterMap_nil, List.length_nil] at h2
      omega
    · simp only [List.cons_append, List.cons.injEq] at h1
      rw [← h1.1] at h2
      exact ⟨pre, x, y, post, h1.2, by simpa using h2⟩
  · rintro ⟨pre, x, y, post, h1, h2⟩
    exact ⟨.word s :: pre, x, y, post, by rw [h1]; rfl, by simpa using h2⟩

/-- Options that mean something belong to the parser. -/
def ItemsOk (acts : List Act) (is : List CmdItem) : Prop :=
  ∀ a vs v, CmdItem.opt a vs ∈ is → meaning a vs = .ok v → a ∈ acts ∧ a.flags ≠ []

theorem TLine.itemsOk {ts : List Tok} {is : List CmdItem} (h : TLine acts ts is) : ItemsOk acts is := by
  induction h with
  | nil => intro a vs v hm; cases hm
  | word h1 h2 ih =>
    intro a vs v hm
    rcases List.mem_cons.1 hm with e | hm
    · cases e
    · exact ih a vs v hm
  | dashes h1 h2 =>
    intro a vs v hm
    simp at hm
  | opt h1 h0 h2 h3 h4 ih =>
    intro a vs v hm hv
    rcases List.mem_append.1 hm with hm | hm
    · obtain ⟨o, ho, e⟩ := List.mem_map.1 hm
      cases e
      exact ⟨(h3 o ho).1, (h3 o ho).2.1⟩
    · exact ih a vs v hm hv
  | bad h1 h2 h3 h4 ih =>
    intro a vs v hm hv
    rcases List.mem_cons.1 hm with e | hm
    · cases e
      rw [h3] at hv
      cases hv
    · exact ih a vs v hm hv
  | unknown h1 h2 ih =>
    intro a vs v hm
    rcases List.mem_cons.1 hm with e | hm
    · cases e
    · exact ih a vs v hm

theorem ItemsOk.tail {i : CmdItem} {is : List CmdItem} (h : ItemsOk acts (i :: is)) : ItemsOk acts is :=
  fun a vs v hm => h a vs v (List.mem_cons_of_mem _ hm)

theorem lastGiven_opt {a : Act} {vs : List PyStr} {v : Val} (h : meaning a vs = .ok v) (is : List CmdItem) (d : PyStr) :
    lastGiven (.opt a vs :: is) d = (lastGiven is d).or (if a.dest = d then some v else none) := by
  simp only [lastGiven, List.filterMap_cons]
  by_cases hd : a.dest = d
  · simp only [hd, if_true, h, Except.toOption, List.getLast?_cons]
    rcases (List.filterMap _ is).getLast? <;> rfl
  · simp only [hd, if_false, Option.or_none]

theorem lastGiven_word (s : PyStr) (is : List CmdItem) (d : PyStr) : lastGiven (.word s :: is) d = lastGiven is d := rfl

theorem lastGiven_none {is : List CmdItem} (h : ItemsOk acts is) {d : PyStr}
    (hd : ∀ a ∈ acts, a.flags ≠ [] → a.dest ≠ d) : lastGiven is d = none := by
  rw [lastGiven, List.getLast?_eq_none_iff, List.filterMap_eq_nil_iff]
  intro i hi
  rcases i with s | ⟨a, vs⟩ | s
  · rfl
  · simp only
    by_cases hx : a.dest = d
    · rw [if_pos hx]
      rcases hm : meaning a vs with x | v
      · rfl
      · obtain ⟨h1, h2⟩ := h a vs v hi hm
        exact absurd hx (hd a h1 h2)
    · rw [if_neg hx]
  · rfl

/-! ### Errors -/

theorem sim_exit : ∀ (is : List CmdItem) (st : PState) (x : Exit), firstExit is = some x → sim st is = .error x := by
  intro is
  induction is with
  | nil => intro st x h; cases h
  | cons i is ih =>
    intro st x h
    rw [firstExit, List.findSome?_cons] at h
    rcases i with s | ⟨a, vs⟩ | s
    · simp only at h
      rw [sim]
      rcases st.pos with _ | ⟨a, as⟩
      · exact ih _ x h
      · exact ih _ x h
    · simp only at h
      rw [sim]
      rcases hm : meaning a vs with y | v
      · rw [hm] at h
        simp only [Option.some.injEq] at h
        simp only [h]
      · rw [hm] at h
        exact ih _ x h
    · exact ih _ x h

theorem sim_ok : ∀ (is : List CmdItem) (st : PState), firstExit is = none → ∃ s, sim st is = .ok s := by
  intro is
  induction is with
  | nil => intro st h; exact ⟨st, rfl⟩
  | cons i is ih =>
    intro st h
    rw [firstExit, List.findSome?_cons] at h
    rcases i with s | ⟨a, vs⟩ | s
    · simp only at h
      rw [sim]
      rcases st.pos with _ | ⟨a, as⟩
      · exact ih _ h
      · exact ih _ h
    · simp only at h
      rw [sim]
      rcases hm : meaning a vs with y | v
      · rw [hm] at h
        cases h
      · rw [hm] at h
        exact ih _ h
    · exact ih _ h

theorem firstExit_tail {i : CmdItem} {is : List CmdItem} (h : firstExit (i :: is) = none) : firstExit is = none := by
  rw [firstExit, List.findSome?_cons] at h
  split at h
  · cases h
  · exact h

/-! ### Positional arguments -/

/-- The number of required arguments that are left -/
def reqN (pos : List Act) : Nat := (pos.filter fun a => a.nargs = .one).length

/-- The number of optional arguments that are left -/
def optN (pos : List Act) : Nat := (pos.filter fun a => a.nargs = .opt).length

/-- There are not too many words. -/
def Cap (pos : List Act) (is : List CmdItem) : Prop :=
  (positionals is).length ≤ reqN pos ∨
  ((positionals is).length = reqN pos + 1 ∧ optN pos ≠ 0 ∧ (reqN pos = 0 ∨ Adjacent is (reqN pos)))

theorem Cap.skip {i : CmdItem} {is : List CmdItem} {pos : List Act} (h : ∀ s, i ≠ .word s)
    (hp : positionals (i :: is) = positionals is) : Cap pos (i :: is) ↔ Cap pos is := by
  rw [Cap, Cap, hp, adjacent_skip h hp]

theorem settle_cases (st : PState) (next : Bool) :
    (∃ o, st.pos = [o] ∧ o.nargs = .opt ∧ next = false ∧ settle st next = { st.put o o.default with pos := [] }) ∨
    (Settled st.pos next ∧ settle st next = st) := by
  by_cases h : ∃ o, st.pos = [o] ∧ o.nargs = .opt ∧ next = false
  · obtain ⟨o, h1, h2, h3⟩ := h
    refine Or.inl ⟨o, h1, h2, h3, ?_⟩
    simp only [settle, h1, h2, h3, and_self, if_true]
  · right
    refine ⟨fun o h1 h2 => ?_, ?_⟩
    · rcases next with _ | _
      · exact absurd ⟨o, h1, h2, rfl⟩ h
      · rfl
    · rw [settle]
      split
      · rename_i o ho
        rw [if_neg]
        rintro ⟨h2, h3⟩
        exact h ⟨o, ho, h2, h3⟩
      · rfl

theorem Settled.mono {pos : List Act} (h : Settled pos false) (b : Bool) : Settled pos b := fun o h1 h2 => by
  have := h o h1 h2
  cases this

theorem PosAct.nargs_cases {a : Act} (h : PosAct a) : (a.nargs = .one ∧ a.nargs ≠ .opt) ∨ (a.nargs = .opt ∧ a.nargs ≠ .one) := by
  rcases h.2.2.2 with h | h <;> simp [h]

/-- One word for the next positional argument -/
theorem cap_word {a : Act} {as : List Act} {s : PyStr} {is : List CmdItem} (hsh : Shape (a :: as)) :
    ((∃ o, as = [o] ∧ o.nargs = .opt ∧ nextWord is = false) → (Cap (a :: as) (.word s :: is) ↔ Cap [] is)) ∧
    (Settled as (nextWord is) → (Cap (a :: as) (.word s :: is) ↔ Cap as is)) := by
  obtain ⟨ha, hao⟩ := hsh.head
  constructor
  · rintro ⟨o, rfl, ho, hn⟩
    have h1 : a.nargs = .one := by
      rcases ha.2.2.2 with h | h
      · exact h
      · have := hao h
        cases this
    have hr : reqN [a, o] = 1 := by simp [reqN, h1, ho]
    have hr0 : reqN [] = 0 := rfl
    have ho0 : optN [] = 0 := rfl
    rw [Cap, Cap, hr, hr0, ho0, adjacent_word_one, hn]
    simp
  · intro hset
    rcases ha.2.2.2 with h1 | h1
    · have hr : reqN (a :: as) = reqN as + 1 := by simp [reqN, h1]
      have ho : optN (a :: as) = optN as := by simp [optN, h1]
      rw [Cap, Cap, hr, ho, positionals_word, List.length_cons]
      by_cases h0 : reqN as = 0
      · by_cases h2 : optN as = 0
        · simp [h0, h2]
        · obtain ⟨R, O, e, hR, hO, hl⟩ := hsh.tail
          have hR0 : R = [] := by
            rcases R with _ | ⟨r, R⟩
            · rfl
            · rw [e] at h0
              simp [reqN, (hR r List.mem_cons_self).2] at h0
          subst hR0
          rw [List.nil_append] at e
          subst e
          rcases as with _ | ⟨o, _ | ⟨o', as⟩⟩
          · exact absurd rfl h2
          · have hn := hset o rfl (hO o List.mem_cons_self).2
            simp [h0, h2, adjacent_word_one, hn]
          · simp at hl
      · rw [adjacent_word_succ h0]
        simp [h0]
    · have := hao h1
      subst this
      have hr : reqN [a] = 0 := by simp [reqN, h1]
      have ho : optN [a] = 1 := by simp [optN, h1]
      have hr0 : reqN [] = 0 := rfl
      have ho0 : optN [] = 0 := rfl
      rw [Cap, Cap, hr, hr0, ho, ho0]
      simp

/-- No word is too many, and no option unknown, if nothing is left over. -/
theorem sim_extras_iff : ∀ (is : List CmdItem) (st s : PState), sim st is = .ok s → Shape st.pos → Settled st.pos (nextWord is) →
    (s.extras = [] ↔ st.extras = [] ∧ ¬ hasUnknown is ∧ Cap st.pos is) := by
  intro is
  induction is with
  | nil =>
    intro st s h _ _
    cases h
    simp [hasUnknown, Cap, positionals]
  | cons i is ih =>
    intro st s h hsh hset
    rcases i with w | ⟨a, vs⟩ | w
    · have hu : hasUnknown (.word w :: is) ↔ hasUnknown is := by simp [hasUnknown]
      rw [sim] at h
      rcases hp : st.pos with _ | ⟨a, as⟩
      · rw [hp] at h
        have := ih _ s h ⟨[], [], rfl, by simp, by simp, by simp⟩ (fun o h => by cases h)
        rw [this]
        simp [Cap, reqN, optN]
      · rw [hp] at h hsh
        simp only at h
        rw [hu]
        rcases settle_cases { st.put a (.str w) with pos := as } (nextWord is) with ⟨o, h1, h2, h3, h4⟩ | ⟨h1, h2⟩
        · rw [h4] at h
          rw [ih _ s h ⟨[], [], rfl, by simp, by simp, by simp⟩ (fun o h => by cases h),
            (cap_word hsh).1 ⟨o, h1, h2, h3⟩]
          rfl
        · rw [h2] at h
          rw [ih _ s h hsh.tail h1, (cap_word hsh).2 h1]
          rfl
    · have hu : hasUnknown (.opt a vs :: is) ↔ hasUnknown is := by simp [hasUnknown]
      rw [sim] at h
      rcases hm : meaning a vs with x | v
      · rw [hm] at h
        cases h
      · rw [hm] at h
        rw [ih _ s h hsh (hset.mono _), hu, Cap.skip (fun s => by simp) rfl]
        rfl
    · rw [sim] at h
      rw [ih _ s h hsh (hset.mono _)]
      have : hasUnknown (.unknown w :: is) := ⟨w, List.mem_cons_self⟩
      simp [this]

/-- All required arguments are there if there are enough words. -/
theorem sim_required : ∀ (is : List CmdItem) (st s : PState), sim st is = .ok s → Shape st.pos →
    ((∃ a ∈ s.pos, a.nargs = .one) ↔ (positionals is).length < reqN st.pos) := by
  intro is
  induction is with
  | nil =>
    intro st s h hsh
    cases h
    simp [positionals, reqN, List.length_pos_iff, List.filter_eq_nil_iff]
  | cons i is ih =>
    intro st s h hsh
    rcases i with w | ⟨a, vs⟩ | w
    · rw [sim] at h
      rcases hp : st.pos with _ | ⟨a, as⟩
      · rw [hp] at h
        have := ih _ s h ⟨[], [], rfl, by simp, by simp, by simp⟩
        rw [this]
        simp [reqN]
      · rw [hp] at h hsh
        simp only at h
        obtain ⟨ha, hao⟩ := hsh.head
        have hr : (positionals is).length < reqN as ↔ (positionals (.word w :: is)).length < reqN (a :: as) := by
          rcases ha.2.2.2 with h1 | h1
          · have : reqN (a :: as) = reqN as + 1 := by simp [reqN, h1]
            rw [this]
            simp
          · have := hao h1
            subst this
            simp [reqN, h1]
        rcases settle_cases { st.put a (.str w) with pos := as } (nextWord is) with ⟨o, h1, h2, h3, h4⟩ | ⟨h1, h2⟩
        · rw [h4] at h
          rw [ih _ s h ⟨[], [], rfl, by simp, by simp, by simp⟩, ← hr]
          simp only at h1
          rw [h1]
          simp [reqN, h2]
        · rw [h2] at h
          rw [ih _ s h hsh.tail, ← hr]
    · rw [sim] at h
      rcases hm : meaning a vs with x | v
      · rw [hm] at h
        cases h
      · rw [hm] at h
        exact ih (st.put a v) s h hsh
    · rw [sim] at h
      exact ih { st with extras := st.extras ++ [w] } s h hsh

/-! ### Values -/

/-- What holds of the positional arguments while a line is read: they are distinct, and seen once they are taken. -/
structure Inv (acts : List Act) (st : PState) : Prop where
  shape : Shape st.pos
  sub : ∀ a ∈ st.pos, a ∈ acts ∧ a.flags = []
  nodup : st.pos.Nodup
  seen : ∀ a ∈ acts, a.flags = [] → (a.dest ∈ st.seen ↔ a ∉ st.pos)

theorem dest_inj (hs : Sound acts) {a b : Act} (ha : a ∈ acts) (hb : b ∈ acts) (h : a.dest = b.dest) : a = b :=
  List.inj_on_of_nodup_map hs.dests ha hb h

theorem Inv.put_opt (hs : Sound acts) {st : PState} (h : Inv acts st) {a : Act} (ha : a ∈ acts) (hf : a.flags ≠ []) (v : Val) :
    Inv acts (st.put a v) := by
  refine ⟨h.shape, h.sub, h.nodup, fun b hb hbf => ?_⟩
  refine Iff.trans ?_ (h.seen b hb hbf)
  simp only [PState.put, List.mem_cons]
  constructor
  · rintro (e | e)
    · have := dest_inj hs hb ha e
      subst this
      exact absurd hbf hf
    · exact e
  · exact Or.inr

theorem Inv.put_pos (hs : Sound acts) {st : PState} {a : Act} {as : List Act} (h : Inv acts st) (hp : st.pos = a :: as) (v : Val) :
    Inv acts { st.put a v with pos := as } := by
  have hn := h.nodup
  rw [hp, List.nodup_cons] at hn
  have hsh := h.shape
  rw [hp] at hsh
  refine ⟨hsh.tail, fun b hb => h.sub b (by rw [hp]; exact List.mem_cons_of_mem _ hb), hn.2, fun b hb hbf => ?_⟩
  have := h.seen b hb hbf
  simp only [PState.put, List.mem_cons]
  rw [this, hp, List.mem_cons]
  constructor
  · rintro (e | e)
    · have := dest_inj hs hb (h.sub a (by rw [hp]; exact List.mem_cons_self)).1 e
      subst this
      exact hn.1
    · exact fun hm => e (Or.inr hm)
  · intro hm
    by_cases he : b = a
    · exact Or.inl (by rw [he])
    · exact Or.inr (by rintro (e | e); exacts [he e, hm e])

theorem Inv.extras {st : PState} (h : Inv acts st) (ex : List PyStr) : Inv acts { st with extras := ex } :=
  ⟨h.shape, h.sub, h.nodup, h.seen⟩

theorem Inv.settle (hs : Sound acts) {st : PState} (h : Inv acts st) (next : Bool) : Inv acts (settle st next) := by
  rcases settle_cases st next with ⟨o, h1, -, -, h4⟩ | ⟨-, h2⟩
  · rw [h4]
    exact h.put_pos hs h1 _
  · rw [h2]
    exact h

theorem sim_inv (hs : Sound acts) : ∀ (is : List CmdItem) (st s : PState), ItemsOk acts is → sim st is = .ok s → Inv acts st →
    Inv acts s := by
  intro is
  induction is with
  | nil => intro st s _ h hi; cases h; exact hi
  | cons i is ih =>
    intro st s hok h hi
    rcases i with w | ⟨a, vs⟩ | w
    · rw [sim] at h
      rcases hp : st.pos with _ | ⟨a, as⟩
      · rw [hp] at h
        refine ih _ s hok.tail h ?_
        rw [← hp]
        exact hi.extras _
      · rw [hp] at h
        exact ih _ s hok.tail h ((hi.put_pos hs hp _).settle hs _)
    · rw [sim] at h
      rcases hm : meaning a vs with x | v
      · rw [hm] at h
        cases h
      · rw [hm] at h
        obtain ⟨h1, h2⟩ := hok a vs v List.mem_cons_self hm
        exact ih (st.put a v) s hok.tail h (hi.put_opt hs h1 h2 v)
    · rw [sim] at h
      exact ih { st with extras := st.extras ++ [w] } s hok.tail h (hi.extras _)

theorem get_put (st : PState) (a : Act) (v : Val) (d : PyStr) :
    (st.put a v).ns.get? d = if a.dest = d then some v else st.ns.get? d := by
  simp only [PState.put]
  exact Dict.get?_set _ _ _ _

/-- What is not waiting for a word keeps its value or gets the last one given. -/
theorem sim_get_other (hs : Sound acts) : ∀ (is : List CmdItem) (st s : PState), ItemsOk acts is → sim st is = .ok s → Inv acts st →
    ∀ b ∈ acts, b ∉ st.pos → s.ns.get? b.dest = (lastGiven is b.dest).or (st.ns.get? b.dest) := by
  intro is
  induction is with
  | nil => intro st s _ h _ b _ _; cases h; rfl
  | cons i is ih =>
    intro st s hok h hi b hb hbp
    rcases i with w | ⟨a, vs⟩ | w
    · rw [sim] at h
      rw [lastGiven_word]
      rcases hp : st.pos with _ | ⟨a, as⟩
      · rw [hp] at h
        exact ih { st with pos := [], extras := st.extras ++ [w] } s hok.tail h (by rw [← hp]; exact hi.extras _) b hb (by simp)
      · rw [hp] at h hbp
        have ham := (hi.sub a (by rw [hp]; exact List.mem_cons_self)).1
        have hba : a.dest ≠ b.dest := fun e => hbp (by rw [dest_inj hs ham hb e]; exact List.mem_cons_self)
        have hg : ({ st.put a (.str w) with pos := as } : PState).ns.get? b.dest = st.ns.get? b.dest := by
          rw [get_put, if_neg hba]
        rcases settle_cases { st.put a (.str w) with pos := as } (nextWord is) with ⟨o, h1, h2, h3, h4⟩ | ⟨h1, h2⟩
        · simp only at h1
          have hom := (hi.sub o (by rw [hp, h1]; simp)).1
          have hbo : o.dest ≠ b.dest := fun e => hbp (by rw [← dest_inj hs hom hb e, h1]; simp)
          rw [ih _ s hok.tail h ((hi.put_pos hs hp _).settle hs _) b hb (by rw [h4]; simp), h4]
          congr 1
          exact (get_put _ o _ _).trans (by rw [if_neg hbo]; exact hg)
        · rw [ih _ s hok.tail h ((hi.put_pos hs hp _).settle hs _) b hb
            (by rw [h2]; exact fun hm => hbp (List.mem_cons_of_mem _ hm)), h2, hg]
    · rw [sim] at h
      rcases hm : meaning a vs with x | v
      · rw [hm] at h
        cases h
      · rw [hm] at h
        obtain ⟨h1, h2⟩ := hok a vs v List.mem_cons_self hm
        rw [ih (st.put a v) s hok.tail h (hi.put_opt hs h1 h2 v) b hb hbp, lastGiven_opt hm, get_put]
        rcases lastGiven is b.dest with _ | x
        · by_cases hd : a.dest = b.dest
          · simp [hd]
          · simp [hd]
        · rfl
    · rw [sim] at h
      exact ih { st with extras := st.extras ++ [w] } s hok.tail h (hi.extras _) b hb hbp

/-- Words go to the positional arguments in order. -/
theorem sim_get_pos (hs : Sound acts) : ∀ (is : List CmdItem) (st s : PState), ItemsOk acts is → sim st is = .ok s → Inv acts st →
    Settled st.pos (nextWord is) → Cap st.pos is → (∀ a ∈ st.pos, st.ns.get? a.dest = some a.default) →
    ∀ (i : Nat) (a : Act), st.pos[i]? = some a →
      s.ns.get? a.dest = some (match (positionals is)[i]? with | some w => .str w | none => a.default) := by
  intro is
  induction is with
  | nil =>
    intro st s _ h _ _ _ hdef i a ha
    cases h
    rw [hdef a (List.mem_of_getElem? ha)]
    rfl
  | cons j is ih =>
    intro st s hok h hi hset hcap hdef i a ha
    have hnone : ∀ b ∈ st.pos, lastGiven is b.dest = none := by
      intro b hb
      refine lastGiven_none hok.tail fun c hc hcf e => ?_
      have := dest_inj hs hc (hi.sub b hb).1 e
      subst this
      exact hcf (hi.sub c hb).2
    rcases j with w | ⟨b, vs⟩ | w
    · rw [sim] at h
      rcases hp : st.pos with _ | ⟨b, as⟩
      · rw [hp] at ha
        simp at ha
      · have hsh := hi.shape
        rw [hp] at h ha hsh hcap
        have hbm := hi.sub b (by rw [hp]; exact List.mem_cons_self)
        have hn := hi.nodup
        rw [hp, List.nodup_cons] at hn
        have hi' := hi.put_pos hs hp (.str w)
        have hdef' : ∀ c ∈ as, ({ st.put b (.str w) with pos := as } : PState).ns.get? c.dest = some c.default := by
          intro c hc
          rw [get_put, if_neg, hdef c (by rw [hp]; exact List.mem_cons_of_mem _ hc)]
          intro e
          have := dest_inj hs hbm.1 (hi.sub c (by rw [hp]; exact List.mem_cons_of_mem _ hc)).1 e
          subst this
          exact hn.1 hc
        rcases i with _ | i
        · simp only [List.getElem?_cons_zero, Option.some.injEq] at ha
          subst ha
          simp only [positionals_word, List.getElem?_cons_zero]
          rcases settle_cases { st.put b (.str w) with pos := as } (nextWord is) with ⟨o, h1, h2, h3, h4⟩ | ⟨h1, h2⟩
          · simp only at h1
            have hom := (hi.sub o (by rw [hp, h1]; simp)).1
            have hob : o.dest ≠ b.dest := by
              intro e
              have := dest_inj hs hom hbm.1 e
              subst this
              exact hn.1 (by rw [h1]; simp)
            rw [sim_get_other hs is _ s hok.tail h (hi'.settle hs _) b hbm.1 (by rw [h4]; simp),
              hnone b (by rw [hp]; exact List.mem_cons_self), h4, Option.none_or]
            exact (get_put _ o _ _).trans (by rw [if_neg hob]; exact (get_put st b _ _).trans (if_pos rfl))
          · rw [sim_get_other hs is _ s hok.tail h (hi'.settle hs _) b hbm.1 (by rw [h2]; exact hn.1),
              hnone b (by rw [hp]; exact List.mem_cons_self), h2, Option.none_or]
            exact (get_put st b _ _).trans (if_pos rfl)
        · simp only [List.getElem?_cons_succ] at ha
          simp only [positionals_word, List.getElem?_cons_succ]
          rcases settle_cases { st.put b (.str w) with pos := as } (nextWord is) with ⟨o, h1, h2, h3, h4⟩ | ⟨h1, h2⟩
          · simp only at h1
            have hao : a = o ∧ i = 0 := by
              rw [h1] at ha
              rcases i with _ | i
              · simp only [List.getElem?_cons_zero, Option.some.injEq] at ha
                exact ⟨ha.symm, rfl⟩
              · simp at ha
            obtain ⟨rfl, rfl⟩ := hao
            have hom := (hi.sub a (by rw [hp, h1]; simp))
            rw [sim_get_other hs is _ s hok.tail h (hi'.settle hs _) a hom.1 (by rw [h4]; simp),
              hnone a (by rw [hp, h1]; simp), h4, Option.none_or]
            have hc0 := ((cap_word hsh).1 ⟨a, h1, h2, h3⟩).1 hcap
            have hz : positionals is = [] := by
              simpa [Cap, reqN, optN] using hc0
            rw [hz]
            exact (get_put _ a _ _).trans (if_pos rfl)
          · have h := (congrArg (sim · is) h2).symm.trans h
            exact ih _ s hok.tail h hi' h1 (((cap_word hsh).2 h1).1 hcap) hdef' i a ha
    · rw [sim] at h
      rcases hm : meaning b vs with x | v
      · rw [hm] at h
        cases h
      · rw [hm] at h
        obtain ⟨h1, h2⟩ := hok b vs v List.mem_cons_self hm
        refine ih (st.put b v) s hok.tail h (hi.put_opt hs h1 h2 v) (hset.mono _) ((Cap.skip (fun s => by simp) rfl).1 hcap)
          ?_ i a ha
        intro c hc
        rw [get_put, if_neg, hdef c hc]
        intro e
        have := dest_inj hs h1 (hi.sub c hc).1 e
        subst this
        exact h2 (hi.sub b hc).2
    · rw [sim] at h
      exact ih { st with extras := st.extras ++ [w] } s hok.tail h (hi.extras _) (hset.mono _)
        ((Cap.skip (fun s => by simp) rfl).1 hcap) hdef i a ha

/-! ### `parse_args` -/

theorem Sound.shape (hs : Sound acts) : Shape (acts.filter fun a => a.flags = []) := by
  refine ⟨required acts, optional acts, hs.order, ?_, ?_, hs.one_optional⟩
  · intro a ha
    simp only [required, List.mem_filter, decide_eq_true_eq] at ha
    obtain ⟨h1, h2, h3⟩ := ha
    obtain ⟨h4, h5, h6⟩ := hs.positional a h1 h2
    exact ⟨⟨h2, h4, h5, h6⟩, h3⟩
  · intro a ha
    simp only [optional, List.mem_filter, decide_eq_true_eq] at ha
    obtain ⟨h1, h2, h3⟩ := ha
    obtain ⟨h4, h5, h6⟩ := hs.positional a h1 h2
    exact ⟨⟨h2, h4, h5, h6⟩, h3⟩

theorem reqN_acts (acts : List Act) : reqN (acts.filter fun a => a.flags = []) = (required acts).length := by
  rw [reqN, List.filter_filter, required]
  congr 1
  apply List.filter_congr
  intro a _
  simp [and_comm]

theorem optN_acts (acts : List Act) : optN (acts.filter fun a => a.flags = []) = (optional acts).length := by
  rw [optN, List.filter_filter, optional]
  congr 1
  apply List.filter_congr
  intro a _
  simp [and_comm]

theorem fits_iff (hs : Sound acts) (is : List CmdItem) :
    WordsFit acts is ↔ Cap (acts.filter fun a => a.flags = []) is ∧ ¬ (positionals is).length < (required acts).length := by
  have h0 : (required acts).length ≠ 0 := by
    intro h
    exact hs.some_required (List.length_eq_zero_iff.1 h)
  have h1 : optional acts ≠ [] ↔ (optional acts).length ≠ 0 := by
    rw [ne_eq, ← List.length_eq_zero_iff]
  rw [WordsFit, Cap, reqN_acts acts, optN_acts acts, h1]
  simp only [h0, false_or]
  constructor
  · rintro (h | ⟨h2, h3, h4⟩)
    · exact ⟨Or.inl (by omega), by omega⟩
    · exact ⟨Or.inr ⟨h2, h3, h4⟩, by omega⟩
  · rintro ⟨h2 | h2, h3⟩
    · exact Or.inl (by omega)
    · exact Or.inr h2

theorem get_default {l : List Act} (hd : (l.map Act.dest).Nodup) {a : Act} (ha : a ∈ l) (hk : a.kind ≠ .help) :
    Dict.get? ((l.filter fun a => a.kind ≠ .help).map fun a => (a.dest, a.default)) a.dest = some a.default := by
  apply Dict.get?_of_mem
  · have : Dict.keys ((l.filter fun a => a.kind ≠ .help).map fun a => (a.dest, a.default)) =
        (l.filter fun a => a.kind ≠ .help).map Act.dest := by
      rw [Dict.keys, List.map_map]
      rfl
    rw [this]
    exact hd.sublist (List.filter_sublist.map _)
  · exact List.mem_map.2 ⟨a, List.mem_filter.2 ⟨ha, by simpa using hk⟩, rfl⟩

theorem parse_line (hs : Sound acts) {argv : List PyStr} {is : List CmdItem} (hl : Line acts argv is) :
    (∀ x, firstExit is = some x → parseArgs acts argv = .error x) ∧
    (firstExit is = none → hasUnknown is ∨ ¬ WordsFit acts is → parseArgs acts argv = .error .usage) ∧
    (firstExit is = none → ¬ hasUnknown is → WordsFit acts is → ∃ ns, parseArgs acts argv = .ok ns ∧
      (∀ a ∈ acts, a.flags ≠ [] → a.kind ≠ .help → ns.get? a.dest = some ((lastGiven is a.dest).getD a.default)) ∧
      (∀ (i : Nat) (a : Act), (acts.filter fun a => a.flags = [])[i]? = some a →
        ns.get? a.dest = some (match (positionals is)[i]? with | some w => .str w | none => a.default))) := by
  obtain ⟨ts, hc, ht, -⟩ := classify_line hs hl
  have hsh := hs.shape
  have hset : Settled (acts.filter fun a => a.flags = []) false := by
    intro o h1 h2
    have h3 := hs.order
    rw [h1] at h3
    have h4 := hs.some_required
    rcases hR : required acts with _ | ⟨r, R⟩
    · exact absurd hR h4
    · rw [hR] at h3
      simp only [List.cons_append, List.cons.injEq] at h3
      have hm : r ∈ required acts := by rw [hR]; exact List.mem_cons_self
      simp only [required, List.mem_filter, decide_eq_true_eq] at hm
      rw [← h3.1, h2] at hm
      exact absurd hm.2.2 (by simp)
  set ns0 : Dict PyStr Val := (acts.filter fun a => a.kind ≠ .help).map fun a => (a.dest, a.default) with hns0
  set st0 : PState := ⟨ns0, [], acts.filter fun a => a.flags = [], []⟩ with hst0
  have hend := loop_sim hs (ts.length + 1) ts (Nat.lt_succ_self _) (ts.length + 1) st0 is (Nat.lt_succ_self _) ht hsh hset
  have hparse : parseArgs acts argv = (do
      let st ← argLoop acts (ts.length + 1) st0 ts
      if acts.any fun a => a.flags = [] && a.nargs = .one && !st.seen.contains a.dest then .error .usage
      else if st.extras ≠ [] then .error .usage
      else return st.ns) := by
    rw [parseArgs, hc]
    rfl
  have hok := ht.itemsOk
  have hinv : Inv acts st0 := by
    refine ⟨hsh, ?_, ?_, ?_⟩
    · intro a ha
      simpa [hst0] using ha
    · exact (List.Nodup.of_map _ hs.dests).filter _
    · intro a ha hf
      simp [hst0, ha, hf]
  refine ⟨fun x hx => ?_, fun hx hu => ?_, fun hx hu hfit => ?_⟩
  · rw [hparse, hend.1 x (sim_exit is st0 x hx)]
    rfl
  · obtain ⟨s, hsim⟩ := sim_ok is st0 hx
    obtain ⟨ex, h1, h2⟩ := hend.2 s hsim
    rw [hparse, h1]
    simp only [ex_bind_ok]
    split_ifs with h3 h4
    · rfl
    · rfl
    · exfalso
      have h5 : ex = [] := by simpa using h4
      have h6 := (sim_extras_iff is st0 s hsim hsh (hset.mono _)).1 (h2.1 h5)
      rcases hu with hu | hu
      · exact h6.2.1 hu
      · apply hu
        rw [fits_iff hs]
        refine ⟨h6.2.2, fun hlt => h3 ?_⟩
        rw [← reqN_acts acts] at hlt
        obtain ⟨a, ha, hone⟩ := (sim_required is st0 s hsim hsh).2 hlt
        have hi := sim_inv hs is st0 s hok hsim hinv
        obtain ⟨hm, hf⟩ := hi.sub a ha
        rw [List.any_eq_true]
        refine ⟨a, hm, ?_⟩
        have : a.dest ∉ s.seen := fun hseen => (hi.seen a hm hf).1 hseen ha
        simp [hf, hone, this]
  · obtain ⟨s, hsim⟩ := sim_ok is st0 hx
    obtain ⟨ex, h1, h2⟩ := hend.2 s hsim
    obtain ⟨hcap, hnlt⟩ := (fits_iff hs is).1 hfit
    have hi := sim_inv hs is st0 s hok hsim hinv
    refine ⟨s.ns, ?_, ?_, ?_⟩
    · rw [hparse, h1]
      simp only [ex_bind_ok]
      rw [if_neg, if_neg]
      · rfl
      · have := (sim_extras_iff is st0 s hsim hsh (hset.mono _)).2 ⟨rfl, hu, hcap⟩
        simpa using h2.2 this
      · intro hany
        rw [List.any_eq_true] at hany
        obtain ⟨a, ha, hb⟩ := hany
        simp only [Bool.and_eq_true, decide_eq_true_eq, Bool.not_eq_true', List.contains_eq_mem, decide_eq_false_iff_not] at hb
        obtain ⟨⟨hf, hone⟩, hns⟩ := hb
        have hp : a ∈ s.pos := by
          by_contra hp
          exact hns ((hi.seen a ha hf).2 hp)
        have := (sim_required is st0 s hsim hsh).1 ⟨a, hp, hone⟩
        rw [reqN_acts acts] at this
        exact hnlt this
    · intro a ha hf hk
      rw [sim_get_other hs is st0 s hok hsim hinv a ha (by simp [hst0, hf])]
      have : st0.ns.get? a.dest = some a.default := get_default hs.dests ha hk
      rw [this]
      rcases lastGiven is a.dest <;> rfl
    · intro i a ha
      refine sim_get_pos hs is st0 s hok hsim hinv (hset.mono _) hcap ?_ i a ha
      intro b hb
      simp only [hst0, List.mem_filter, decide_eq_true_eq] at hb
      exact get_default hs.dests hb.1 (by rw [(hs.positional b hb.1 hb.2).1]; simp)

end

end FF
