import Verif.Lemmas.ArgsParse
/-!
# Lemmas about the command lines of the tools
-/

namespace FF

/-- `Sound` as a test -/
def soundCheck (acts : List Act) : Bool :=
  (acts.flatMap Act.flags).all (fun f =>
    match f with
    | [d, c] => decide (d = 45 ∧ ((65 ≤ c.val ∧ c.val ≤ 90) ∨ (97 ≤ c.val ∧ c.val ≤ 122)))
    | d :: d' :: _ :: _ => decide (d = 45 ∧ d' = 45 ∧ 61 ∉ f)
    | _ => false) &&
  decide (acts.flatMap Act.flags).Nodup && decide (acts.map Act.dest).Nodup &&
  acts.all (fun a => decide (a.flags ≠ [] → (a.nargs = .zero ↔ a.kind = .help ∨ a.kind = .storeTrue) ∧ a.nargs ≠ .opt ∧
    (a.kind = .storeInt → a.nargs = .one ∧ a.choices = none))) &&
  acts.all (fun a => decide (a.flags = [] → a.kind = .store ∧ a.choices = none ∧ (a.nargs = .one ∨ a.nargs = .opt))) &&
  decide (acts.filter (fun a => a.flags = []) = required acts ++ optional acts) &&
  decide (required acts ≠ []) && decide ((optional acts).length ≤ 1)

theorem sound_of_check {acts : List Act} (h : soundCheck acts = true) : Sound acts := by
  simp only [soundCheck, Bool.and_eq_true, decide_eq_true_eq, List.all_eq_true] at h
  obtain ⟨⟨⟨⟨⟨⟨⟨h1, h2⟩, h3⟩, h4⟩, h5⟩, h6⟩, h7⟩, h8⟩ := h
  refine ⟨fun f a hf => ?_, h2, h3, h4, h5, h6, h7, h8⟩
  have := h1 f (List.mem_flatMap.2 ⟨a, hf⟩)
  rcases f with _ | ⟨d, _ | ⟨c, _ | ⟨c', rest⟩⟩⟩
  · cases this
  · cases this
  · simp only [decide_eq_true_eq] at this
    exact Or.inl ⟨c, by rw [this.1], this.2⟩
  · simp only [decide_eq_true_eq] at this
    obtain ⟨h, h', h''⟩ := this
    subst h h'
    exact Or.inr ⟨c', rest, rfl, h''⟩

theorem sound_convert : Sound convertParser := sound_of_check (by decide +kernel)
theorem sound_bucket : Sound bucketParser := sound_of_check (by decide +kernel)
theorem sound_similar : Sound similarParser := sound_of_check (by decide +kernel)
theorem sound_analogy : Sound analogyParser := sound_of_check (by decide +kernel)
theorem sound_select : Sound selectParser := sound_of_check (by decide +kernel)

section
variable {acts : List Act}

theorem Line.itemsOk (hs : Sound acts) {argv : List PyStr} {is : List CmdItem} (h : Line acts argv is) : ItemsOk acts is := by
  obtain ⟨ts, -, ht, -⟩ := classify_line hs h
  exact ht.itemsOk

theorem firstExit_word (w : PyStr) (is : List CmdItem) : firstExit (.word w :: is) = firstExit is := rfl

theorem firstExit_ok {a : Act} {vs : List PyStr} {v : Val} (h : meaning a vs = .ok v) (is : List CmdItem) :
    firstExit (.opt a vs :: is) = firstExit is := by
  rw [firstExit, List.findSome?_cons]
  simp only [h]
  rfl

theorem firstExit_error {a : Act} {vs : List PyStr} {x : Exit} (h : meaning a vs = .error x) (is : List CmdItem) :
    firstExit (.opt a vs :: is) = some x := by
  rw [firstExit, List.findSome?_cons]
  simp only [h]

theorem meaning_of_firstExit {is : List CmdItem} (h : firstExit is = none) {a : Act} {vs : List PyStr} (hm : CmdItem.opt a vs ∈ is) :
    ∃ v, meaning a vs = .ok v := by
  rw [firstExit, List.findSome?_eq_none_iff] at h
  have := h _ hm
  simp only at this
  rcases hv : meaning a vs with x | v
  · rw [hv] at this
    cases this
  · exact ⟨v, rfl⟩

theorem TLine.arity {ts : List Tok} {is : List CmdItem} (h : TLine acts ts is) :
    ∀ a vs v, CmdItem.opt a vs ∈ is → meaning a vs = .ok v → ArityOk a vs := by
  induction h with
  | nil => intro a vs v hm; cases hm
  | word h1 h2 ih =>
    intro a vs v hm
    rcases List.mem_cons.1 hm with e | hm
    · cases e
    · exact ih a vs v hm
  | dashes h1 h2 =>
    intro a vs v hm
    simp at hm
  | opt h1 h0 h2 h3 h4 ih =>
    intro a vs v hm hv
    rcases List.mem_append.1 hm with hm | hm
    · obtain ⟨o, ho, e⟩ := List.mem_map.1 hm
      cases e
      exact (h3 o ho).2.2
    · exact ih a vs v hm hv
  | bad h1 h2 h3 h4 ih =>
    intro a vs v hm hv
    rcases List.mem_cons.1 hm with e | hm
    · cases e
      rw [h3] at hv
      cases hv
    · exact ih a vs v hm hv
  | unknown h1 h2 ih =>
    intro a vs v hm
    rcases List.mem_cons.1 hm with e | hm
    · cases e
    · exact ih a vs v hm

theorem Line.arity (hs : Sound acts) {argv : List PyStr} {is : List CmdItem} (h : Line acts argv is) :
    ∀ a vs v, CmdItem.opt a vs ∈ is → meaning a vs = .ok v → ArityOk a vs := by
  obtain ⟨ts, -, ht, -⟩ := classify_line hs h
  exact ht.arity

/-- The last value given to an option is what one of its occurrences means. -/
theorem lastGiven_some {is : List CmdItem} {d : PyStr} {v : Val} (h : lastGiven is d = some v) :
    ∃ a vs, CmdItem.opt a vs ∈ is ∧ a.dest = d ∧ meaning a vs = .ok v := by
  rw [lastGiven] at h
  have := List.mem_of_getLast? h
  rw [List.mem_filterMap] at this
  obtain ⟨i, hi, hv⟩ := this
  rcases i with w | ⟨a, vs⟩ | w
  · cases hv
  · simp only at hv
    split_ifs at hv with hd
    refine ⟨a, vs, hi, hd, ?_⟩
    rcases hm : meaning a vs with x | y
    · rw [hm] at hv
      cases hv
    · rw [hm] at hv
      cases hv
      rfl
  · cases hv

theorem lastGiven_isSome {is : List CmdItem} (h : firstExit is = none) {a : Act} {vs : List PyStr} (hm : CmdItem.opt a vs ∈ is) :
    ∃ v, lastGiven is a.dest = some v := by
  obtain ⟨v, hv⟩ := meaning_of_firstExit h hm
  rcases hl : lastGiven is a.dest with _ | x
  · exfalso
    rw [lastGiven, List.getLast?_eq_none_iff, List.filterMap_eq_nil_iff] at hl
    have := hl _ hm
    simp only [if_true] at this
    rw [hv] at this
    cases this
  · exact ⟨x, rfl⟩

theorem lastGiven_act (hs : Sound acts) {is : List CmdItem} (hok : ItemsOk acts is) {a : Act} (ha : a ∈ acts) {v : Val}
    (h : lastGiven is a.dest = some v) : ∃ vs, CmdItem.opt a vs ∈ is ∧ meaning a vs = .ok v := by
  obtain ⟨b, vs, hb, hd, hm⟩ := lastGiven_some h
  have := dest_inj hs (hok b vs v hb hm).1 ha hd
  subst this
  exact ⟨vs, hb, hm⟩

theorem meaning_true {a : Act} (hk : a.kind = .storeTrue) {vs : List PyStr} {v : Val} (h : meaning a vs = .ok v) :
    v = .bool true := by
  unfold meaning at h
  simp only [hk] at h
  rcases vs with _ | ⟨w, vs⟩
  · cases h
    rfl
  · cases h

theorem meaning_int {a : Act} (hk : a.kind = .storeInt) {vs : List PyStr} {v : Val} (h : meaning a vs = .ok v) :
    ∃ k, v = .int k := by
  unfold meaning at h
  simp only [hk] at h
  rcases vs with _ | ⟨w, _ | ⟨w', vs⟩⟩
  · cases h
  · simp only at h
    rcases hp : pyInt w with x | k
    · rw [hp] at h
      cases h
    · rw [hp] at h
      cases h
      exact ⟨k, rfl⟩
  · cases h

theorem meaning_plus {a : Act} (hk : a.kind = .store) (hn : a.nargs = .plus) {vs : List PyStr} {v : Val}
    (h : meaning a vs = .ok v) : v = .list vs := by
  unfold meaning at h
  simp only [hk] at h
  simp only [hn] at h
  split_ifs at h
  cases h
  rfl

theorem meaning_choice {a : Act} (hk : a.kind = .store) (hn : a.nargs = .one) {cs : List PyStr} (hc : a.choices = some cs)
    {vs : List PyStr} (hlen : vs.length ≤ 1) {v : Val} (h : meaning a vs = .ok v) : ∃ s ∈ cs, v = .str s := by
  unfold meaning at h
  simp only [hk] at h
  simp only [hn] at h
  split_ifs at h with hss
  rcases vs with _ | ⟨w, _ | ⟨w', vs⟩⟩
  · exact absurd rfl hss.1
  · cases h
    exact ⟨w, hss.2 w List.mem_cons_self cs hc, rfl⟩
  · simp at hlen

theorem ofName_name (f : Format) : Format.ofName f.name = some f := by
  cases f <;> decide +kernel

section
variable {argv : List PyStr} {is : List CmdItem} {ns : Dict PyStr Val} {a : Act}

theorem says_flag (hs : Sound acts) (hl : Line acts argv is) (hx : firstExit is = none) (ha : a ∈ acts)
    (hk : a.kind = .storeTrue) (hd : a.default = .bool false)
    (h : ns.get? a.dest = some ((lastGiven is a.dest).getD a.default)) : SaysFlag is a.dest (flagOf ns a.dest) := by
  rw [SaysFlag, flagOf, h]
  rcases hg : lastGiven is a.dest with _ | v
  · simp only [Option.getD_none, hd]
    constructor
    · intro h
      simp at h
    · rintro ⟨b, vs, hb, hbd⟩
      obtain ⟨v, hv⟩ := lastGiven_isSome hx hb
      rw [hbd, hg] at hv
      cases hv
  · obtain ⟨vs, hm, hv⟩ := lastGiven_act hs (hl.itemsOk hs) ha hg
    rw [meaning_true hk hv]
    exact ⟨fun _ => ⟨a, vs, hm, rfl⟩, fun _ => by simp⟩

theorem name_text (f : Format) : f.name = ascii (formatText f) := by cases f <;> decide +kernel

theorem says_format_of (hs : Sound acts) (hl : Line acts argv is) (ha : a ∈ acts) (hk : a.kind = .store) (hn : a.nargs = .one)
    {cs : List PyStr} (hc : a.choices = some cs) {P : Format → Prop} (hcs : ∀ s ∈ cs, ∃ f : Format, P f ∧ s = f.name)
    {d : Format} (hP : P d) (hd : a.default = .str d.name)
    (h : ns.get? a.dest = some ((lastGiven is a.dest).getD a.default)) :
    ∃ f, P f ∧ SaysFormat is a.dest d f ∧ formatOf ns a.dest = .ok f := by
  rcases hg : lastGiven is a.dest with _ | v
  · refine ⟨d, hP, Or.inr ⟨hg, rfl⟩, ?_⟩
    rw [formatOf, h, hg, Option.getD_none, hd]
    simp only [ofName_name]
  · obtain ⟨vs, hm, hv⟩ := lastGiven_act hs (hl.itemsOk hs) ha hg
    have hlen : vs.length ≤ 1 := by
      rcases hl.arity hs a vs v hm hv with ⟨h1, -⟩ | ⟨-, w, rfl⟩ | ⟨h1, -⟩
      · rw [hn] at h1
        cases h1
      · simp
      · rw [hn] at h1
        cases h1
    obtain ⟨s, hsm, rfl⟩ := meaning_choice hk hn hc hlen hv
    obtain ⟨f, hf, rfl⟩ := hcs s hsm
    refine ⟨f, hf, Or.inl (name_text f ▸ hg), ?_⟩
    rw [formatOf, h, hg, Option.getD_some]
    simp only [ofName_name]

theorem says_format (hs : Sound acts) (hl : Line acts argv is) (ha : a ∈ acts) (hk : a.kind = .store) (hn : a.nargs = .one)
    {cs : List PyStr} (hc : a.choices = some cs) (hcs : ∀ s ∈ cs, ∃ f : Format, s = f.name) {d : Format}
    (hd : a.default = .str d.name) (h : ns.get? a.dest = some ((lastGiven is a.dest).getD a.default)) :
    ∃ f, SaysFormat is a.dest d f ∧ formatOf ns a.dest = .ok f := by
  obtain ⟨f, -, h1, h2⟩ := says_format_of (P := fun _ => True) hs hl ha hk hn hc
    (fun s hs => (hcs s hs).imp fun _ h => ⟨trivial, h⟩) trivial hd h
  exact ⟨f, h1, h2⟩

theorem says_k (hs : Sound acts) (hl : Line acts argv is) (ha : kArg ∈ acts)
    (h : ns.get? kArg.dest = some ((lastGiven is kArg.dest).getD kArg.default)) :
    ∃ k, SaysK is k ∧ intOf ns (ascii "k".toList) = .ok k := by
  have he : ascii "k".toList = kArg.dest := rfl
  have he' : kArg.dest = [107] := by decide +kernel
  rcases hg : lastGiven is kArg.dest with _ | v
  · refine ⟨10, Or.inr ⟨by rw [← he']; exact hg, rfl⟩, ?_⟩
    rw [intOf, he, h, hg]
    rfl
  · obtain ⟨vs, hm, hv⟩ := lastGiven_act hs (hl.itemsOk hs) ha hg
    obtain ⟨k, rfl⟩ := meaning_int (by rfl) hv
    refine ⟨k, Or.inl (by rw [← he']; exact hg), ?_⟩
    rw [intOf, he, h, hg]
    rfl

theorem says_includes (hs : Sound acts) (hl : Line acts argv is) (ha : a ∈ acts) (hk : a.kind = .store)
    (hn : a.nargs = .plus) (hd : a.default = .list []) (hdest : a.dest = ascii "include".toList)
    (h : ns.get? a.dest = some ((lastGiven is a.dest).getD a.default)) : SaysIncludes is (listOf ns (ascii "include".toList)) := by
  rw [SaysIncludes, ← hdest, listOf]
  rcases hg : lastGiven is a.dest with _ | v
  · right
    rw [h, hg, Option.getD_none, hd]
    exact ⟨rfl, rfl⟩
  · left
    obtain ⟨vs, hm, hv⟩ := lastGiven_act hs (hl.itemsOk hs) ha hg
    rw [h, hg, Option.getD_some, meaning_plus hk hn hv]

theorem pathOf_str {d : PyStr} {s : PyStr} (h : ns.get? d = some (.str s)) : pathOf ns d = .ok s := by
  rw [pathOf, h]

end

end

theorem formatNames_ok : ∀ s ∈ formatNames, ∃ f : Format, s = f.name := by
  intro s hs
  simp only [formatNames, List.map_cons, List.map_nil, List.mem_cons, List.not_mem_nil, or_false] at hs
  rcases hs with h | h | h | h | h <;> exact ⟨_, h⟩

theorem bucketNames_ok : ∀ s ∈ [Format.finalfusion.name, Format.fasttext.name],
    ∃ f : Format, (f = .finalfusion ∨ f = .fasttext) ∧ s = f.name := by
  intro s hs
  simp only [List.mem_cons, List.not_mem_nil, or_false] at hs
  rcases hs with h | h
  · exact ⟨_, Or.inl rfl, h⟩
  · exact ⟨_, Or.inr rfl, h⟩

/-! ### For examples -/

theorem plain_of {s : PyStr} (h : s.head? ≠ some 45) : PlainWord s := Or.inl h

theorem abbrev_of {acts : List Act} {p f : PyStr} (h : ∀ g ∈ acts.flatMap Act.flags, p <+: g → g = f) :
    ∀ g b, IsFlag acts g b → p <+: g → g = f :=
  fun g b hg => h g (List.mem_flatMap.2 ⟨b, hg⟩)

theorem unknown_of {acts : List Act} {w : PyStr} {c : Code}
    (h : ∀ f ∈ acts.flatMap Act.flags, f ≠ [45, c] ∧ ¬ w <+: f) :
    ∀ f a, IsFlag acts f a → f ≠ [45, c] ∧ ¬ w <+: f :=
  fun f a hf => h f (List.mem_flatMap.2 ⟨a, hf⟩)

theorem saysFlag_of {is : List CmdItem} {d : PyStr} {b : Bool}
    (h : b = is.any fun i => match i with | .opt a _ => a.dest = d | _ => false) : SaysFlag is d b := by
  rw [SaysFlag, h, List.any_eq_true]
  constructor
  · rintro ⟨i, hi, hd⟩
    rcases i with w | ⟨a, vs⟩ | w
    · cases hd
    · exact ⟨a, vs, hi, by simpa using hd⟩
    · cases hd
  · rintro ⟨a, vs, hi, hd⟩
    exact ⟨_, hi, by simpa using hd⟩

end FF
