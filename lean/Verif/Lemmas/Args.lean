import Verif.Spec.Args
import Verif.Lemmas.Dict
import Verif.Lemmas.PyText
/-!
# Lemmas about command lines: single words
-/

namespace FF

section
variable {acts : List Act}

@[simp] theorem ex_bind_ok {ε α β : Type} (a : α) (f : α → Except ε β) : ((.ok a : Except ε α) >>= f) = f a := rfl

@[simp] theorem ex_bind_error {ε α β : Type} (e : ε) (f : α → Except ε β) : ((.error e : Except ε α) >>= f) = .error e := rfl

@[simp] theorem ex_pure {ε α : Type} (a : α) : (pure a : Except ε α) = .ok a := rfl

theorem optMap_fst (acts : List Act) : (optMap acts).map Prod.fst = acts.flatMap Act.flags := by
  induction acts with
  | nil => rfl
  | cons a as ih =>
    simp only [optMap, List.flatMap_cons, List.map_append, List.map_map] at ih ⊢
    rw [ih]
    congr 1
    exact List.map_id _

theorem mem_optMap {f : PyStr} {a : Act} : (f, a) ∈ optMap acts ↔ IsFlag acts f a := by
  simp [optMap, IsFlag]

theorem lookup_iff {l : List (PyStr × Act)} (hn : (l.map Prod.fst).Nodup) {f : PyStr} {a : Act} :
    l.lookup f = some a ↔ (f, a) ∈ l := by
  induction l with
  | nil => simp
  | cons p l ih =>
    obtain ⟨g, b⟩ := p
    simp only [List.map_cons, List.nodup_cons] at hn
    rw [List.lookup_cons]
    by_cases h : f = g
    · subst h
      simp only [BEq.rfl, Option.some.injEq, List.mem_cons, Prod.mk.injEq, true_and]
      constructor
      · intro h; exact Or.inl h.symm
      · rintro (h | h)
        · exact h.symm
        · exact absurd (List.mem_map_of_mem (f := Prod.fst) h) hn.1
    · have : (f == g) = false := by simpa using h
      simp only [this, List.mem_cons, Prod.mk.injEq, h, false_and, false_or]
      exact ih hn.2

theorem findOpt_iff (hs : Sound acts) {f : PyStr} {a : Act} : findOpt acts f = some a ↔ IsFlag acts f a := by
  rw [findOpt, lookup_iff (by rw [optMap_fst]; exact hs.once), mem_optMap]

theorem findOpt_none (hs : Sound acts) {f : PyStr} : findOpt acts f = none ↔ ∀ a, ¬ IsFlag acts f a := by
  constructor
  · intro h a ha
    rw [(findOpt_iff hs).2 ha] at h
    cases h
  · intro h
    rcases hf : findOpt acts f with _ | a
    · rfl
    · exact absurd ((findOpt_iff hs).1 hf) (h a)

theorem flag_unique (hs : Sound acts) {f : PyStr} {a b : Act} (ha : IsFlag acts f a) (hb : IsFlag acts f b) : a = b := by
  have := (findOpt_iff hs).2 ha
  rw [(findOpt_iff hs).2 hb] at this
  exact (Option.some.inj this).symm

/-! ### `partition` -/

theorem partitionEq_none {s : PyStr} (h : 61 ∉ s) : partitionEq s = (s, none) := by
  induction s with
  | nil => rfl
  | cons c s ih =>
    simp only [List.mem_cons, not_or] at h
    rw [partitionEq, if_neg (fun e => h.1 e.symm), ih h.2]

theorem partitionEq_some {p v : PyStr} (h : 61 ∉ p) : partitionEq (p ++ 61 :: v) = (p, some v) := by
  induction p with
  | nil => rfl
  | cons c s ih =>
    simp only [List.mem_cons, not_or] at h
    rw [List.cons_append, partitionEq, if_neg (fun e => h.1 e.symm), ih h.2]

theorem partitionEq_cases (s : PyStr) : (61 ∉ s ∧ partitionEq s = (s, none)) ∨
    ∃ p v, 61 ∉ p ∧ s = p ++ 61 :: v ∧ partitionEq s = (p, some v) := by
  by_cases h : (61 : Code) ∈ s
  · right
    obtain ⟨p, v, h1, h2⟩ := List.eq_append_cons_of_mem h
    exact ⟨p, v, h2, h1, by rw [h1]; exact partitionEq_some h2⟩
  · exact Or.inl ⟨h, partitionEq_none h⟩

/-! ### What a word is taken for -/

theorem Sound.cases (hs : Sound acts) {f : PyStr} {a : Act} (h : IsFlag acts f a) :
    (∃ c : Code, f = [45, c] ∧ c ≠ 45 ∧ ¬ (48 ≤ c.val ∧ c.val ≤ 57)) ∨ (∃ c name, f = 45 :: 45 :: c :: name ∧ 61 ∉ f) := by
  rcases hs.flag f a h with ⟨c, rfl, hc⟩ | h
  · refine Or.inl ⟨c, rfl, ?_, ?_⟩
    · rintro rfl
      revert hc
      decide
    · omega
  · exact Or.inr h

theorem isPrefixOf_false {s t : PyStr} (h : ¬ s <+: t) : s.isPrefixOf t = false := by
  rcases hb : s.isPrefixOf t with _ | _
  · rfl
  · exact absurd (List.isPrefixOf_iff_prefix.1 hb) h

theorem filterMap_key {β : Type} (g : PyStr × Act → β) (k : PyStr) {l : List (PyStr × Act)} (hn : (l.map Prod.fst).Nodup) :
    l.filterMap (fun q => if q.1 = k then some (g q) else none) =
      match l.lookup k with | some a => [g (k, a)] | none => [] := by
  induction l with
  | nil => rfl
  | cons p l ih =>
    obtain ⟨f, b⟩ := p
    simp only [List.map_cons, List.nodup_cons] at hn
    rw [List.filterMap_cons, List.lookup_cons]
    by_cases h : f = k
    · subst h
      simp only [if_true, BEq.rfl]
      rw [List.filterMap_eq_nil_iff.2]
      intro q hq
      rw [if_neg]
      rintro rfl
      exact hn.1 (List.mem_map_of_mem (f := Prod.fst) hq)
    · have hb : (k == f) = false := by simpa using fun e => h e.symm
      simp only [h, if_false, hb]
      exact ih hn.2

theorem filter_key {P : PyStr → Bool} {k : PyStr} {a : Act} {l : List (PyStr × Act)} (hn : (l.map Prod.fst).Nodup)
    (hm : (k, a) ∈ l) (hk : P k = true) (h : ∀ q ∈ l, P q.1 = true → q.1 = k) : l.filter (fun q => P q.1) = [(k, a)] := by
  induction l with
  | nil => cases hm
  | cons p l ih =>
    obtain ⟨f, b⟩ := p
    simp only [List.map_cons, List.nodup_cons] at hn
    by_cases he : f = k
    · subst he
      have : a = b := by
        rcases List.mem_cons.1 hm with e | e
        · exact (Prod.mk.inj e).2
        · exact absurd (List.mem_map_of_mem (f := Prod.fst) e) hn.1
      subst this
      rw [List.filter_cons_of_pos (p := fun q : PyStr × Act => P q.1) (a := (f, a)) hk, List.filter_eq_nil_iff.2]
      intro q hq hp
      exact hn.1 (h q (List.mem_cons_of_mem _ hq) hp ▸ List.mem_map_of_mem (f := Prod.fst) hq)
    · rw [List.filter_cons_of_neg (p := fun q : PyStr × Act => P q.1) (a := (f, b)) (fun hp => he (h (f, b) List.mem_cons_self hp))]
      refine ih hn.2 ?_ (fun q hq => h q (List.mem_cons_of_mem _ hq))
      rcases List.mem_cons.1 hm with e | e
      · exact absurd (Prod.mk.inj e).1.symm he
      · exact e

theorem optMap_nodup (hs : Sound acts) : ((optMap acts).map Prod.fst).Nodup := by
  rw [optMap_fst]
  exact hs.once

/-- A single dash: only a flag with that letter fits. -/
theorem optTuples_short (hs : Sound acts) {c : Code} {rest : PyStr} (hc : c ≠ 45) :
    optTuples acts (45 :: c :: rest) =
      match findOpt acts [45, c] with | some a => [⟨some a, [45, c], false, some rest⟩] | none => [] := by
  rw [optTuples, if_neg hc]
  have := filterMap_key (fun q => (⟨some q.2, q.1, false, some rest⟩ : OptTuple)) [45, c] (optMap_nodup hs)
  rw [findOpt]
  refine Eq.trans (List.filterMap_congr ?_) this
  rintro ⟨f, a⟩ hq
  have hf := mem_optMap.1 hq
  by_cases he : f = [45, c]
  · simp only [he, if_true]
  · simp only [he, if_false]
    rw [isPrefixOf_false]
    · simp
    · intro hp
      rcases hs.cases hf with ⟨d, rfl, hd, -⟩ | ⟨d, name, rfl, -⟩
      · obtain ⟨t, ht⟩ := hp
        simp only [List.cons_append, List.cons.injEq, List.append_eq_nil_iff, true_and] at ht
        exact he (by rw [ht.1])
      · obtain ⟨t, ht⟩ := hp
        simp only [List.cons_append, List.cons.injEq, true_and] at ht
        exact hc ht.1

theorem ascii_digit {d : Code} (h : 48 ≤ d.val ∧ d.val ≤ 57) : (digitVal d).isSome = true := by
  have := digitVal_iff (c := d) (d := d.val - 48)
  rw [this.2 ⟨by omega, 48, by decide, by omega⟩]
  rfl

theorem looksNegative_digits {ds : PyStr} (h0 : ds ≠ []) (h : ∀ d ∈ ds, 48 ≤ d.val ∧ d.val ≤ 57) :
    looksNegative (45 :: ds) = true := by
  have hl : (45 :: ds : PyStr).getLast? ≠ some 10 := by
    intro e
    have hm : (10 : Code) ∈ (45 :: ds : PyStr) := List.mem_of_getLast? e
    rcases List.mem_cons.1 hm with e | e
    · exact absurd e (by decide)
    · have := h _ e
      revert this
      decide
  rw [looksNegative, if_neg hl]
  have h1 : ds.all (fun c => (digitVal c).isSome) = true := by
    rw [List.all_eq_true]
    exact fun d hd => ascii_digit (h d hd)
  simp [h0, h1]

theorem parse_plain (hs : Sound acts) {s : PyStr} (h : PlainWord s) : parseOptional acts s = .ok none := by
  rcases s with _ | ⟨c, s⟩
  · rfl
  · by_cases hc : c = 45
    · subst hc
      rcases h with h | h | ⟨ds, h0, h1, h2⟩
      · exact absurd rfl h
      · cases h
        have : findOpt acts [45] = none := by
          rw [findOpt_none hs]
          intro a ha
          rcases hs.cases ha with ⟨d, e, -⟩ | ⟨d, name, e, -⟩ <;> cases e
        rw [parseOptional, if_neg (by simp), this]
        rfl
      · obtain ⟨d, ds, rfl⟩ := List.exists_cons_of_ne_nil h0
        cases h1
        have hd := h2 d List.mem_cons_self
        have hd45 : d ≠ 45 := by rintro rfl; revert hd; decide
        have hno : ∀ a rest, ¬ IsFlag acts (45 :: d :: rest) a := by
          intro a rest ha
          rcases hs.cases ha with ⟨c, e, -, hc⟩ | ⟨c, name, e, -⟩
          · cases e
            exact hc hd
          · cases e
            exact hd45 rfl
        have h61 : (61 : Code) ∉ (45 :: d :: ds : PyStr) := by
          intro hm
          rcases List.mem_cons.1 hm with e | e
          · exact absurd e (by decide)
          · have := h2 _ e
            revert this
            decide
        rw [parseOptional, if_neg (by simp), (findOpt_none hs).2 (fun a => hno a ds)]
        simp only [List.cons_ne_nil, if_false, partitionEq_none h61]
        rw [optTuples_short hs hd45, (findOpt_none hs).2 (fun a => hno a [])]
        simp only [looksNegative_digits h0 h2, if_true]
    · rw [parseOptional, if_pos hc]

/-- How the letters after a dash are cut at first -/
def cut (x : PyStr) : Bool × Option PyStr :=
  match x with
  | [] => (false, none)
  | c :: v => if c = 61 then (true, some v) else (false, some (c :: v))

theorem parse_short (hs : Sound acts) {c : Code} {rest : PyStr} {a : Act} (h : IsFlag acts [45, c] a) :
    parseOptional acts (45 :: c :: rest) = .ok (some ⟨some a, [45, c], (cut rest).1, (cut rest).2⟩) := by
  have hc : c ≠ 45 := by
    rcases hs.cases h with ⟨d, e, hd, -⟩ | ⟨d, name, e, -⟩
    · cases e; exact hd
    · cases e
  have hc61 : (61 : Code) ∉ ([45, c] : PyStr) := by
    intro hm
    rcases hs.flag _ _ h with ⟨d, e, hd⟩ | ⟨d, name, e, hn⟩
    · cases e
      simp only [List.mem_cons, List.not_mem_nil, or_false] at hm
      rcases hm with e | e
      · exact absurd e (by decide)
      · subst e
        revert hd
        decide
    · exact hn hm
  rw [parseOptional, if_neg (by simp)]
  rcases rest with _ | ⟨d, v⟩
  · rw [(findOpt_iff hs).2 h]
    rfl
  · have hno : findOpt acts (45 :: c :: d :: v) = none := by
      rw [findOpt_none hs]
      intro b hb
      rcases hs.cases hb with ⟨e, he, -⟩ | ⟨e, name, he, -⟩
      · cases he
      · cases he
        exact hc rfl
    rw [hno]
    simp only [List.cons_ne_nil, if_false]
    by_cases hd : d = 61
    · subst hd
      have := partitionEq_some (p := [45, c]) (v := v) hc61
      simp only [List.cons_append, List.nil_append] at this
      rw [this]
      simp only [(findOpt_iff hs).2 h]
      rfl
    · have hp : ∀ x, (partitionEq (45 :: c :: d :: v)).2 = some x →
          findOpt acts (partitionEq (45 :: c :: d :: v)).1 = none := by
        intro x hx
        rcases partitionEq_cases (45 :: c :: d :: v) with ⟨-, e⟩ | ⟨p, w, hp, e1, e2⟩
        · rw [e] at hx
          cases hx
        · rw [e2]
          rw [findOpt_none hs]
          intro b hb
          rcases hs.cases hb with ⟨g, rfl, -⟩ | ⟨g, name, rfl, -⟩
          · simp only [List.cons_append, List.nil_append, List.cons.injEq, true_and] at e1
            exact hd e1.2.1
          · simp only [List.cons_append, List.cons.injEq, true_and] at e1
            exact hc e1.1
      have hot := optTuples_short hs hc (rest := d :: v)
      rw [(findOpt_iff hs).2 h] at hot
      simp only at hot
      have hcut : cut (d :: v) = (false, some (d :: v)) := by rw [cut, if_neg hd]
      rw [hcut]
      rcases he : (partitionEq (45 :: c :: d :: v)).2 with _ | x
      · simp only [hot]
      · simp only [hp x he, hot]

/-- Two dashes -/
theorem parse_long (hs : Sound acts) {p : PyStr} {a : Act} (h : Abbrev acts p a) :
    ∃ f, IsFlag acts f a ∧ [45, 45] <+: f ∧
      parseOptional acts p = .ok (some ⟨some a, f, false, none⟩) ∧
      ∀ v, parseOptional acts (p ++ 61 :: v) = .ok (some ⟨some a, f, true, some v⟩) := by
  obtain ⟨h61, hne, ⟨t, rfl⟩, hf⟩ := h
  have ht : t ≠ [] := by rintro rfl; exact hne rfl
  obtain ⟨c, t, rfl⟩ := List.exists_cons_of_ne_nil ht
  simp only [List.cons_append, List.nil_append] at *
  have hno : ∀ v, findOpt acts (45 :: 45 :: c :: (t ++ 61 :: v)) = none := by
    intro v
    rw [findOpt_none hs]
    intro b hb
    rcases hs.cases hb with ⟨d, e, -⟩ | ⟨d, name, e, hn⟩
    · cases e
    · exact hn (by simp)
  have hpart := fun v => partitionEq_some (p := 45 :: 45 :: c :: t) (v := v) h61
  simp only [List.cons_append] at hpart
  by_cases hx : IsFlag acts (45 :: 45 :: c :: t) a
  · refine ⟨_, hx, ⟨_, rfl⟩, ?_, fun v => ?_⟩
    · rw [parseOptional, if_neg (by simp), (findOpt_iff hs).2 hx]
    · rw [parseOptional, if_neg (by simp), hno v]
      simp only [List.cons_ne_nil, if_false, hpart, (findOpt_iff hs).2 hx]
  · obtain ⟨f, hfl, hp, hu⟩ := hf.resolve_left hx
    have hxb : ∀ b, ¬ IsFlag acts (45 :: 45 :: c :: t) b := by
      intro b hb
      have := hu _ b hb (List.prefix_refl _)
      subst this
      exact hx hfl
    have hp2 : [45, 45] <+: f := by
      obtain ⟨r, rfl⟩ := hp
      exact ⟨c :: t ++ r, rfl⟩
    have hfil : (optMap acts).filter (fun q => (45 :: 45 :: c :: t : PyStr).isPrefixOf q.1) = [(f, a)] := by
      refine filter_key (P := fun s => (45 :: 45 :: c :: t : PyStr).isPrefixOf s) (optMap_nodup hs) (mem_optMap.2 hfl)
        (List.isPrefixOf_iff_prefix.2 hp) ?_
      rintro ⟨g, b⟩ hg hgp
      exact hu g b (mem_optMap.1 hg) (List.isPrefixOf_iff_prefix.1 hgp)
    refine ⟨f, hfl, hp2, ?_, fun v => ?_⟩
    · rw [parseOptional, if_neg (by simp), (findOpt_none hs).2 hxb]
      simp only [List.cons_ne_nil, if_false, partitionEq_none h61, optTuples, if_true, hfil, List.map_cons, List.map_nil]
      rfl
    · rw [parseOptional, if_neg (by simp), hno v]
      simp only [List.cons_ne_nil, if_false, hpart, (findOpt_none hs).2 hxb, optTuples, if_true, hfil, List.map_cons,
        List.map_nil]
      rfl

theorem not_plain_letter {c : Code} {rest : PyStr} (h : c = 45 ∨ ¬ (48 ≤ c.val ∧ c.val ≤ 57)) : ¬ PlainWord (45 :: c :: rest) := by
  rintro (h1 | h1 | ⟨ds, h0, h1, h2⟩)
  · exact h1 rfl
  · cases h1
  · cases h1
    have := h2 c List.mem_cons_self
    rcases h with rfl | h
    · revert this
      decide
    · exact h this

theorem unknown_letter {c : Code} (h : c = 45 ∨ (65 ≤ c.val ∧ c.val ≤ 90) ∨ (97 ≤ c.val ∧ c.val ≤ 122)) :
    c = 45 ∨ ¬ (48 ≤ c.val ∧ c.val ≤ 57) := by
  rcases h with h | h
  · exact Or.inl h
  · right
    omega

theorem letter_digitVal {c : Code} (h : c = 45 ∨ (65 ≤ c.val ∧ c.val ≤ 90) ∨ (97 ≤ c.val ∧ c.val ≤ 122)) :
    (digitVal c).isSome = false ∧ c ≠ 46 ∧ c ≠ 10 := by
  have key : ∀ n : Nat, n < 128 → (n = 45 ∨ (65 ≤ n ∧ n ≤ 90) ∨ (97 ≤ n ∧ n ≤ 122)) →
      (digitVal (toCode n)).isSome = false ∧ toCode n ≠ 46 ∧ toCode n ≠ 10 := by
    decide +kernel
  have hc : c.val = 45 ∨ (65 ≤ c.val ∧ c.val ≤ 90) ∨ (97 ≤ c.val ∧ c.val ≤ 122) := by
    rcases h with rfl | h
    · exact Or.inl rfl
    · exact Or.inr h
  have hn : c = toCode c.val := by
    apply Fin.ext
    rw [toCode_val_of c.isLt]
  have := key c.val (by omega) hc
  rwa [← hn] at this

theorem looksNegative_letter {c : Code} {rest : PyStr}
    (h : c = 45 ∨ (65 ≤ c.val ∧ c.val ≤ 90) ∨ (97 ≤ c.val ∧ c.val ≤ 122)) : looksNegative (45 :: c :: rest) = false := by
  obtain ⟨h1, h2, h3⟩ := letter_digitVal h
  have key : ∀ r : PyStr, (match (45 :: c :: r : PyStr) with
    | [] => false
    | c :: cs => decide (c = 45) && ((decide (cs ≠ []) && cs.all fun c => (digitVal c).isSome) ||
      match cs.dropWhile fun c => (digitVal c).isSome with
      | [] => false
      | d :: ds => decide (d = 46) && decide (ds ≠ []) && ds.all fun c => (digitVal c).isSome)) = false := by
    intro r
    simp [h1, h2]
  rw [looksNegative]
  split_ifs with hl
  · rcases rest.eq_nil_or_concat with rfl | ⟨r, d, rfl⟩
    · simp at hl
      exact absurd hl h3
    · have e : (45 :: c :: r.concat d : PyStr).dropLast = 45 :: c :: r := by
        rw [List.concat_eq_append, ← List.cons_append, ← List.cons_append, List.dropLast_concat]
      rw [e]
      exact key r
  · exact key rest

theorem parse_unknown (hs : Sound acts) {w : PyStr} (h : Unknown acts w) :
    parseOptional acts w = .ok (some ⟨none, w, false, none⟩) ∧ ¬ PlainWord w ∧ w ≠ [45, 45] := by
  obtain ⟨c, rest, rfl, hne, h32, h61, hc, hf⟩ := h
  refine ⟨?_, not_plain_letter (unknown_letter hc), hne⟩
  have hno : findOpt acts (45 :: c :: rest) = none := by
    rw [findOpt_none hs]
    exact fun a ha => (hf _ a ha).2 (List.prefix_refl _)
  have hot : optTuples acts (45 :: c :: rest) = [] := by
    by_cases hc : c = 45
    · subst hc
      rw [optTuples, if_pos rfl]
      simp only [partitionEq_none h61, List.map_eq_nil_iff, List.filter_eq_nil_iff]
      rintro ⟨g, b⟩ hg hp
      exact (hf g b (mem_optMap.1 hg)).2 (List.isPrefixOf_iff_prefix.1 hp)
    · rw [optTuples_short hs hc, (findOpt_none hs).2 (fun a ha => (hf _ a ha).1 rfl)]
  rw [parseOptional, if_neg (by simp), hno]
  simp only [List.cons_ne_nil, if_false, partitionEq_none h61, hot, looksNegative_letter hc]
  have : List.contains (45 :: c :: rest : PyStr) 32 = false := by
    rw [Bool.eq_false_iff]
    intro hm
    exact h32 (by simpa using hm)
  rw [this]
  rfl

end

end FF
