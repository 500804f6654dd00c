import Mathlib.Data.List.Dedup
import Mathlib.Data.List.Nodup
import Mathlib.Data.List.Perm.Basic
import Mathlib.Data.List.Perm.Subperm
import Verif.Model.Vocab
/-! Lemmas on insertion-ordered dictionaries. -/

namespace FF

variable {α β : Type}

def Dict.keys (d : Dict α β) : List α := d.map Prod.fst

@[simp] theorem Dict.keys_nil : Dict.keys ([] : Dict α β) = [] := rfl
@[simp] theorem Dict.keys_cons (p : α × β) (d : Dict α β) :
    Dict.keys (p :: d) = p.1 :: Dict.keys d := rfl

variable [DecidableEq α]

theorem Dict.get?_eq_none {d : Dict α β} {k : α} : Dict.get? d k = none ↔ k ∉ Dict.keys d := by
  induction d with
  | nil => simp [Dict.get?]
  | cons p d ih =>
    obtain ⟨k', v⟩ := p
    simp only [Dict.get?, Dict.keys_cons, List.mem_cons, not_or]
    split
    · rename_i h; simp [h]
    · rename_i h; rw [ih]; simp [Ne.symm h]

theorem Dict.get?_isSome {d : Dict α β} {k : α} : (Dict.get? d k).isSome ↔ k ∈ Dict.keys d := by
  rw [← not_iff_not, ← Dict.get?_eq_none]
  cases Dict.get? d k <;> simp

theorem Dict.get?_mem {d : Dict α β} {k : α} {v : β} (h : Dict.get? d k = some v) : (k, v) ∈ d := by
  induction d with
  | nil => simp [Dict.get?] at h
  | cons p d ih =>
    obtain ⟨k', v'⟩ := p
    simp only [Dict.get?] at h
    split at h
    · rename_i he; cases h; subst he; simp
    · exact List.mem_cons_of_mem _ (ih h)

theorem Dict.get?_of_mem {d : Dict α β} {k : α} {v : β} (hd : (Dict.keys d).Nodup)
    (h : (k, v) ∈ d) : Dict.get? d k = some v := by
  induction d with
  | nil => simp at h
  | cons p d ih =>
    obtain ⟨k', v'⟩ := p
    simp only [Dict.keys_cons, List.nodup_cons] at hd
    simp only [Dict.get?]
    rcases List.mem_cons.mp h with h | h
    · cases h; simp
    · have : k ∈ Dict.keys d := List.mem_map.mpr ⟨(k, v), h, rfl⟩
      have hne : k' ≠ k := fun e => hd.1 (e ▸ this)
      rw [if_neg hne]
      exact ih hd.2 h

theorem Dict.keys_set (d : Dict α β) (k : α) (v : β) :
    Dict.keys (Dict.set d k v) = if k ∈ Dict.keys d then Dict.keys d else Dict.keys d ++ [k] := by
  induction d with
  | nil => simp [Dict.set]
  | cons p d ih =>
    obtain ⟨k', v'⟩ := p
    simp only [Dict.set]
    split
    · rename_i h; simp [h]
    · rename_i h
      simp only [Dict.keys_cons, ih, List.mem_cons]
      by_cases hm : k ∈ Dict.keys d
      · simp [hm]
      · simp [hm, Ne.symm h]

theorem Dict.get?_set (d : Dict α β) (k k' : α) (v : β) :
    Dict.get? (Dict.set d k v) k' = if k = k' then some v else Dict.get? d k' := by
  induction d with
  | nil => simp [Dict.set, Dict.get?]
  | cons p d ih =>
    obtain ⟨k1, v1⟩ := p
    simp only [Dict.set]
    split
    · rename_i h
      subst h
      simp only [Dict.get?]
      split <;> simp_all
    · rename_i h
      simp only [Dict.get?, ih]
      by_cases h1 : k1 = k'
      · subst h1; simp [Ne.symm h]
      · simp [h1]

theorem Dict.set_fresh (d : Dict α β) (k : α) (v : β) (h : k ∉ Dict.keys d) :
    Dict.set d k v = d ++ [(k, v)] := by
  induction d with
  | nil => rfl
  | cons p d ih =>
    obtain ⟨k', v'⟩ := p
    simp only [Dict.keys_cons, List.mem_cons, not_or] at h
    simp only [Dict.set, if_neg (Ne.symm h.1), ih h.2, List.cons_append]

theorem Dict.keys_set_nodup {d : Dict α β} (k : α) (v : β) (h : (Dict.keys d).Nodup) :
    (Dict.keys (Dict.set d k v)).Nodup := by
  rw [Dict.keys_set]
  split
  · exact h
  · rename_i hm
    rw [List.nodup_append]
    refine ⟨h, List.nodup_singleton k, ?_⟩
    intro a ha b hb e
    simp at hb
    subst hb e
    exact hm ha

theorem Dict.foldl_set_keys (ps : List (α × β)) (d : Dict α β) (hd : (Dict.keys d).Nodup) :
    (Dict.keys (ps.foldl (fun d p => Dict.set d p.1 p.2) d)).Nodup ∧
    ∀ k, k ∈ Dict.keys (ps.foldl (fun d p => Dict.set d p.1 p.2) d) ↔
      k ∈ Dict.keys d ∨ k ∈ ps.map Prod.fst := by
  induction ps generalizing d with
  | nil => simp [hd]
  | cons p ps ih =>
    have := ih (Dict.set d p.1 p.2) (Dict.keys_set_nodup _ _ hd)
    simp only [List.foldl_cons]
    refine ⟨this.1, fun k => ?_⟩
    rw [this.2 k, Dict.keys_set]
    by_cases hm : p.1 ∈ Dict.keys d
    · simp only [hm, if_true, List.map_cons, List.mem_cons]
      constructor
      · rintro (h | h)
        · exact Or.inl h
        · exact Or.inr (Or.inr h)
      · rintro (h | h | h)
        · exact Or.inl h
        · subst h; exact Or.inl hm
        · exact Or.inr h
    · rw [if_neg hm, List.mem_append, List.mem_singleton, List.map_cons, List.mem_cons, or_assoc]

theorem Dict.ofPairs_nodup (ps : List (α × β)) : (Dict.keys (Dict.ofPairs ps)).Nodup :=
  (Dict.foldl_set_keys ps [] (by simp)).1

theorem Dict.mem_keys_ofPairs (ps : List (α × β)) (k : α) :
    k ∈ Dict.keys (Dict.ofPairs ps) ↔ k ∈ ps.map Prod.fst := by
  have := (Dict.foldl_set_keys ps [] (by simp)).2 k
  simpa [Dict.ofPairs] using this

theorem Dict.length_ofPairs (ps : List (α × β)) :
    (Dict.ofPairs ps).length = (ps.map Prod.fst).dedup.length := by
  have h1 : (Dict.ofPairs ps).length = (Dict.keys (Dict.ofPairs ps)).length := by simp [Dict.keys]
  rw [h1]
  apply List.Perm.length_eq
  rw [List.perm_ext_iff_of_nodup (Dict.ofPairs_nodup ps) (List.nodup_dedup _)]
  intro k
  rw [Dict.mem_keys_ofPairs, List.mem_dedup]

theorem Dict.foldl_set_append (ps : List (α × β)) (d : Dict α β)
    (h : (Dict.keys d ++ ps.map Prod.fst).Nodup) :
    ps.foldl (fun d p => Dict.set d p.1 p.2) d = d ++ ps := by
  induction ps generalizing d with
  | nil => simp
  | cons p ps ih =>
    obtain ⟨k, v⟩ := p
    simp only [List.foldl_cons]
    have hk : k ∉ Dict.keys d := by
      intro hm
      rw [List.nodup_append] at h
      exact h.2.2 k hm k (by simp) rfl
    rw [Dict.set_fresh d k v hk, ih]
    · simp
    · simpa [Dict.keys] using h

/-- With distinct keys, `dict(pairs)` keeps the pairs in order. -/
theorem Dict.ofPairs_eq (ps : List (α × β)) (h : (ps.map Prod.fst).Nodup) : Dict.ofPairs ps = ps := by
  have := Dict.foldl_set_append ps [] (by simpa using h)
  simpa [Dict.ofPairs] using this

theorem enumItems_fst {γ : Type} (xs : List γ) : (enumItems xs).map Prod.fst = xs := by
  unfold enumItems
  rw [List.map_fst_zip]
  simp

theorem enumItems_length {γ : Type} (xs : List γ) : (enumItems xs).length = xs.length := by
  simp [enumItems]

theorem mem_enumItems {γ : Type} {xs : List γ} {x : γ} {i : Nat} :
    (x, i) ∈ enumItems xs ↔ xs[i]? = some x := by
  unfold enumItems
  rw [List.mem_iff_getElem?]
  constructor
  · rintro ⟨n, hn⟩
    rw [List.getElem?_zip_eq_some] at hn
    obtain ⟨h1, h2⟩ := hn
    rw [List.getElem?_eq_some_iff] at h2
    obtain ⟨hl, he⟩ := h2
    simp at he
    subst he
    exact h1
  · intro h
    refine ⟨i, ?_⟩
    rw [List.getElem?_zip_eq_some]
    refine ⟨h, ?_⟩
    have : i < xs.length := by
      rw [List.getElem?_eq_some_iff] at h; exact h.1
    simp [this]

theorem pyAssert_ok {c : Bool} {u : Unit} (h : pyAssert c = .ok u) : c = true := by
  unfold pyAssert at h
  split at h
  · assumption
  · cases h

theorem pyAssert_true {c : Bool} (h : c = true) : pyAssert c = .ok () := by
  simp [pyAssert, h]

theorem pyAssert_false {c : Bool} (h : c = false) : pyAssert c = .error .assertionError := by
  simp [pyAssert, h]

theorem res_bind_inv {γ δ : Type} {m : Res γ} {f : γ → Res δ} {b : δ} (h : (m >>= f) = .ok b) :
    ∃ a, m = .ok a ∧ f a = .ok b := by
  cases m with
  | error e => cases h
  | ok a => exact ⟨a, rfl, h⟩

@[simp] theorem res_bind_ok {γ δ : Type} (a : γ) (f : γ → Res δ) : ((.ok a : Res γ) >>= f) = f a := rfl

@[simp] theorem res_bind_error {γ δ : Type} (e : PyErr) (f : γ → Res δ) :
    ((.error e : Res γ) >>= f) = .error e := rfl

@[simp] theorem res_pure {γ : Type} (a : γ) : (pure a : Res γ) = .ok a := rfl

/-- `_validate_items_and_create_index` accepts exactly the duplicate free lists. -/
theorem validateItems_ok {items : List PyStr} {d : Dict PyStr Nat} :
    validateItems items = .ok d ↔ items.Nodup ∧ d = enumItems items := by
  unfold validateItems
  have hl : (Dict.ofPairs (enumItems items)).length = items.dedup.length := by
    rw [Dict.length_ofPairs, enumItems_fst]
  constructor
  · intro h
    simp only at h
    obtain ⟨_, h1, h⟩ := res_bind_inv h
    obtain ⟨_, _, h⟩ := res_bind_inv h
    have h1 := pyAssert_ok h1
    simp only [decide_eq_true_eq] at h1
    have hn : items.Nodup := by
      rw [hl] at h1
      have : items.dedup = items := by
        exact List.Sublist.eq_of_length (List.dedup_sublist items) h1.symm
      rw [← this]; exact List.nodup_dedup _
    refine ⟨hn, ?_⟩
    have he := Dict.ofPairs_eq (enumItems items) (by rw [enumItems_fst]; exact hn)
    rw [he] at h
    cases h; rfl
  · rintro ⟨hn, rfl⟩
    have he := Dict.ofPairs_eq (enumItems items) (by rw [enumItems_fst]; exact hn)
    simp [he, enumItems_length, pyAssert]

theorem validateItems_error {items : List PyStr} (h : ¬ items.Nodup) :
    validateItems items = .error .assertionError := by
  unfold validateItems
  have hl : (Dict.ofPairs (enumItems items)).length = items.dedup.length := by
    rw [Dict.length_ofPairs, enumItems_fst]
  have : ¬ items.length = (Dict.ofPairs (enumItems items)).length := by
    intro e
    rw [hl] at e
    apply h
    have : items.dedup = items := List.Sublist.eq_of_length (List.dedup_sublist items) e.symm
    rw [← this]; exact List.nodup_dedup _
  simp [this, pyAssert]

theorem Vocab.new_ok {words : List PyStr} {sub : Option Indexer} {v : Vocab} :
    Vocab.new words sub = .ok v ↔ words.Nodup ∧ v = ⟨words, enumItems words, sub⟩ := by
  unfold Vocab.new
  constructor
  · intro h
    obtain ⟨d, h1, h2⟩ := res_bind_inv h
    obtain ⟨hn, rfl⟩ := validateItems_ok.mp h1
    cases h2
    exact ⟨hn, rfl⟩
  · rintro ⟨hn, rfl⟩
    rw [validateItems_ok.mpr ⟨hn, rfl⟩]
    rfl

theorem get?_enumItems {words : List PyStr} (hn : words.Nodup) {w : PyStr} {i : Nat} :
    Dict.get? (enumItems words) w = some i ↔ words[i]? = some w := by
  have hk : (Dict.keys (enumItems words)).Nodup := by
    unfold Dict.keys; rw [enumItems_fst]; exact hn
  constructor
  · intro h; exact mem_enumItems.mp (Dict.get?_mem h)
  · intro h; exact Dict.get?_of_mem hk (mem_enumItems.mpr h)

theorem get?_enumItems_none {words : List PyStr} {w : PyStr} :
    Dict.get? (enumItems words) w = none ↔ w ∉ words := by
  rw [Dict.get?_eq_none]; unfold Dict.keys; rw [enumItems_fst]

end FF
