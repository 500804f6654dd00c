import Verif.Model.Container
import Verif.Props.C36
import Verif.Props.C28
/-! C56: `len`, `in`, iteration and item access of vocabularies, explicit indexers and embeddings agree. -/

namespace FF

/-! ### Membership -/

/-- The objects without structure that are found by iterating over `t` as deeply as possible; strings are
not taken apart. -/
inductive Leaf : PyItem → PyItem → Prop
  | str {s : PyStr} : Leaf (.str s) (.str s)
  | other : Leaf .other .other
  | iter {xs : List PyItem} {x y : PyItem} (hx : x ∈ xs) (h : Leaf x y) : Leaf (.iter xs) y

theorem forall_leaf_iter {P : PyItem → Prop} {xs : List PyItem} :
    (∀ y, Leaf (.iter xs) y → P y) ↔ ∀ x ∈ xs, ∀ y, Leaf x y → P y :=
  ⟨fun h _ hx y hy => h y (.iter hx hy), fun h y hy => by
    cases hy with
    | iter hx h' => exact h _ hx y h'⟩

mutual
theorem vocab_item_iff {v : Vocab} (hv : BuiltVocab v) : ∀ t : PyItem,
    v.containsItem t = true ↔ ∀ y, Leaf t y → ∃ w ∈ v.words, y = .str w
  | .str s => by
    unfold Vocab.containsItem Vocab.contains
    constructor
    · intro h y hy
      cases hy
      cases hg : Dict.get? v.index s with
      | none => rw [hg] at h; cases h
      | some i => exact ⟨s, List.mem_of_getElem? (hv.get.mp hg), rfl⟩
    · intro h
      obtain ⟨w, hw, hs⟩ := h _ .str
      cases hs
      obtain ⟨i, hi⟩ := List.getElem?_of_mem hw
      rw [hv.get.mpr hi]; rfl
  | .iter xs => by
    unfold Vocab.containsItem
    rw [vocab_items_iff hv xs, forall_leaf_iter]
  | .other => by
    unfold Vocab.containsItem
    constructor
    · intro h; cases h
    · intro h
      obtain ⟨w, _, hw⟩ := h _ .other
      cases hw
theorem vocab_items_iff {v : Vocab} (hv : BuiltVocab v) : ∀ xs : List PyItem,
    Vocab.containsItems v xs = true ↔ ∀ x ∈ xs, ∀ y, Leaf x y → ∃ w ∈ v.words, y = .str w
  | [] => by unfold Vocab.containsItems; simp
  | x :: xs => by
    unfold Vocab.containsItems
    rw [Bool.and_eq_true, vocab_item_iff hv x, vocab_items_iff hv xs]
    simp only [List.mem_cons, forall_eq_or_imp]
end

/-- `item in vocab`: every string found by iterating over `item` is a word, and nothing else is found. -/
theorem C56_contains (v : Vocab) (hv : BuiltVocab v) (t : PyItem) :
    v.containsItem t = true ↔ ∀ y, Leaf t y → ∃ w ∈ v.words, y = .str w :=
  vocab_item_iff hv t

/-- `b in a` for vocabularies: `a` has the words of `b`. -/
theorem C56_superset (a b : Vocab) (ha : BuiltVocab a) :
    a.containsItem b.item = true ↔ ∀ w ∈ b.words, w ∈ a.words := by
  rw [vocab_item_iff ha]
  unfold Vocab.item Vocab.iter
  rw [forall_leaf_iter]
  simp only [List.mem_map, forall_exists_index, and_imp, forall_apply_eq_imp_iff₂]
  constructor
  · intro h w hw
    obtain ⟨w', hw', he⟩ := h w hw _ .str
    cases he; exact hw'
  · intro h w hw y hy
    cases hy
    exact ⟨w, h w hw, rfl⟩

/-- Iterating over a vocabulary gives each word once, in the order of their indices, and as many words as
`len` says; exactly these are members and have a word index. -/
theorem C56_vocab (v : Vocab) (hv : BuiltVocab v) :
    v.len = v.iter.length ∧ v.iter.Nodup ∧
    (∀ w, v.containsItem (.str w) = true ↔ w ∈ v.iter) ∧
    (∀ w i, v.getItem w = .ok (.one i) ↔ v.iter[i]? = some w) := by
  refine ⟨hv.len, hv.nodup, fun w => ?_, fun w i => ?_⟩
  · rw [vocab_item_iff hv]
    constructor
    · intro h
      obtain ⟨w', hw', he⟩ := h _ .str
      cases he; exact hw'
    · intro h y hy
      cases hy
      exact ⟨w, h, rfl⟩
  · have hg := hv.get (w := w) (i := i)
    unfold Vocab.iter
    rw [← hg]
    unfold Vocab.getItem
    cases hd : Dict.get? v.index w with
    | some j =>
      cases v.sub with
      | none => simp
      | some ix => simp
    | none =>
      cases v.sub with
      | none => simp
      | some ix =>
        simp only [reduceCtorEq, iff_false]
        intro h
        obtain ⟨is, _, h⟩ := res_bind_inv h
        split at h <;> cases h

/-! ### Explicit indexers -/

theorem BuiltIndexer.valid {ix : ExplIndexer} (h : BuiltIndexer (.expl ix)) : ExplValid ix := by
  cases h with
  | expl h => exact (explNew_none.mp h).1
  | explIdx hd h => exact ((explNew_some hd).mp h).1

theorem expl_get_isSome {ix : ExplIndexer} (h : ExplValid ix) {g : PyStr} :
    (Dict.get? ix.index g).isSome = true ↔ g ∈ ix.ngrams := by
  rw [Dict.get?_isSome]
  exact h.keys.mem_iff

mutual
theorem expl_item_iff {ix : ExplIndexer} (hv : ExplValid ix) : ∀ t : PyItem,
    ix.containsItem t = true ↔ ∀ y, Leaf t y → ∃ g ∈ ix.ngrams, y = .str g
  | .str s => by
    unfold ExplIndexer.containsItem
    rw [expl_get_isSome hv]
    constructor
    · intro h y hy
      cases hy
      exact ⟨s, h, rfl⟩
    · intro h
      obtain ⟨w, hw, hs⟩ := h _ .str
      cases hs; exact hw
  | .iter xs => by
    unfold ExplIndexer.containsItem
    rw [expl_items_iff hv xs, forall_leaf_iter]
  | .other => by
    unfold ExplIndexer.containsItem
    constructor
    · intro h; cases h
    · intro h
      obtain ⟨w, _, hw⟩ := h _ .other
      cases hw
theorem expl_items_iff {ix : ExplIndexer} (hv : ExplValid ix) : ∀ xs : List PyItem,
    ExplIndexer.containsItems ix xs = true ↔ ∀ x ∈ xs, ∀ y, Leaf x y → ∃ g ∈ ix.ngrams, y = .str g
  | [] => by unfold ExplIndexer.containsItems; simp
  | x :: xs => by
    unfold ExplIndexer.containsItems
    rw [Bool.and_eq_true, expl_item_iff hv x, expl_items_iff hv xs]
    simp only [List.mem_cons, forall_eq_or_imp]
end

/-- Iterating over an explicit indexer gives each n-gram once and as many as `len` says; membership, the
call (`None` for others) and item access (`KeyError` for others) are about exactly these. -/
theorem C56_explicit (ix : ExplIndexer) (h : BuiltIndexer (.expl ix)) :
    ix.len = ix.iter.length ∧ ix.iter.Nodup ∧
    (∀ t, ix.containsItem t = true ↔ ∀ y, Leaf t y → ∃ g ∈ ix.iter, y = .str g) ∧
    (∀ g i, ix.getItem g = .ok i ↔ ix.call g = some i) ∧
    (∀ g, g ∈ ix.iter ↔ ∃ i, ix.call g = some i) ∧
    (∀ g, g ∉ ix.iter ↔ ix.getItem g = .error .keyError) := by
  have hv := h.valid
  refine ⟨?_, hv.nodup, expl_item_iff hv, fun g i => ?_, fun g => ?_, fun g => ?_⟩
  · have := hv.keys.length_eq
    unfold ExplIndexer.len ExplIndexer.iter
    simpa [Dict.keys] using this
  · unfold ExplIndexer.getItem ExplIndexer.call
    cases Dict.get? ix.index g <;> simp
  · unfold ExplIndexer.iter ExplIndexer.call
    rw [← expl_get_isSome hv, Option.isSome_iff_exists]
  · unfold ExplIndexer.iter ExplIndexer.getItem
    rw [← expl_get_isSome hv]
    cases Dict.get? ix.index g <;> simp

/-! ### Embeddings -/

section
variable {K : Type} [NumOps K]

omit [NumOps K] in
theorem zipIter_none {ws : List PyStr} {rs : List (Res (List K))} (hl : ws.length ≤ rs.length)
    {l : List (PyStr × List K × Option K)} :
    zipIter ws rs none = .ok l ↔ l.length = ws.length ∧
      ∀ (i : Nat) w, ws[i]? = some w → ∃ x, rs[i]? = some (.ok x) ∧ l[i]? = some (w, x, none) := by
  induction ws generalizing rs l with
  | nil => 
    simp only [zipIter, List.length_nil, List.length_eq_zero_iff]
    constructor
    · intro h; cases h; exact ⟨rfl, by simp⟩
    · rintro ⟨rfl, _⟩; rfl
  | cons w ws ih =>
    cases rs with
    | nil => simp at hl
    | cons r rs =>
      have hl' : ws.length ≤ rs.length := by simpa using hl
      unfold zipIter
      constructor
      · intro h
        obtain ⟨x, hr, h⟩ := res_bind_inv h
        obtain ⟨l', h', h⟩ := res_bind_inv h
        cases h
        subst hr
        obtain ⟨h1, h2⟩ := (ih hl').mp h'
        refine ⟨by simp [h1], fun i w' hw => ?_⟩
        cases i with
        | zero => simp at hw; subst hw; exact ⟨x, rfl, rfl⟩
        | succ i => simpa using h2 i w' (by simpa using hw)
      · rintro ⟨h1, h2⟩
        obtain ⟨x, hx, hl0⟩ := h2 0 w rfl
        cases l with
        | nil => simp at h1
        | cons p l =>
          simp only [List.getElem?_cons_zero, Option.some.injEq] at hx hl0
          subst hx hl0
          have := (ih hl' (l := l)).mpr ⟨by simpa using h1, fun i w' hw => by
            simpa using h2 (i + 1) w' (by simpa using hw)⟩
          simp only [res_bind_ok]
          rw [this]; rfl

omit [NumOps K] in
theorem zipIter_some {ws : List PyStr} {rs : List (Res (List K))} {ns : List K}
    (hl : ws.length ≤ rs.length) (hn : ns.length = ws.length)
    {l : List (PyStr × List K × Option K)} :
    zipIter ws rs (some ns) = .ok l ↔ l.length = ws.length ∧
      ∀ (i : Nat) w, ws[i]? = some w → ∃ x, rs[i]? = some (.ok x) ∧ l[i]? = some (w, x, ns[i]?) := by
  induction ws generalizing rs l ns with
  | nil => 
    simp only [zipIter, List.length_nil, List.length_eq_zero_iff]
    constructor
    · intro h; cases h; exact ⟨rfl, by simp⟩
    · rintro ⟨rfl, _⟩; rfl
  | cons w ws ih =>
    cases rs with
    | nil => simp at hl
    | cons r rs =>
      cases ns with
      | nil => simp at hn
      | cons n ns =>
      have hl' : ws.length ≤ rs.length := by simpa using hl
      have hn' : ns.length = ws.length := by simpa using hn
      unfold zipIter
      constructor
      · intro h
        obtain ⟨x, hr, h⟩ := res_bind_inv h
        obtain ⟨l', h', h⟩ := res_bind_inv h
        cases h
        subst hr
        obtain ⟨h1, h2⟩ := (ih hl' hn').mp h'
        refine ⟨by simp [h1], fun i w' hw => ?_⟩
        cases i with
        | zero => simp at hw; subst hw; exact ⟨x, rfl, rfl⟩
        | succ i => simpa using h2 i w' (by simpa using hw)
      · rintro ⟨h1, h2⟩
        obtain ⟨x, hx, hl0⟩ := h2 0 w rfl
        cases l with
        | nil => simp at h1
        | cons p l =>
          simp only [List.getElem?_cons_zero, Option.some.injEq] at hx hl0
          subst hx hl0
          have := (ih hl' hn' (l := l)).mpr ⟨by simpa using h1, fun i w' hw => by
            simpa using h2 (i + 1) w' (by simpa using hw)⟩
          simp only [res_bind_ok]
          rw [this]; rfl

/-- The norm that is reported for the word at position `i`. -/
def normAt (norms : Option (List K)) (i : Nat) : Option K := norms.bind fun ns => ns[i]?

omit [NumOps K] in
theorem zipIter_ok {ws : List PyStr} {rs : List (Res (List K))} {ns : Option (List K)}
    {l : List (PyStr × List K × Option K)} (h : zipIter ws rs ns = .ok l) :
    l.length ≤ ws.length ∧ l.length ≤ rs.length ∧ (∀ n, ns = some n → l.length ≤ n.length) ∧
    (l.length = ws.length ∨ l.length = rs.length ∨ ∃ n, ns = some n ∧ l.length = n.length) ∧
    ∀ (i : Nat) w x n, l[i]? = some (w, x, n) → ws[i]? = some w ∧ rs[i]? = some (.ok x) ∧ n = normAt ns i := by
  induction ws generalizing rs ns l with
  | nil =>
    simp only [zipIter, Except.ok.injEq] at h
    subst h
    simp
  | cons w ws ih =>
    cases rs with
    | nil =>
      simp only [zipIter, Except.ok.injEq] at h
      subst h
      simp
    | cons r rs =>
      match ns, h with
      | none, h =>
        unfold zipIter at h
        obtain ⟨x, hr, h⟩ := res_bind_inv h
        obtain ⟨l', h', h⟩ := res_bind_inv h
        cases h
        subst hr
        obtain ⟨h1, h2, h3, h4, h5⟩ := ih h'
        refine ⟨by simpa using h1, by simpa using h2, by simp, by simpa using h4, fun i w' x' n' hi => ?_⟩
        cases i with
        | zero => simp at hi; obtain ⟨rfl, rfl, rfl⟩ := hi; exact ⟨rfl, rfl, rfl⟩
        | succ i => simpa [normAt] using h5 i w' x' n' (by simpa using hi)
      | some [], h =>
        unfold zipIter at h
        obtain ⟨x, hr, h⟩ := res_bind_inv h
        cases h
        simp
      | some (n :: ns), h =>
        unfold zipIter at h
        obtain ⟨x, hr, h⟩ := res_bind_inv h
        obtain ⟨l', h', h⟩ := res_bind_inv h
        cases h
        subst hr
        obtain ⟨h1, h2, h3, h4, h5⟩ := ih h'
        refine ⟨by simpa using h1, by simpa using h2, ?_, ?_, fun i w' x' n' hi => ?_⟩
        · intro m hm
          cases hm
          simpa using h3 ns rfl
        · simpa using h4
        cases i with
        | zero => simp at hi; obtain ⟨rfl, rfl, rfl⟩ := hi; exact ⟨rfl, rfl, rfl⟩
        | succ i =>
          have := h5 i w' x' n' (by simpa using hi)
          simpa [normAt] using this

/-- Whatever embeddings consist of, consistent or not: iterating ends with the shortest of words, rows and norms,
and the `i`th item has the `i`th of each. -/
theorem C56_shortest (e : Embeddings K) (l : List (PyStr × List K × Option K)) (h : e.iter = .ok l) :
    l.length ≤ e.vocab.words.length ∧ l.length ≤ e.storage.nRows ∧ (∀ n, e.norms = some n → l.length ≤ n.length) ∧
    (l.length = e.vocab.words.length ∨ l.length = e.storage.nRows ∨ ∃ n, e.norms = some n ∧ l.length = n.length) ∧
    ∀ (i : Nat) w x n, l[i]? = some (w, x, n) →
      e.vocab.words[i]? = some w ∧ e.storage.nexts[i]? = some (.ok x) ∧ n = normAt e.norms i := by
  have hr : e.storage.nexts.length = e.storage.nRows := by
    unfold Storage.nexts Storage.nRows
    cases e.storage <;> simp
  rw [← hr]
  exact zipIter_ok h

theorem iter_iff {e : Embeddings K} (he : BuiltEmb e) {l : List (PyStr × List K × Option K)} :
    e.iter = .ok l ↔ l.length = e.vocab.words.length ∧
      ∀ (i : Nat) w, e.vocab.words[i]? = some w →
        ∃ x, e.storage.nexts[i]? = some (.ok x) ∧ l[i]? = some (w, x, normAt e.norms i) := by
  have hrows : e.vocab.words.length ≤ e.storage.nexts.length := by
    have h1 := upperBound_ge he.vocab
    have h2 := (embNew_iff.mp he.new).2.1
    have h3 : e.storage.nexts.length = e.storage.nRows := by
      unfold Storage.nexts Storage.nRows
      cases e.storage <;> simp
    omega
  unfold Embeddings.iter Vocab.iter
  cases hn : e.norms with
  | none => exact zipIter_none hrows
  | some ns =>
    have h1 := ((embNew_iff.mp he.new).2.2 ns hn).2
    rw [he.vocab.len] at h1
    exact zipIter_some hrows h1.symm

theorem nexts_getOne {s : Storage K} (hn : ∀ q, s = .quant q → q.norms = none) {i : Nat} {x : List K} :
    s.nexts[i]? = some (.ok x) ↔ s.getOne i = .ok x := by
  cases s with
  | nd m =>
    unfold Storage.nexts Storage.getOne
    simp [npGet_nat]
  | quant q =>
    have hq := hn q rfl
    unfold Storage.nexts Storage.getOne
    simp only [List.getElem?_map, Option.map_eq_some_iff]
    rw [qGetOne_iff]
    constructor
    · rintro ⟨c, hc, hx⟩
      exact ⟨c, x, npGet_nat.mpr hc, hx, by rw [hq]⟩
    · rintro ⟨c, y, hc, hy, h⟩
      rw [hq] at h
      subst h
      exact ⟨c, npGet_nat.mp hc, hy⟩

theorem getOne_of_getItem {e : Embeddings K} (he : BuiltEmb e) {i : Nat} {w : PyStr} {x : List K}
    (hw : e.vocab.words[i]? = some w) (h : e.getItem w = .ok x) :
    ∃ y, e.storage.getOne i = .ok y := by
  unfold Embeddings.getItem at h
  rw [((C56_vocab e.vocab he.vocab).2.2.2 w i).mpr hw] at h
  simp only [res_bind_ok] at h
  obtain ⟨r, hr, _⟩ := res_bind_inv h
  unfold Embeddings.embed at hr
  obtain ⟨y, hy, _⟩ := res_bind_inv hr
  exact ⟨y, hy⟩

/-- Iterating over embeddings gives every known word once, in the order of the vocabulary, with the vector
that item access returns and, if there are norms, its norm; it succeeds if all known words can be looked
up.  Subword rows are not visited.

Partial: not for a `QuantizedArray` with norms (`C56_iter_refuted`). -/
theorem C56_iter_partial (e : Embeddings K) (he : BuiltEmb e)
    (hn : ∀ q, e.storage = .quant q → q.norms = none) :
    (∀ l, e.iter = .ok l → l.length = e.vocab.words.length ∧
      ∀ (i : Nat) w, e.vocab.words[i]? = some w →
        ∃ x, l[i]? = some (w, x, normAt e.norms i) ∧ e.getItem w = .ok x) ∧
    ((∀ w ∈ e.vocab.words, ∃ x, e.getItem w = .ok x) → ∃ l, e.iter = .ok l) := by
  constructor
  · intro l hl
    obtain ⟨h1, h2⟩ := (iter_iff he).mp hl
    refine ⟨h1, fun i w hw => ?_⟩
    obtain ⟨x, hx, hli⟩ := h2 i w hw
    exact ⟨x, hli, (C28_known e he i w x hw ((nexts_getOne hn).mp hx)).1⟩
  · intro h
    have hall : ∀ i : Fin e.vocab.words.length, ∃ x, e.storage.getOne (i : Nat) = .ok x := by
      intro i
      obtain ⟨x, hx⟩ := h _ (List.getElem_mem i.isLt)
      have hw : e.vocab.words[(i : Nat)]? = some e.vocab.words[i] := List.getElem?_eq_getElem i.isLt
      exact getOne_of_getItem he hw hx
    choose f hf using hall
    refine ⟨(List.finRange e.vocab.words.length).map fun i =>
      (e.vocab.words[i], f i, normAt e.norms i), (iter_iff he).mpr ⟨by simp, fun i w hw => ?_⟩⟩
    obtain ⟨hi, hw'⟩ := List.getElem?_eq_some_iff.mp hw
    refine ⟨f ⟨i, hi⟩, (nexts_getOne hn).mpr (hf ⟨i, hi⟩), ?_⟩
    simp [hi, ← hw']

/-- For a `QuantizedArray` with norms the vectors are those of item access without the factor that
belongs to the row. -/
theorem C56_iter_norms (e : Embeddings K) (he : BuiltEmb e) (q : QArr K) (norms : List K)
    (hs : e.storage = .quant q) (hn : q.norms = some norms)
    (l : List (PyStr × List K × Option K)) (hl : e.iter = .ok l) :
    l.length = e.vocab.words.length ∧ ∀ (i : Nat) w, e.vocab.words[i]? = some w →
      ∃ x n, l[i]? = some (w, x, normAt e.norms i) ∧ norms[i]? = some n ∧
        e.getItem w = .ok (scale n x) := by
  obtain ⟨h1, h2⟩ := (iter_iff he).mp hl
  refine ⟨h1, fun i w hw => ?_⟩
  obtain ⟨x, hx, hli⟩ := h2 i w hw
  rw [hs] at hx
  unfold Storage.nexts at hx
  simp only [List.getElem?_map, Option.map_eq_some_iff] at hx
  obtain ⟨c, hc, hx⟩ := hx
  have hq : QWF q := by have := he.storage; rw [hs] at this; exact this
  have hi : i < norms.length := by
    rw [hq.norms norms hn]
    exact (List.getElem?_eq_some_iff.mp hc).1
  have hni := List.getElem?_eq_getElem hi
  refine ⟨x, norms[i], hli, hni, (C28_known e he i w _ hw ?_).1⟩
  rw [hs]
  exact qGetOne_iff.mpr ⟨c, x, npGet_nat.mpr hc, hx, by rw [hn]; exact ⟨_, npGet_nat.mpr hni, rfl⟩⟩

end

/-- Iterating over embeddings with a `QuantizedArray` with norms gives other vectors than item access. -/
theorem C56_iter_refuted : ∃ e : Embeddings Int, BuiltEmb e ∧
    e.iter = .ok [([97], [1, 3], none)] ∧ e.getItem [97] = .ok [5, 15] :=
  ⟨⟨.quant ⟨⟨1, 1, [[[1]], [[3]]], none⟩, 2, [[0, 0]], some [5]⟩, ⟨[[97]], [([97], 0)], none⟩, none, none⟩,
    ⟨⟨(by intro ix h; cases h), by decide⟩,
      ⟨by decide, rfl, by decide, by decide, by simp, by simp, by decide, by decide, by decide⟩, by rfl⟩,
    by decide +kernel, by decide +kernel⟩

/-! ### The hypotheses can be met -/

/-- More rows than norms and more words than rows -/
example : (⟨.nd ⟨1, [[5], [6]]⟩, ⟨[[97], [98], [99]], [([97], 0), ([98], 1), ([99], 2)], none⟩, some [7], none⟩ :
    Embeddings Int).iter = .ok [([97], [5], some 7)] := by decide +kernel

/-- Nested iterables, the empty iterable, another object, and a word that can be looked up without being
a member -/
example : BuiltVocab Sample.bucket ∧
    Sample.bucket.containsItem (.iter [.str [97], .iter [.str [0xDF], .iter []]]) = true ∧
    Sample.bucket.containsItem (.iter [.str [97], .iter [.str [98]]]) = false ∧
    Sample.bucket.containsItem (.iter [.str [97], .other]) = false ∧
    Sample.bucket.containsItem (.str [98]) = false ∧ Sample.bucket.getItem [98] ≠ .error .keyError ∧
    Sample.bucket.containsItem Sample.simple.item = true :=
  ⟨Sample.builtBucket, by decide +kernel, by decide +kernel, by decide +kernel, by decide +kernel,
    by decide +kernel, by decide +kernel⟩

example : BuiltIndexer (.expl Sample.explIx) ∧ Sample.explIx.len = 3 ∧
    Sample.explIx.getItem [97, 62] = .ok 1 ∧ Sample.explIx.getItem [97] = .error .keyError ∧
    Sample.explIx.containsItem (.iter [.str [97, 62], .str [60, 0xDF]]) = true :=
  ⟨Sample.builtExplIx, rfl, by decide +kernel, by decide +kernel, by decide +kernel⟩

/-- Five rows, three words -/
example : BuiltEmb Sample.embBucket ∧ (∀ q, Sample.embBucket.storage = .quant q → q.norms = none) ∧
    zipIter Sample.embBucket.vocab.iter (Sample.nd5.rows.map Except.ok) Sample.embBucket.norms =
      .ok [([97], [1, 2], some 7), ([0xDF], [3, 4], some 8), ([0x8A9E], [5, 6], some 9)] :=
  ⟨Sample.builtEmbBucket, (by intro q h; cases h), by decide +kernel⟩

end FF
