import Verif.Spec.Objects
import Verif.Lemmas.FfVocab
import Verif.Lemmas.LoadBuilt
/-!
# Vocabularies as objects
-/

namespace FF

namespace Objs.Ext

theorem refl (h : Objs) : Objs.Ext h h := ⟨fun _ _ h => h, fun _ _ h => h, fun _ _ h => h⟩

theorem trans {a b c : Objs} (h : Objs.Ext a b) (h' : Objs.Ext b c) : Objs.Ext a c :=
  ⟨fun r x hx => h'.1 r x (h.1 r x hx), fun r x hx => h'.2 r x (h.2 r x hx), fun r x hx => h'.3 r x (h.3 r x hx)⟩

end Objs.Ext

theorem getElem?_snoc {α : Type} {xs : List α} {r : Nat} {x : α} (h : xs[r]? = some x) (y : α) :
    (xs ++ [y])[r]? = some x := by
  rw [List.getElem?_append_left (List.getElem?_eq_some_iff.mp h).1]
  exact h

theorem getElem?_snoc_self {α : Type} (xs : List α) (y : α) : (xs ++ [y])[xs.length]? = some y := by
  simp

theorem IxObj.value_ext {h h' : Objs} (he : h.Ext h') {ix : IxObj} {i : Indexer} (hv : ix.value h = some i) :
    ix.value h' = some i := by
  cases ix with
  | fifu ix => exact hv
  | ft ix => exact hv
  | expl gs mn mx r b =>
    rw [IxObj.value] at hv ⊢
    cases h1 : h.lists[gs]? with
    | none => rw [h1] at hv; cases hv
    | some l =>
      cases h2 : h.gidx[r]? with
      | none => rw [h1, h2] at hv; cases hv
      | some d =>
        rw [h1, h2] at hv
        rw [he.lists _ _ h1, he.gidx _ _ h2]
        exact hv

/-- What the value of a vocabulary consists of -/
theorem VocabObj.value_iff {h : Objs} {v : VocabObj} {V : Vocab} : v.value h = some V ↔
    h.lists[v.words]? = some V.words ∧ h.widx[v.index]? = some V.index ∧
      ((v.sub = none ∧ V.sub = none) ∨ ∃ ix i, v.sub = some ix ∧ V.sub = some i ∧ ix.value h = some i) := by
  obtain ⟨w, x, sub⟩ := v
  obtain ⟨ws, d, S⟩ := V
  unfold VocabObj.value
  dsimp only
  cases h1 : h.lists[w]? with
  | none => simp
  | some l =>
    cases h2 : h.widx[x]? with
    | none => simp
    | some d' =>
      cases sub with
      | none =>
        simp only [Option.some.injEq, Vocab.mk.injEq, true_and, reduceCtorEq, false_and, exists_false, or_false]
        constructor
        · rintro ⟨rfl, rfl, rfl⟩; exact ⟨rfl, rfl, rfl⟩
        · rintro ⟨rfl, rfl, rfl⟩; exact ⟨rfl, rfl, rfl⟩
      | some ix =>
        dsimp only
        cases h3 : ix.value h with
        | none =>
          simp only [reduceCtorEq, Option.some.injEq, false_and, false_or, false_iff, not_and, not_exists]
          rintro rfl rfl a i rfl _ h4
          rw [h3] at h4
          cases h4
        | some i =>
          simp only [Option.some.injEq, Vocab.mk.injEq, reduceCtorEq, false_and, false_or]
          constructor
          · rintro ⟨rfl, rfl, rfl⟩
            exact ⟨rfl, rfl, ix, i, rfl, rfl, h3⟩
          · rintro ⟨rfl, rfl, a, j, rfl, rfl, h4⟩
            rw [h3] at h4
            exact ⟨rfl, rfl, h4⟩

theorem VocabObj.value_ext {h h' : Objs} (he : h.Ext h') {v : VocabObj} {V : Vocab} (hv : v.value h = some V) :
    v.value h' = some V := by
  rw [VocabObj.value_iff] at hv ⊢
  refine ⟨he.lists _ _ hv.1, he.widx _ _ hv.2.1, ?_⟩
  rcases hv.2.2 with h1 | ⟨ix, i, h1, h2, h3⟩
  · exact .inl h1
  · exact .inr ⟨ix, i, h1, h2, IxObj.value_ext he h3⟩

/-! ### Running -/

namespace OM

theorem bind_ok {α β : Type} {m : OM α} {f : α → OM β} {h h' : Objs} {a : α} (hm : m h = (.ok a, h')) :
    (m >>= f) h = f a h' := by
  show (match m h with | (.ok a, h') => f a h' | (.error e, h') => (.error e, h')) = _
  rw [hm]

theorem bind_err {α β : Type} {m : OM α} {f : α → OM β} {h h' : Objs} {e : PyErr} (hm : m h = (.error e, h')) :
    (m >>= f) h = (.error e, h') := by
  show (match m h with | (.ok a, h') => f a h' | (.error e, h') => (.error e, h')) = _
  rw [hm]

theorem get_ok {α : Type} {f : Objs → List α} {r : Nat} {h : Objs} {x : α} (hx : (f h)[r]? = some x) :
    OM.get f r h = (.ok x, h) := by
  unfold OM.get
  rw [hx]

theorem get_err {α : Type} {f : Objs → List α} {r : Nat} {h : Objs} (hx : (f h)[r]? = none) :
    OM.get f r h = (.error .typeError, h) := by
  unfold OM.get
  rw [hx]

/-- What exists stays as it is, whatever happens. -/
def Safe {α : Type} (m : OM α) : Prop := ∀ h : Objs, h.Ext (m h).2

theorem safe_bind {α β : Type} {m : OM α} {f : α → OM β} (hm : Safe m) (hf : ∀ a, Safe (f a)) : Safe (m >>= f) := by
  intro h
  have h1 := hm h
  cases e : m h with
  | mk r h' =>
    rw [e] at h1
    cases r with
    | ok a => rw [bind_ok e]; exact h1.trans (hf a h')
    | error x => rw [bind_err e]; exact h1

theorem safe_pure {α : Type} (a : α) : Safe (pure a : OM α) := fun h => .refl h

theorem safe_lift {α : Type} (r : Res α) : Safe (OM.lift r) := fun h => .refl h

theorem safe_get {α : Type} (f : Objs → List α) (r : Nat) : Safe (OM.get f r) := by
  intro h
  unfold OM.get
  split <;> exact .refl h

theorem safe_newList (xs : List PyStr) : Safe (OM.newList xs) := fun _ =>
  ⟨fun _ _ hx => getElem?_snoc hx xs, fun _ _ hx => hx, fun _ _ hx => hx⟩

theorem safe_newW (d : Dict PyStr Nat) : Safe (OM.newW d) := fun _ =>
  ⟨fun _ _ hx => hx, fun _ _ hx => getElem?_snoc hx d, fun _ _ hx => hx⟩

theorem safe_newG (d : Dict PyStr Int) : Safe (OM.newG d) := fun _ =>
  ⟨fun _ _ hx => hx, fun _ _ hx => hx, fun _ _ hx => getElem?_snoc hx d⟩

end OM

open OM

theorem safe_newExpl (gs : Nat) (mn mx : Int) (index : Option Nat) : Safe (IxObj.newExpl gs mn mx index) := by
  unfold IxObj.newExpl
  refine safe_bind (safe_get _ _) fun l => ?_
  cases index with
  | none => exact safe_bind (safe_lift _) fun ix => safe_bind (safe_newG _) fun i => safe_pure _
  | some i => exact safe_bind (safe_get _ _) fun d => safe_bind (safe_lift _) fun ix => safe_pure _

theorem safe_newVocab (words : Nat) (sub : Option IxObj) : Safe (VocabObj.new words sub) := by
  unfold VocabObj.new
  exact safe_bind (safe_get _ _) fun l => safe_bind (safe_lift _) fun d => safe_bind (safe_newW _) fun i => safe_pure _

theorem safe_ofFile (v : Vocab) : Safe (VocabObj.ofFile v) := by
  unfold VocabObj.ofFile
  refine safe_bind (safe_newList _) fun ws => ?_
  cases v.sub with
  | none => exact safe_newVocab _ _
  | some ix =>
    cases ix with
    | fifu ix => exact safe_newVocab _ _
    | ft ix => exact safe_newVocab _ _
    | expl ix =>
      exact safe_bind (safe_newList _) fun gs => safe_bind (safe_newG _) fun i =>
        safe_bind (safe_newExpl _ _ _ _) fun e => safe_newVocab _ _

/-! ### Constructors -/

/-- The constructor of explicit indexers agrees with the one on values. -/
theorem newExpl_spec {h : Objs} {gs : Nat} {l : List PyStr} (hl : h.lists[gs]? = some l) (mn mx : Int)
    (index : Option Nat) (d : Option (Dict PyStr Int))
    (hd : match index, d with
      | none, none => True
      | some i, some d => h.gidx[i]? = some d
      | _, _ => False) :
    match ExplIndexer.new l mn mx d with
    | .ok ix => ∃ o h', IxObj.newExpl gs mn mx index h = (.ok o, h') ∧ o.value h' = some (.expl ix)
    | .error e => IxObj.newExpl gs mn mx index h = (.error e, h) := by
  have keep : ∀ ix, ExplIndexer.new l mn mx d = .ok ix → ix.ngrams = l ∧ ∀ x, d = some x → ix.index = x := by
    intro ix hx
    unfold ExplIndexer.new at hx
    obtain ⟨_, _, hx⟩ := res_bind_inv hx
    obtain ⟨_, _, hx⟩ := res_bind_inv hx
    obtain ⟨_, _, hx⟩ := res_bind_inv hx
    cases d with
    | none =>
      dsimp only at hx
      obtain ⟨_, _, hx⟩ := res_bind_inv hx
      cases hx
      exact ⟨rfl, by simp⟩
    | some d =>
      dsimp only at hx
      obtain ⟨_, _, hx⟩ := res_bind_inv hx
      obtain ⟨_, _, hx⟩ := res_bind_inv hx
      obtain ⟨_, _, hx⟩ := res_bind_inv hx
      obtain ⟨_, _, hx⟩ := res_bind_inv hx
      cases hx
      exact ⟨rfl, by simp⟩
  cases index with
  | none =>
    cases d with
    | some d => exact hd.elim
    | none =>
      cases hn : ExplIndexer.new l mn mx none with
      | error e =>
        dsimp only
        unfold IxObj.newExpl
        rw [bind_ok (get_ok hl)]
        dsimp only
        rw [bind_err (m := OM.lift (ExplIndexer.new l mn mx none)) (e := e) (h' := h) (by rw [hn]; rfl)]
      | ok ix =>
        dsimp only
        refine ⟨.expl gs ix.minN ix.maxN h.gidx.length ix.bound, { h with gidx := h.gidx ++ [ix.index] }, ?_, ?_⟩
        · unfold IxObj.newExpl
          rw [bind_ok (get_ok hl)]
          dsimp only
          rw [bind_ok (m := OM.lift (ExplIndexer.new l mn mx none)) (a := ix) (h' := h) (by rw [hn]; rfl)]
          rfl
        · unfold IxObj.value
          dsimp only
          rw [hl, getElem?_snoc_self, ← (keep ix hn).1]
  | some i =>
    cases d with
    | none => exact hd.elim
    | some d =>
      dsimp only at hd
      cases hn : ExplIndexer.new l mn mx (some d) with
      | error e =>
        dsimp only
        unfold IxObj.newExpl
        rw [bind_ok (get_ok hl)]
        dsimp only
        rw [bind_ok (get_ok hd),
          bind_err (m := OM.lift (ExplIndexer.new l mn mx (some d))) (e := e) (h' := h) (by rw [hn]; rfl)]
      | ok ix =>
        dsimp only
        refine ⟨.expl gs ix.minN ix.maxN i ix.bound, h, ?_, ?_⟩
        · unfold IxObj.newExpl
          rw [bind_ok (get_ok hl)]
          dsimp only
          rw [bind_ok (get_ok hd),
            bind_ok (m := OM.lift (ExplIndexer.new l mn mx (some d))) (a := ix) (h' := h) (by rw [hn]; rfl)]
          rfl
        · unfold IxObj.value
          dsimp only
          rw [hl, hd, ← (keep ix hn).1, ← (keep ix hn).2 d rfl]

/-- The constructors of vocabularies agree with those on values. -/
theorem newVocab_spec {h : Objs} {words : Nat} {l : List PyStr} (hl : h.lists[words]? = some l) (sub : Option IxObj)
    (S : Option Indexer) (hs : (sub = none ∧ S = none) ∨ ∃ ix i, sub = some ix ∧ S = some i ∧ ix.value h = some i) :
    match Vocab.new l S with
    | .ok V => ∃ i h', VocabObj.new words sub h = (.ok ⟨words, i, sub⟩, h') ∧
        VocabObj.value h' ⟨words, i, sub⟩ = some V
    | .error e => VocabObj.new words sub h = (.error e, h) := by
  cases hd : validateItems l with
  | error e =>
    have : Vocab.new l S = .error e := by unfold Vocab.new; rw [hd]; rfl
    rw [this]
    dsimp only
    unfold VocabObj.new
    rw [bind_ok (get_ok hl), bind_err (m := OM.lift (validateItems l)) (e := e) (h' := h) (by rw [hd]; rfl)]
  | ok d =>
    have : Vocab.new l S = .ok ⟨l, d, S⟩ := by unfold Vocab.new; rw [hd]; rfl
    rw [this]
    dsimp only
    refine ⟨h.widx.length, { h with widx := h.widx ++ [d] }, ?_, ?_⟩
    · unfold VocabObj.new
      rw [bind_ok (get_ok hl), bind_ok (m := OM.lift (validateItems l)) (a := d) (h' := h) (by rw [hd]; rfl)]
      rfl
    · rw [VocabObj.value_iff]
      refine ⟨hl, getElem?_snoc_self _ _, ?_⟩
      rcases hs with h1 | ⟨ix, i, h1, h2, h3⟩
      · exact .inl h1
      · exact .inr ⟨ix, i, h1, h2, IxObj.value_ext (safe_newW d h) h3⟩

/-! ### Conversion -/

/-- `h` with other contents of one list and one dict -/
def Objs.put (h : Objs) (nl ni : Nat) (l : List PyStr) (d : Dict PyStr Int) : Objs :=
  ⟨h.lists.set nl l, h.widx, h.gidx.set ni d⟩

theorem Objs.put_put (h : Objs) (nl ni : Nat) (l l' : List PyStr) (d d' : Dict PyStr Int) :
    (h.put nl ni l d).put nl ni l' d' = h.put nl ni l' d' := by
  simp [Objs.put, List.set_set]

theorem Objs.put_self {h : Objs} {nl ni : Nat} {l : List PyStr} {d : Dict PyStr Int} (hl : h.lists[nl]? = some l)
    (hd : h.gidx[ni]? = some d) : h.put nl ni l d = h := by
  obtain ⟨h1, rfl⟩ := List.getElem?_eq_some_iff.mp hl
  obtain ⟨h2, rfl⟩ := List.getElem?_eq_some_iff.mp hd
  simp [Objs.put]

/-- A loop of the conversion changes the new list and dict as the one on values, and nothing else. -/
def Tracks (nl ni : Nat) (h : Objs) (m : OM (Dict Int Int)) (r : Res B2E) : Prop :=
  match r with
  | .ok st => m h = (.ok st.idxIndex, h.put nl ni st.ngramList st.ngramIndex)
  | .error e => ∃ l d, m h = (.error e, h.put nl ni l d)

theorem tracks_step {nl ni : Nat} {h : Objs} (ix : Indexer) (st : B2E) (g : PyStr)
    (hl : h.lists[nl]? = some st.ngramList) (hd : h.gidx[ni]? = some st.ngramIndex) :
    Tracks nl ni h (b2eStepObj ix nl ni st.idxIndex g) (b2eStep ix st g) := by
  have e0 : b2eStepObj ix nl ni st.idxIndex g h = b2eStepObj ix nl ni st.idxIndex g h := rfl
  conv at e0 =>
    rhs
    unfold b2eStepObj
    rw [bind_ok (get_ok hd)]
  unfold b2eStep
  by_cases hg : (Dict.get? st.ngramIndex g).isSome
  · rw [if_pos hg]
    show b2eStepObj ix nl ni st.idxIndex g h = _
    rw [if_pos hg] at e0
    rw [e0, Objs.put_self hl hd]
    rfl
  · rw [if_neg hg]
    rw [if_neg hg, bind_ok (get_ok hl)] at e0
    have e1 : OM.setList nl (st.ngramList ++ [g]) h = (.ok (), h.put nl ni (st.ngramList ++ [g]) st.ngramIndex) := by
      obtain ⟨h2, h3⟩ := List.getElem?_eq_some_iff.mp hd
      unfold OM.setList Objs.put
      rw [← h3]
      simp
    rw [bind_ok e1] at e0
    cases hc : ix.call g with
    | error e =>
      rw [bind_err (m := OM.lift (ix.call g)) (e := e) (by rw [hc]; rfl)] at e0
      exact ⟨_, _, e0⟩
    | ok o =>
      rw [bind_ok (m := OM.lift (ix.call g)) (a := o) (by rw [hc]; rfl)] at e0
      cases o with
      | none => exact ⟨_, _, e0⟩
      | some idx =>
        dsimp only at e0
        show Tracks nl ni h _ (match Dict.get? (if (Dict.get? st.idxIndex idx).isSome = true then st.idxIndex
          else Dict.set st.idxIndex idx (st.idxIndex.length : Int)) idx with
          | none => Except.error PyErr.keyError
          | some v => _)
        generalize (if (Dict.get? st.idxIndex idx).isSome = true then st.idxIndex
          else Dict.set st.idxIndex idx (st.idxIndex.length : Int)) = D at e0 ⊢
        cases hv : Dict.get? D idx with
        | none =>
          rw [hv] at e0
          exact ⟨_, _, e0⟩
        | some v =>
          rw [hv] at e0
          show b2eStepObj ix nl ni st.idxIndex g h = _
          rw [e0]
          show (Except.ok D, _) = (Except.ok D, _)
          simp [Objs.put, List.set_set]

theorem tracks_fold {α : Type} {nl ni : Nat} (f : Dict Int Int → α → OM (Dict Int Int)) (F : B2E → α → Res B2E)
    (hf : ∀ (h : Objs) (st : B2E) a, h.lists[nl]? = some st.ngramList → h.gidx[ni]? = some st.ngramIndex →
      Tracks nl ni h (f st.idxIndex a) (F st a)) (xs : List α) (h : Objs) (st : B2E)
    (hl : h.lists[nl]? = some st.ngramList) (hd : h.gidx[ni]? = some st.ngramIndex) :
    Tracks nl ni h (foldOM f st.idxIndex xs) (foldRes F st xs) := by
  induction xs generalizing h st with
  | nil =>
    show (Except.ok st.idxIndex, h) = _
    rw [Objs.put_self hl hd]
  | cons a xs ih =>
    have h1 := hf h st a hl hd
    unfold foldOM foldRes
    cases hF : F st a with
    | error e =>
      rw [hF] at h1
      obtain ⟨l, d, h1⟩ := h1
      refine ⟨l, d, ?_⟩
      rw [bind_err h1]
    | ok st' =>
      rw [hF] at h1
      have h1 : f st.idxIndex a h = (.ok st'.idxIndex, h.put nl ni st'.ngramList st'.ngramIndex) := h1
      have h2 := ih (h.put nl ni st'.ngramList st'.ngramIndex) st'
        (by unfold Objs.put; exact List.getElem?_set_self (List.getElem?_eq_some_iff.mp hl).1)
        (by unfold Objs.put; exact List.getElem?_set_self (List.getElem?_eq_some_iff.mp hd).1)
      show Tracks nl ni h _ (foldRes F st' xs)
      cases hR : foldRes F st' xs with
      | error e =>
        rw [hR] at h2
        obtain ⟨l, d, h2⟩ := h2
        refine ⟨l, d, ?_⟩
        rw [bind_ok h1, h2, Objs.put_put]
      | ok st2 =>
        rw [hR] at h2
        show (f st.idxIndex a >>= fun b' => foldOM f b' xs) h = _
        rw [bind_ok h1]
        exact h2.trans (by rw [Objs.put_put])

theorem ext_put (h : Objs) (l0 : List PyStr) (d0 : Dict PyStr Int) (l : List PyStr) (d : Dict PyStr Int) :
    h.Ext (Objs.put ⟨h.lists ++ [l0], h.widx, h.gidx ++ [d0]⟩ h.lists.length h.gidx.length l d) := by
  unfold Objs.put
  refine ⟨fun r x hx => ?_, fun r x hx => hx, fun r x hx => ?_⟩
  · have := (List.getElem?_eq_some_iff.mp hx).1
    rw [List.getElem?_set_ne (by omega)]
    exact getElem?_snoc hx _
  · have := (List.getElem?_eq_some_iff.mp hx).1
    rw [List.getElem?_set_ne (by omega)]
    exact getElem?_snoc hx _

/-- The conversion on objects is the one on values, uses the same list of words, and leaves everything else alone. -/
theorem bucketToExplicit_spec {h : Objs} {v : VocabObj} {V : Vocab} (hw : h.lists[v.words]? = some V.words)
    (ix : Indexer) :
    match bucketToExplicit V ix with
    | .ok V' => ∃ v' h', bucketToExplicitObj v ix h = (.ok v', h') ∧ h.Ext h' ∧ v'.value h' = some V' ∧
        v'.words = v.words
    | .error e => ∃ h', bucketToExplicitObj v ix h = (.error e, h') ∧ h.Ext h' := by
  generalize hh0 : (⟨h.lists ++ [[]], h.widx, h.gidx ++ [[]]⟩ : Objs) = h0
  have e0 : bucketToExplicitObj v ix h = bucketToExplicitObj v ix h := rfl
  conv at e0 =>
    rhs
    unfold bucketToExplicitObj
    rw [bind_ok (get_ok hw), bind_ok (m := OM.newG []) rfl, bind_ok (m := OM.newList []) rfl]
    dsimp only
    rw [hh0]
  have ht := tracks_fold (nl := h.lists.length) (ni := h.gidx.length)
    (fun (st : Dict Int Int) word => do
      let gs ← OM.lift (ngrams word ix.minN ix.maxN true)
      foldOM (b2eStepObj ix h.lists.length h.gidx.length) st gs)
    (fun st word => do
      let gs ← V.subwords ix word
      foldRes (b2eStep ix) st gs)
    (by
      intro h st a hl hd
      unfold Vocab.subwords
      cases hg : ngrams a ix.minN ix.maxN true with
      | error e =>
        refine ⟨st.ngramList, st.ngramIndex, ?_⟩
        rw [Objs.put_self hl hd]
        rfl
      | ok gs =>
        have := tracks_fold _ _ (fun h st g h1 h2 => tracks_step ix st g h1 h2) gs h st hl hd
        show Tracks _ _ h _ (foldRes (b2eStep ix) st gs)
        exact this) V.words h0 ⟨[], [], []⟩
    (by rw [← hh0]; exact getElem?_snoc_self _ _) (by rw [← hh0]; exact getElem?_snoc_self _ _)
  unfold bucketToExplicit
  cases hF : foldRes (fun st word => do
      let gs ← V.subwords ix word
      foldRes (b2eStep ix) st gs) ⟨[], [], []⟩ V.words with
  | error e =>
    rw [hF] at ht
    obtain ⟨l, d, ht⟩ := ht
    refine ⟨_, e0.trans (bind_err ht), ?_⟩
    rw [← hh0]
    exact ext_put h [] [] l d
  | ok st =>
    rw [hF] at ht
    rw [bind_ok ht] at e0
    generalize hh1 : h0.put h.lists.length h.gidx.length st.ngramList st.ngramIndex = h1 at e0
    have hx1 : h.Ext h1 := by
      rw [← hh1, ← hh0]
      exact ext_put h [] [] _ _
    have hl1 : h1.lists[h.lists.length]? = some st.ngramList := by
      rw [← hh1, ← hh0]
      unfold Objs.put
      exact List.getElem?_set_self (by simp)
    have hd1 : h1.gidx[h.gidx.length]? = some st.ngramIndex := by
      rw [← hh1, ← hh0]
      unfold Objs.put
      exact List.getElem?_set_self (by simp)
    have h2 := newExpl_spec hl1 ix.minN ix.maxN (some h.gidx.length) (some st.ngramIndex) hd1
    show match (ExplIndexer.new st.ngramList ix.minN ix.maxN (some st.ngramIndex) >>= fun eix =>
      Vocab.new V.words (some (.expl eix))) with
    | .ok V' => _
    | .error e => _
    cases hN : ExplIndexer.new st.ngramList ix.minN ix.maxN (some st.ngramIndex) with
    | error e =>
      rw [hN] at h2
      exact ⟨h1, e0.trans (bind_err h2), hx1⟩
    | ok eix =>
      rw [hN] at h2
      obtain ⟨o, h', h3, h4⟩ := h2
      rw [bind_ok h3] at e0
      have hx2 : h1.Ext h' := by
        have := safe_newExpl h.lists.length ix.minN ix.maxN (some h.gidx.length) h1
        rw [h3] at this
        exact this
      have h5 := newVocab_spec (h := h') (words := v.words) (l := V.words)
        (hx2.lists _ _ (hx1.lists _ _ hw)) (some o) (some (.expl eix)) (.inr ⟨o, _, rfl, rfl, h4⟩)
      have hx3 := safe_newVocab v.words (some o) h'
      show match Vocab.new V.words (some (.expl eix)) with
        | .ok V' => _
        | .error e => _
      cases hV : Vocab.new V.words (some (.expl eix)) with
      | error e =>
        rw [hV] at h5
        exact ⟨h', e0.trans h5, hx1.trans hx2⟩
      | ok V' =>
        rw [hV] at h5
        obtain ⟨i, h'', h6, h7⟩ := h5
        rw [h6] at hx3
        exact ⟨_, h'', e0.trans h6, (hx1.trans hx2).trans hx3, h7, rfl⟩

theorem safe_toExplicit (v : VocabObj) : Safe v.toExplicit := by
  have main : ∀ ix, Safe (bucketToExplicitObj v ix) := by
    intro ix h
    cases hw : h.lists[v.words]? with
    | none =>
      unfold bucketToExplicitObj
      rw [bind_err (get_err hw)]
      exact .refl h
    | some l =>
      have := bucketToExplicit_spec (V := ⟨l, [], none⟩) hw ix
      cases hr : bucketToExplicit ⟨l, [], none⟩ ix with
      | error e =>
        rw [hr] at this
        obtain ⟨h', h1, h2⟩ := this
        rw [h1]
        exact h2
      | ok V' =>
        rw [hr] at this
        obtain ⟨v', h', h1, h2, _⟩ := this
        rw [h1]
        exact h2
  unfold VocabObj.toExplicit
  cases v.sub with
  | none => exact safe_lift _
  | some o =>
    cases o with
    | fifu ix => exact main _
    | ft ix => exact main _
    | expl a b c d e => exact safe_lift _

/-! ### Programs -/

theorem addIx_objs (w : World) (m : OM IxObj) : (w.addIx m).objs = (m w.objs).2 := by
  unfold World.addIx
  split <;> rename_i h <;> rw [h]

theorem addVocab_objs (w : World) (m : OM VocabObj) : (w.addVocab m).objs = (m w.objs).2 := by
  unfold World.addVocab
  split <;> rename_i h <;> rw [h]

/-- Steps other than changes by the caller leave everything as it is. -/
theorem step_ext (w : World) {s : ObjStep} (hs : s.Creates) : w.objs.Ext (w.step s).objs := by
  have ix : ∀ {m : OM IxObj}, Safe m → w.objs.Ext (w.addIx m).objs := fun hm => by rw [addIx_objs]; exact hm _
  have vc : ∀ {m : OM VocabObj}, Safe m → w.objs.Ext (w.addVocab m).objs := fun hm => by rw [addVocab_objs]; exact hm _
  cases s with
  | list xs => exact safe_newList xs _
  | dict ps => exact safe_newG _ _
  | fifu b mn mx => exact ix (safe_bind (safe_lift _) fun _ => safe_pure _)
  | ft b mn mx => exact ix (safe_bind (safe_lift _) fun _ => safe_pure _)
  | expl gs mn mx index => exact ix (safe_newExpl _ _ _ _)
  | vocab words sub =>
    cases sub with
    | none => exact vc (safe_newVocab _ _)
    | some i => exact vc (safe_bind (safe_get _ _) fun _ => safe_newVocab _ _)
  | toExplicit v => exact vc (safe_bind (safe_get _ _) fun v => safe_toExplicit v)
  | load bs => exact vc (safe_bind (safe_lift _) fun v => safe_ofFile v)
  | setList r xs => exact hs.elim
  | setW r ps => exact hs.elim
  | setG r ps => exact hs.elim

theorem getElem?_set_other {α : Type} {xs : List α} {r q : Nat} {x : α} (hq : r ≠ q) (y : α)
    (h : xs[q]? = some x) : (xs.set r y)[q]? = some x := by
  rw [List.getElem?_set_ne hq]
  exact h

/-- A step that does not change what `v` refers to -/
theorem step_value (w : World) {s : ObjStep} {v : VocabObj} {V : Vocab} (hs : ¬ s.Changes v)
    (hv : v.value w.objs = some V) : v.value (w.step s).objs = some V := by
  by_cases hc : s.Creates
  · exact VocabObj.value_ext (step_ext w hc) hv
  · obtain ⟨h1, h2, h3⟩ := VocabObj.value_iff.mp hv
    rw [VocabObj.value_iff]
    have ixs : ∀ (o : IxObj) (i : Indexer) (h' : Objs), o.value w.objs = some i →
        (∀ gs mn mx r b, o = .expl gs mn mx r b → (∀ x, w.objs.lists[gs]? = some x → h'.lists[gs]? = some x) ∧
          ∀ x, w.objs.gidx[r]? = some x → h'.gidx[r]? = some x) → o.value h' = some i := by
      intro o i h' ho hk
      cases o with
      | fifu ix => exact ho
      | ft ix => exact ho
      | expl gs mn mx r b =>
        obtain ⟨k1, k2⟩ := hk gs mn mx r b rfl
        rw [IxObj.value] at ho ⊢
        cases e1 : w.objs.lists[gs]? with
        | none => rw [e1] at ho; cases ho
        | some l =>
          cases e2 : w.objs.gidx[r]? with
          | none => rw [e1, e2] at ho; cases ho
          | some d =>
            rw [e1, e2] at ho
            rw [k1 _ e1, k2 _ e2]
            exact ho
    cases s with
    | setList r xs =>
      refine ⟨getElem?_set_other (fun h => hs (.inl h)) _ h1, h2, ?_⟩
      rcases h3 with h3 | ⟨o, i, e1, e2, e3⟩
      · exact .inl h3
      · refine .inr ⟨o, i, e1, e2, ixs o i _ e3 ?_⟩
        rintro gs mn mx q b rfl
        exact ⟨fun x hx => getElem?_set_other (fun h => hs (.inr ⟨mn, mx, q, b, by rw [h]; exact e1⟩)) _ hx, fun x hx => hx⟩
    | setW r ps =>
      exact ⟨h1, getElem?_set_other (fun h => hs h) _ h2, h3.imp id fun ⟨o, i, e1, e2, e3⟩ =>
        ⟨o, i, e1, e2, ixs o i _ e3 fun _ _ _ _ _ _ => ⟨fun _ hx => hx, fun _ hx => hx⟩⟩⟩
    | setG r ps =>
      refine ⟨h1, h2, ?_⟩
      rcases h3 with h3 | ⟨o, i, e1, e2, e3⟩
      · exact .inl h3
      · refine .inr ⟨o, i, e1, e2, ixs o i _ e3 ?_⟩
        rintro gs mn mx q b rfl
        exact ⟨fun x hx => hx, fun x hx => getElem?_set_other (fun h => hs ⟨gs, mn, mx, b, by rw [h]; exact e1⟩) _ hx⟩
    | list xs => exact absurd trivial hc
    | dict ps => exact absurd trivial hc
    | fifu b mn mx => exact absurd trivial hc
    | ft b mn mx => exact absurd trivial hc
    | expl gs mn mx index => exact absurd trivial hc
    | vocab words sub => exact absurd trivial hc
    | toExplicit v => exact absurd trivial hc
    | load bs => exact absurd trivial hc

theorem run_value (w : World) (steps : List ObjStep) {v : VocabObj} {V : Vocab} (hs : ∀ s ∈ steps, ¬ s.Changes v)
    (hv : v.value w.objs = some V) : v.value (w.run steps).objs = some V := by
  unfold World.run
  induction steps generalizing w with
  | nil => exact hv
  | cons s steps ih =>
    exact ih (w.step s) (fun t ht => hs t (by simp [ht])) (step_value w (hs s (by simp)) hv)

/-! ### Loading -/

theorem loadVocab_built {bs : Bytes} {V : Vocab} (h : Rd.run loadVocab bs = .ok V) : BuiltVocab V ∧ HasNgrams V := by
  obtain ⟨s', h⟩ := rd_run_ok h
  unfold loadVocab at h
  obtain ⟨c, s1, _, h⟩ := rd_bind_inv h
  cases c with
  | none => cases h
  | some c =>
    have h : readVocabChunk c s1 = .ok (V, s') := h
    have : loadVocabPart c s1 = .ok (V, s') := by
      cases c <;> first | exact h | cases h
    exact ⟨(loadVocabPart_inv this).1, loadVocabPart_ngrams this⟩

/-- A vocabulary made from a file: nothing that existed before belongs to it. -/
theorem ofFile_spec (h : Objs) {V : Vocab} (hV : BuiltVocab V) (hg : HasNgrams V) :
    ∃ v h', VocabObj.ofFile V h = (.ok v, h') ∧ v.value h' = some V ∧ (∀ r, v.UsesList r → h.lists.length ≤ r) ∧
      h.widx.length ≤ v.index ∧ ∀ r, v.UsesG r → h.gidx.length ≤ r := by
  have main : ∀ (h1 : Objs) (ws : Nat) (sub : Option IxObj), h1.lists[ws]? = some V.words →
      ((sub = none ∧ V.sub = none) ∨ ∃ ix i, sub = some ix ∧ V.sub = some i ∧ ix.value h1 = some i) →
      ∃ i h', VocabObj.new ws sub h1 = (.ok ⟨ws, i, sub⟩, h') ∧ VocabObj.value h' ⟨ws, i, sub⟩ = some V ∧
        i = h1.widx.length := by
    intro h1 ws sub hw hs
    have h2 := newVocab_spec hw sub V.sub hs
    rw [hV.2] at h2
    obtain ⟨i, h', h3, h4⟩ := h2
    refine ⟨i, h', h3, h4, ?_⟩
    unfold VocabObj.new at h3
    rw [bind_ok (get_ok hw)] at h3
    cases hd : validateItems V.words with
    | error e =>
      rw [bind_err (m := OM.lift (validateItems V.words)) (e := e) (h' := h1) (by rw [hd]; rfl)] at h3
      cases (Prod.mk.inj h3).1
    | ok d =>
      rw [bind_ok (m := OM.lift (validateItems V.words)) (a := d) (h' := h1) (by rw [hd]; rfl)] at h3
      have := (Prod.mk.inj h3).1
      exact (congrArg VocabObj.index (Except.ok.inj this)).symm
  have e0 : VocabObj.ofFile V h = VocabObj.ofFile V h := rfl
  conv at e0 =>
    rhs
    unfold VocabObj.ofFile
    rw [bind_ok (m := OM.newList V.words) rfl]
  cases hsub : V.sub with
  | none =>
    rw [hsub] at e0
    obtain ⟨i, h', h1, h2, h3⟩ := main ⟨h.lists ++ [V.words], h.widx, h.gidx⟩ h.lists.length none (getElem?_snoc_self _ _) (.inl ⟨rfl, hsub⟩)
    refine ⟨_, h', e0.trans h1, h2, ?_, by rw [h3], ?_⟩
    · rintro r (rfl | ⟨_, _, _, _, hr⟩)
      · exact le_refl _
      · cases hr
    · rintro r ⟨_, _, _, _, hr⟩
      cases hr
  | some ix =>
    rw [hsub] at e0
    cases ix with
    | fifu ix =>
      obtain ⟨i, h', h1, h2, h3⟩ := main ⟨h.lists ++ [V.words], h.widx, h.gidx⟩ h.lists.length (some (.fifu ix)) (getElem?_snoc_self _ _)
        (.inr ⟨_, _, rfl, hsub, rfl⟩)
      refine ⟨_, h', e0.trans h1, h2, ?_, by rw [h3], ?_⟩
      · rintro r (rfl | ⟨_, _, _, _, hr⟩)
        · exact le_refl _
        · cases hr
      · rintro r ⟨_, _, _, _, hr⟩
        cases hr
    | ft ix =>
      obtain ⟨i, h', h1, h2, h3⟩ := main ⟨h.lists ++ [V.words], h.widx, h.gidx⟩ h.lists.length (some (.ft ix)) (getElem?_snoc_self _ _)
        (.inr ⟨_, _, rfl, hsub, rfl⟩)
      refine ⟨_, h', e0.trans h1, h2, ?_, by rw [h3], ?_⟩
      · rintro r (rfl | ⟨_, _, _, _, hr⟩)
        · exact le_refl _
        · cases hr
      · rintro r ⟨_, _, _, _, hr⟩
        cases hr
    | expl ix =>
      have hval : ExplValid ix := builtIndexer_wf (hV.1 _ hsub)
      have hk : (Dict.keys ix.index).Nodup := hval.keys.nodup_iff.mpr hval.nodup
      have hnew : ExplIndexer.new ix.ngrams ix.minN ix.maxN (some ix.index) = .ok ix :=
        (explNew_some hk).mpr ⟨hval, rfl, rfl, rfl, rfl, hg ix hsub⟩
      dsimp only at e0
      rw [bind_ok (m := OM.newList ix.ngrams) rfl, bind_ok (m := OM.newG ix.index) rfl] at e0
      dsimp only at e0
      generalize hh2 : (⟨h.lists ++ [V.words] ++ [ix.ngrams], h.widx, h.gidx ++ [ix.index]⟩ : Objs) = h2 at e0
      have hl2 : h2.lists[(h.lists ++ [V.words]).length]? = some ix.ngrams := by
        rw [← hh2]; exact getElem?_snoc_self _ _
      have hd2 : h2.gidx[h.gidx.length]? = some ix.index := by
        rw [← hh2]; exact getElem?_snoc_self _ _
      have hw2 : h2.lists[h.lists.length]? = some V.words := by
        rw [← hh2]; exact getElem?_snoc (getElem?_snoc_self _ _) _
      have e1 : IxObj.newExpl (h.lists ++ [V.words]).length ix.minN ix.maxN (some h.gidx.length) h2 =
          (.ok (.expl (h.lists ++ [V.words]).length ix.minN ix.maxN h.gidx.length ix.bound), h2) := by
        unfold IxObj.newExpl
        rw [bind_ok (get_ok hl2)]
        dsimp only
        rw [bind_ok (get_ok hd2),
          bind_ok (m := OM.lift (ExplIndexer.new ix.ngrams ix.minN ix.maxN (some ix.index))) (a := ix) (h' := h2)
            (by rw [hnew]; rfl)]
        rfl
      rw [bind_ok e1] at e0
      obtain ⟨i, h', h3, h4, h5⟩ := main h2 h.lists.length
        (some (.expl (h.lists ++ [V.words]).length ix.minN ix.maxN h.gidx.length ix.bound)) hw2
        (.inr ⟨_, _, rfl, hsub, by rw [IxObj.value, hl2, hd2]⟩)
      refine ⟨_, h', e0.trans h3, h4, ?_, by rw [h5, ← hh2], ?_⟩
      · rintro r (rfl | ⟨_, _, _, _, hr⟩)
        · exact le_refl _
        · cases hr
          rw [List.length_append]
          omega
      · rintro r ⟨_, _, _, _, hr⟩
        cases hr
        exact le_refl _

end FF
