import Verif.Lemmas.Objects
import Verif.Spec.Samples
import Verif.Props.C15
/-! C86: vocabularies keep their meaning in programs that share lists and dicts. -/

namespace FF

/-- In a program that creates, converts and loads vocabularies and changes lists and dicts, a vocabulary keeps its
words, indices and n-grams as long as the caller does not change a list or dict that it refers to.  In particular
nothing that the package does to or with other vocabularies affects it.  Missing for the full claim: callers that do change
such a list or dict, for which `C86_words_refuted`, `C86_bound_refuted` and `C86_copy_refuted` show that it fails. -/
theorem C86_history_partial (w : World) (steps : List ObjStep) (v : VocabObj) (V : Vocab)
    (hs : ∀ s ∈ steps, ¬ s.Changes v) (hv : v.value w.objs = some V) : v.value (w.run steps).objs = some V :=
  run_value w steps hs hv

/-- Everything that exists stays as it is in programs that leave lists and dicts alone once they exist. -/
theorem C86_untouched (w : World) (steps : List ObjStep) (hs : ∀ s ∈ steps, s.Creates) :
    w.objs.Ext (w.run steps).objs := by
  unfold World.run
  induction steps generalizing w with
  | nil => exact .refl _
  | cons s steps ih => exact (step_ext w (hs s (by simp))).trans (ih (w.step s) fun t ht => hs t (by simp [ht]))

/-- A constructor called with a list gives the vocabulary of C14, which refers to this list; it lasts as long as the
caller leaves alone what it refers to.  With a repeated word nothing is created. -/
theorem C86_created (w : World) (r : Nat) (sub : Option Nat) (l : List PyStr) (hl : w.objs.lists[r]? = some l)
    (S : Option Indexer) (hsub : match sub, S with
      | none, none => True
      | some i, some ix => ∃ o, w.ixs[i]? = some o ∧ o.value w.objs = some ix
      | _, _ => False) :
    (∀ V, Vocab.new l S = .ok V → ∃ v, (w.step (.vocab r sub)).vocabs = w.vocabs ++ [v] ∧ v.words = r ∧
      ∀ steps : List ObjStep, (∀ s ∈ steps, ¬ s.Changes v) →
        v.value ((w.step (.vocab r sub)).run steps).objs = some V) ∧
    (∀ e, Vocab.new l S = .error e → w.step (.vocab r sub) = w) := by
  obtain ⟨o, ho, hstep⟩ : ∃ o : Option IxObj,
      ((o = none ∧ S = none) ∨ ∃ ix i, o = some ix ∧ S = some i ∧ ix.value w.objs = some i) ∧
      w.step (.vocab r sub) = w.addVocab (VocabObj.new r o) := by
    cases sub with
    | none =>
      cases S with
      | none => exact ⟨none, .inl ⟨rfl, rfl⟩, rfl⟩
      | some ix => exact hsub.elim
    | some i =>
      cases S with
      | none => exact hsub.elim
      | some ix =>
        obtain ⟨o, h1, h2⟩ := hsub
        refine ⟨some o, .inr ⟨o, ix, rfl, rfl, h2⟩, ?_⟩
        show w.addVocab (OM.get (fun _ => w.ixs) i >>= fun ix => VocabObj.new r (some ix)) = _
        unfold World.addVocab
        rw [OM.bind_ok (OM.get_ok (f := fun _ => w.ixs) h1)]
  have h1 := newVocab_spec hl o S ho
  constructor
  · intro V hV
    rw [hV] at h1
    obtain ⟨i, h', h2, h3⟩ := h1
    refine ⟨⟨r, i, o⟩, ?_, rfl, fun steps hs => run_value _ steps hs ?_⟩
    · rw [hstep, World.addVocab, h2]
    · rw [hstep, addVocab_objs, h2]
      exact h3
  · intro e he
    rw [he] at h1
    rw [hstep, World.addVocab, h1]

/-- Explicit indexers likewise refer to the list and the dict that they are given. -/
theorem C86_indexer (w : World) (r : Nat) (l : List PyStr) (hl : w.objs.lists[r]? = some l) (mn mx : Int)
    (index : Option Nat) (d : Option (Dict PyStr Int))
    (hd : match index, d with
      | none, none => True
      | some i, some d => w.objs.gidx[i]? = some d
      | _, _ => False) :
    (∀ ix, ExplIndexer.new l mn mx d = .ok ix → ∃ o, (w.step (.expl r mn mx index)).ixs = w.ixs ++ [o] ∧
      o.value (w.step (.expl r mn mx index)).objs = some (.expl ix)) ∧
    (∀ e, ExplIndexer.new l mn mx d = .error e → w.step (.expl r mn mx index) = w) := by
  have h1 := newExpl_spec hl mn mx index d hd
  have hstep : w.step (.expl r mn mx index) = w.addIx (IxObj.newExpl r mn mx index) := rfl
  constructor
  · intro ix hx
    rw [hx] at h1
    obtain ⟨o, h', h2, h3⟩ := h1
    refine ⟨o, ?_, ?_⟩
    · rw [hstep, World.addIx, h2]
    · rw [hstep, addIx_objs, h2]
      exact h3
  · intro e he
    rw [he] at h1
    rw [hstep, World.addIx, h1]

/-- `to_explicit` gives the vocabulary of C24, or raises; the vocabulary that is converted stays as it was.  Both refer
to the same list of words. -/
theorem C86_converted (w : World) (n : Nat) (v : VocabObj) (V : Vocab) (hn : w.vocabs[n]? = some v)
    (hv : v.value w.objs = some V) :
    (∀ V', V.toExplicit = .ok V' → ∃ v', (w.step (.toExplicit n)).vocabs = w.vocabs ++ [v'] ∧ v'.words = v.words ∧
      v'.value (w.step (.toExplicit n)).objs = some V' ∧ v.value (w.step (.toExplicit n)).objs = some V) ∧
    (∀ e, V.toExplicit = .error e → (w.step (.toExplicit n)).vocabs = w.vocabs ∧
      v.value (w.step (.toExplicit n)).objs = some V) := by
  have hstep : w.step (.toExplicit n) = w.addVocab v.toExplicit := by
    show w.addVocab (OM.get (fun _ => w.vocabs) n >>= fun v => v.toExplicit) = _
    unfold World.addVocab
    rw [OM.bind_ok (OM.get_ok (f := fun _ => w.vocabs) hn)]
  have hkeep : v.value (w.step (.toExplicit n)).objs = some V := step_value w (fun h => h) hv
  obtain ⟨hw, _, hs⟩ := VocabObj.value_iff.mp hv
  have key : match V.toExplicit with
      | .ok V' => ∃ v' h', v.toExplicit w.objs = (.ok v', h') ∧ v'.value h' = some V' ∧ v'.words = v.words
      | .error e => ∃ h', v.toExplicit w.objs = (.error e, h') := by
    have main : ∀ ix, match bucketToExplicit V ix with
        | .ok V' => ∃ v' h', bucketToExplicitObj v ix w.objs = (.ok v', h') ∧ v'.value h' = some V' ∧ v'.words = v.words
        | .error e => ∃ h', bucketToExplicitObj v ix w.objs = (.error e, h') := by
      intro ix
      have h1 := bucketToExplicit_spec hw ix
      cases hb : bucketToExplicit V ix with
      | ok V' =>
        rw [hb] at h1
        obtain ⟨v', h', h2, _, h3, h4⟩ := h1
        exact ⟨v', h', h2, h3, h4⟩
      | error e =>
        rw [hb] at h1
        obtain ⟨h', h2, _⟩ := h1
        exact ⟨h', h2⟩
    unfold Vocab.toExplicit VocabObj.toExplicit
    rcases hs with ⟨h1, h2⟩ | ⟨o, i, h1, h2, h3⟩
    · rw [h1, h2]
      exact ⟨_, rfl⟩
    · rw [h1, h2]
      cases o with
      | fifu ix =>
        cases h3
        exact main _
      | ft ix =>
        cases h3
        exact main _
      | expl gs mn mx r b =>
        rw [IxObj.value] at h3
        split at h3
        · cases h3
          exact ⟨_, rfl⟩
        · cases h3
  constructor
  · intro V' hV
    rw [hV] at key
    obtain ⟨v', h', h1, h2, h3⟩ := key
    refine ⟨v', ?_, h3, ?_, hkeep⟩
    · rw [hstep, World.addVocab, h1]
    · rw [hstep, addVocab_objs, h1]
      exact h2
  · intro e he
    rw [he] at key
    obtain ⟨h', h1⟩ := key
    refine ⟨?_, hkeep⟩
    rw [hstep, World.addVocab, h1]

/-- A vocabulary loaded from a file refers to nothing that existed before. -/
theorem C86_loaded (w : World) (bs : Bytes) (V : Vocab) (h : Rd.run loadVocab bs = .ok V) :
    ∃ v, (w.step (.load bs)).vocabs = w.vocabs ++ [v] ∧ v.value (w.step (.load bs)).objs = some V ∧
      (∀ r, v.UsesList r → w.objs.lists.length ≤ r) ∧ w.objs.widx.length ≤ v.index ∧
      ∀ r, v.UsesG r → w.objs.gidx.length ≤ r := by
  obtain ⟨hV, hg⟩ := loadVocab_built h
  obtain ⟨v, h', h1, h2, h3⟩ := ofFile_spec w.objs hV hg
  have hstep : w.step (.load bs) = w.addVocab (VocabObj.ofFile V) := by
    show w.addVocab (OM.lift (Rd.run loadVocab bs) >>= fun v => VocabObj.ofFile v) = _
    unfold World.addVocab
    rw [OM.bind_ok (m := OM.lift (Rd.run loadVocab bs)) (a := V) (h' := w.objs) (by rw [h]; rfl)]
  refine ⟨v, ?_, ?_, h3⟩
  · rw [hstep, World.addVocab, h1]
  · rw [hstep, addVocab_objs, h1]
    exact h2

namespace Sample

def noObjs : World := ⟨⟨[], [], []⟩, [], []⟩

/-- A list, a vocabulary made from it, and the list grows -/
def growing : List ObjStep := [.list [[97], [98]], .vocab 0 none, .setList 0 [[97], [98], [99]]]

/-- The same with buckets -/
def growingSub : List ObjStep :=
  [.list [[97]], .fifu 1 1 1, .vocab 0 (some 0), .setList 0 [[97], [98], [99], [100], [101]]]

/-- A bucket vocabulary and its explicit copy -/
def copying : List ObjStep := [.list [[97]], .fifu 1 1 1, .vocab 0 (some 0), .toExplicit 0]

def valueOf (steps : List ObjStep) (n : Nat) : Option Vocab :=
  match (noObjs.run steps).vocabs[n]? with
  | some v => v.value (noObjs.run steps).objs
  | none => none

theorem valueOf_some {steps : List ObjStep} {n : Nat} {V : Vocab} (h : valueOf steps n = some V) :
    ∃ v, (noObjs.run steps).vocabs[n]? = some v ∧ v.value (noObjs.run steps).objs = some V := by
  unfold valueOf at h
  cases hv : (noObjs.run steps).vocabs[n]? with
  | none => rw [hv] at h; cases h
  | some v => rw [hv] at h; exact ⟨v, rfl, h⟩

end Sample

open Sample in
/-- The properties of vocabularies do not last in general.  If the list grows from which a vocabulary was made, its length
and its words disagree, and a word that iterating over it yields is not in it. -/
theorem C86_words_refuted : ∃ (steps : List ObjStep) (v : VocabObj) (V : Vocab),
    v ∈ (noObjs.run steps).vocabs ∧ v.value (noObjs.run steps).objs = some V ∧ V.len ≠ V.words.length ∧
      ∃ x ∈ V.words, V.contains x = false := by
  have h : valueOf growing 0 = some ⟨[[97], [98], [99]], [([97], 0), ([98], 1)], none⟩ := by decide +kernel
  obtain ⟨v, h1, h2⟩ := valueOf_some h
  exact ⟨growing, v, _, List.mem_of_getElem? h1, h2, by decide, [99], by simp, by decide⟩

open Sample in
/-- With subwords, the indices of unknown words are not below `upper_bound` any more. -/
theorem C86_bound_refuted : ∃ (steps : List ObjStep) (v : VocabObj) (V : Vocab) (x : PyStr) (is : List Int),
    v ∈ (noObjs.run steps).vocabs ∧ v.value (noObjs.run steps).objs = some V ∧ V.idx x = .ok (some (.many is)) ∧
      ∃ i ∈ is, V.upperBound ≤ i := by
  have h : valueOf growingSub 0 = some ⟨[[97], [98], [99], [100], [101]], [([97], 0)], some (.fifu ⟨1, 1, 1⟩)⟩ := by
    decide +kernel
  obtain ⟨v, h1, h2⟩ := valueOf_some h
  obtain ⟨is, h3, h4⟩ : ∃ is, (⟨[[97], [98], [99], [100], [101]], [([97], 0)], some (.fifu ⟨1, 1, 1⟩)⟩ : Vocab).idx [102] =
      .ok (some (.many is)) ∧ ∃ i ∈ is, (⟨[[97], [98], [99], [100], [101]], [([97], 0)],
        some (.fifu ⟨1, 1, 1⟩)⟩ : Vocab).upperBound ≤ i := by
    have : (match (⟨[[97], [98], [99], [100], [101]], [([97], 0)], some (.fifu ⟨1, 1, 1⟩)⟩ : Vocab).idx [102] with
        | .ok (some (.many is)) => is.any fun i => (⟨[[97], [98], [99], [100], [101]], [([97], 0)],
            some (.fifu ⟨1, 1, 1⟩)⟩ : Vocab).upperBound ≤ i
        | _ => false) = true := by decide +kernel
    split at this
    · rename_i is he
      exact ⟨is, he, by simpa using this⟩
    · cases this
  exact ⟨growingSub, v, _, [102], is, List.mem_of_getElem? h1, h2, h3, h4⟩

open Sample in
/-- The list of words that an explicit vocabulary hands out is the one of the vocabulary it was converted from:
changing it changes both. -/
theorem C86_copy_refuted : ∃ (steps : List ObjStep) (v v' : VocabObj) (xs : List PyStr),
    (noObjs.run steps).vocabs = [v, v'] ∧ (∃ V, v.value (noObjs.run steps).objs = some V ∧ V.words ≠ xs) ∧
      ∃ V, v.value (((noObjs.run steps).step (.setList v'.words xs)).objs) = some V ∧ V.words = xs := by
  have h : (noObjs.run copying).vocabs = [⟨0, 0, some (.fifu ⟨1, 1, 1⟩)⟩, ⟨0, 1, some (.expl 1 1 1 0 2)⟩] := by
    decide +kernel
  have h1 : VocabObj.value (noObjs.run copying).objs ⟨0, 0, some (.fifu ⟨1, 1, 1⟩)⟩ =
      some ⟨[[97]], [([97], 0)], some (.fifu ⟨1, 1, 1⟩)⟩ := by decide +kernel
  have h2 : VocabObj.value ((noObjs.run copying).step (.setList 0 [])).objs ⟨0, 0, some (.fifu ⟨1, 1, 1⟩)⟩ =
      some ⟨[], [([97], 0)], some (.fifu ⟨1, 1, 1⟩)⟩ := by decide +kernel
  exact ⟨copying, _, _, [], h, ⟨_, h1, by decide⟩, ⟨_, h2, rfl⟩⟩

namespace Sample

/-- Another list grows; the vocabulary stays. -/
example : valueOf [.list [[97], [98]], .vocab 0 none, .list [[97]], .setList 1 [[97], [99]], .vocab 1 none] 0 =
    some ⟨[[97], [98]], [([97], 0), ([98], 1)], none⟩ := by decide +kernel

example : ∃ v, (noObjs.run [.list [[97], [98]], .vocab 0 none]).vocabs = [v] ∧
    ¬ (ObjStep.setList 1 [[97], [99]]).Changes v ∧ (ObjStep.setList 0 []).Changes v := by
  refine ⟨⟨0, 0, none⟩, by decide +kernel, ?_, .inl rfl⟩
  rintro (h | ⟨_, _, _, _, h⟩)
  · cases h
  · cases h

/-- An explicit indexer with a given index -/
example : (noObjs.run [.list [[97], [98]], .dict [([97], 0), ([98], 0)], .expl 0 1 2 (some 0), .vocab 0 (some 0)]).vocabs =
    [⟨0, 0, some (.expl 0 1 2 0 1)⟩] := by decide +kernel

/-- Converted, and the shared list changed afterwards: words change in both, the n-grams of the copy are its own. -/
example : (valueOf (copying ++ [.setList 0 []]) 1).map (fun V => (V.words, V.sub)) =
    (valueOf copying 1).map (fun V => ([], V.sub)) ∧ (valueOf copying 1).isSome := by
  decide +kernel

end Sample

end FF
