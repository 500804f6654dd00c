import Verif.Model.Setters
import Verif.Lemmas.B2EEmb
/-! C26: histories of `norms` and `metadata` assignments. -/

namespace FF

section
variable {K : Type}

/-- The documented invariants. -/
def EmbInv (e : Embeddings K) : Prop :=
  (e.storage.nRows : Int) = e.vocab.upperBound ∧
  ∀ n, e.norms = some n → n.length = e.vocab.words.length

/-- Which assignments are legal: `None`, `Metadata`, and `Norms` with one entry per word. -/
def Legal (e : Embeddings K) : Assign K → Prop
  | .norms .none => True
  | .norms (.norms n) => n.length = e.vocab.words.length
  | .norms .other => False
  | .metadata .other => False
  | .metadata _ => True

/-- The value of `norms` after a history: the last legal assignment, else the initial value. -/
def NormsAfter (e : Embeddings K) (as : List (Assign K)) (n : Option (List K)) : Prop :=
  (n = e.norms ∧ ∀ a, Assign.norms a ∈ as → ¬ Legal e (.norms a)) ∨
  ∃ pre post a, as = pre ++ Assign.norms a :: post ∧ Legal e (.norms a) ∧
    (∀ b, Assign.norms b ∈ post → ¬ Legal e (.norms b)) ∧
    match a with
    | .none => n = none
    | .norms m => n = some m
    | .other => False

/-- The value of `metadata` after a history. -/
def MetaAfter (e : Embeddings K) (as : List (Assign K)) (m : Option Meta) : Prop :=
  (m = e.metadata ∧ ∀ a, Assign.metadata a ∈ as → ¬ Legal e (.metadata a)) ∨
  ∃ pre post a, as = pre ++ Assign.metadata a :: post ∧ Legal e (.metadata a) ∧
    (∀ b, Assign.metadata b ∈ post → ¬ Legal e (.metadata b)) ∧
    match a with
    | .none => m = none
    | .metadata x => m = some x
    | .other => False

theorem built_inv {e : Embeddings K} (h : BuiltEmb e) : EmbInv e := by
  obtain ⟨_, h1, h2⟩ := embNew_iff.mp h.new
  refine ⟨h1, fun n hn => ?_⟩
  rw [← h.vocab.len]
  exact (h2 n hn).2.symm

/-- One assignment: it succeeds iff it is legal, a rejected one changes nothing, an accepted one
changes only the attribute. -/
theorem C26_step (e : Embeddings K) (he : BuiltEmb e) (a : Assign K) :
    BuiltEmb (e.assign a).2 ∧
    ((e.assign a).1 = .ok () ↔ Legal e a) ∧
    (∀ x, (e.assign a).1 = .error x → (e.assign a).2 = e) ∧
    (e.assign a).2.storage = e.storage ∧ (e.assign a).2.vocab = e.vocab ∧
    (Legal e a → match a with
      | .norms .none => (e.assign a).2.norms = none ∧ (e.assign a).2.metadata = e.metadata
      | .norms (.norms n) => (e.assign a).2.norms = some n ∧ (e.assign a).2.metadata = e.metadata
      | .metadata .none => (e.assign a).2.metadata = none ∧ (e.assign a).2.norms = e.norms
      | .metadata (.metadata m) => (e.assign a).2.metadata = some m ∧ (e.assign a).2.norms = e.norms
      | _ => True) := by
  have hnew := embNew_iff.mp he.new
  cases a with
  | metadata a =>
    cases a with
    | none =>
      exact ⟨⟨he.vocab, he.storage, embNew_iff.mpr ⟨rfl, hnew.2⟩⟩, ⟨fun _ => trivial, fun _ => rfl⟩,
        fun x hx => (by cases hx), rfl, rfl, fun _ => ⟨rfl, rfl⟩⟩
    | metadata m =>
      exact ⟨⟨he.vocab, he.storage, embNew_iff.mpr ⟨rfl, hnew.2⟩⟩, ⟨fun _ => trivial, fun _ => rfl⟩,
        fun x hx => (by cases hx), rfl, rfl, fun _ => ⟨rfl, rfl⟩⟩
    | other =>
      exact ⟨he, ⟨fun h => (by cases h), fun h => h.elim⟩, fun _ _ => rfl, rfl, rfl, fun _ => trivial⟩
  | norms a =>
    cases a with
    | none =>
      exact ⟨⟨he.vocab, he.storage, embNew_iff.mpr ⟨rfl, hnew.2.1, (by intro n hn; cases hn)⟩⟩,
        ⟨fun _ => trivial, fun _ => rfl⟩, fun x hx => (by cases hx), rfl, rfl, fun _ => ⟨rfl, rfl⟩⟩
    | other =>
      exact ⟨he, ⟨fun h => (by cases h), fun h => h.elim⟩, fun _ _ => rfl, rfl, rfl, fun _ => trivial⟩
    | norms n =>
      have hub := upperBound_ge he.vocab
      have h1 := hnew.2.1
      by_cases hl : n.length = e.vocab.words.length
      · have hc : normsCompatArg e.storage e.vocab (.norms n) = .ok () := by
          unfold normsCompatArg normsCompat
          simp only
          rw [pyAssert_true (by simp; omega), res_bind_ok, pyAssert_true (by
            rw [he.vocab.len]; simp [hl])]
        have ha : e.assign (.norms (.norms n)) = (.ok (), { e with norms := some n }) := by
          show e.setNorms (.norms n) = _
          unfold Embeddings.setNorms
          simp only
          rw [hc]
        rw [ha]
        refine ⟨⟨he.vocab, he.storage, embNew_iff.mpr ⟨rfl, hnew.2.1, ?_⟩⟩, ⟨fun _ => hl, fun _ => rfl⟩,
          fun x hx => (by cases hx), rfl, rfl, fun _ => ⟨rfl, rfl⟩⟩
        intro m hm
        cases hm
        exact ⟨(by show n.length ≤ e.storage.nRows; omega), by rw [he.vocab.len]; exact hl.symm⟩
      · have hc : normsCompatArg e.storage e.vocab (.norms n) = .error .assertionError := by
          unfold normsCompatArg normsCompat
          simp only
          have h2 : pyAssert (e.vocab.len = n.length) = .error .assertionError :=
            pyAssert_false (by rw [he.vocab.len]; simpa using fun h => hl h.symm)
          by_cases h3 : e.storage.nRows ≥ n.length
          · rw [pyAssert_true (by simpa using h3), res_bind_ok, h2]
          · rw [pyAssert_false (by simpa using h3)]; rfl
        have ha : e.assign (.norms (.norms n)) = (.error .assertionError, e) := by
          show e.setNorms (.norms n) = _
          unfold Embeddings.setNorms
          simp only
          rw [hc]
        rw [ha]
        exact ⟨he, ⟨fun h => (by cases h), fun h => absurd h hl⟩, fun _ _ => rfl, rfl, rfl,
          fun h => absurd h hl⟩

theorem legal_congr {e e' : Embeddings K} (h : e'.vocab = e.vocab) (a : Assign K) :
    Legal e' a ↔ Legal e a := by
  cases a with
  | norms a => cases a <;> simp [Legal, h]
  | metadata a => cases a <;> simp [Legal]

theorem run_built {e : Embeddings K} (he : BuiltEmb e) (as : List (Assign K)) :
    BuiltEmb (e.run as).2 ∧ (e.run as).2.storage = e.storage ∧ (e.run as).2.vocab = e.vocab ∧
      (e.run as).1.length = as.length ∧
      (∀ (i : Nat) a, as[i]? = some a → ((e.run as).1[i]? = some (.ok ()) ↔ Legal e a)) := by
  induction as generalizing e with
  | nil => exact ⟨he, rfl, rfl, rfl, by simp⟩
  | cons a as ih =>
    obtain ⟨h1, h2, _, h4, h5, _⟩ := C26_step e he a
    obtain ⟨i1, i2, i3, i4, i5⟩ := ih h1
    refine ⟨i1, i2.trans h4, i3.trans h5, ?_, ?_⟩
    · show ((e.assign a).1 :: ((e.assign a).2.run as).1).length = _
      rw [List.length_cons, i4, List.length_cons]
    · intro i b hb
      show ((e.assign a).1 :: ((e.assign a).2.run as).1)[i]? = _ ↔ _
      cases i with
      | zero =>
        simp only [List.getElem?_cons_zero, Option.some.injEq] at hb ⊢
        rw [← hb]; exact h2
      | succ i =>
        simp only [List.getElem?_cons_succ] at hb ⊢
        rw [i5 i b hb, legal_congr h5]

/-- Every history: the invariants hold, storage and vocabulary are untouched, each assignment is
accepted iff it is legal, and the attributes have the values of the last legal assignments. -/
theorem C26_history (e : Embeddings K) (he : BuiltEmb e) (as : List (Assign K)) :
    EmbInv (e.run as).2 ∧ (e.run as).2.storage = e.storage ∧ (e.run as).2.vocab = e.vocab ∧
    (e.run as).1.length = as.length ∧
    (∀ (i : Nat) a, as[i]? = some a → ((e.run as).1[i]? = some (.ok ()) ↔ Legal e a)) ∧
    NormsAfter e as (e.run as).2.norms ∧ MetaAfter e as (e.run as).2.metadata := by
  obtain ⟨h1, h2, h3, h4, h5⟩ := run_built he as
  refine ⟨built_inv h1, h2, h3, h4, h5, ?_⟩
  clear h1 h2 h3 h4 h5
  induction as generalizing e with
  | nil => exact ⟨.inl ⟨rfl, by simp⟩, .inl ⟨rfl, by simp⟩⟩
  | cons a as ih =>
    obtain ⟨h1, h2, h3, h4, h5, h6⟩ := C26_step e he a
    obtain ⟨i1, i2⟩ := ih _ h1
    have hl := legal_congr (e := e) h5
    constructor
    · show NormsAfter e (a :: as) ((e.assign a).2.run as).2.norms
      rcases i1 with ⟨hn, hno⟩ | ⟨pre, post, b, hsp, hb, hpost, hval⟩
      swap
      · refine .inr ⟨a :: pre, post, b, by rw [hsp]; rfl, (hl _).mp hb, ?_, hval⟩
        intro c hc; rw [← hl]; exact hpost c hc
      have hno' : ∀ b, Assign.norms b ∈ as → ¬ Legal e (.norms b) := by
        intro b hb; rw [← hl]; exact hno b hb
      rw [hn]
      cases a with
      | metadata m =>
        refine .inl ⟨?_, ?_⟩
        · cases m with
          | none => exact (h6 trivial).2
          | metadata m => exact (h6 trivial).2
          | other => rfl
        · intro b hb
          simp only [List.mem_cons, reduceCtorEq, false_or] at hb
          exact hno' b hb
      | norms m =>
        by_cases hlm : Legal e (.norms m)
        · refine .inr ⟨[], as, m, rfl, hlm, hno', ?_⟩
          cases m with
          | none => exact (h6 hlm).1
          | norms m => exact (h6 hlm).1
          | other => exact hlm
        · refine .inl ⟨?_, ?_⟩
          · cases hr : (e.assign (.norms m)).1 with
            | ok u => exact absurd (h2.mp hr) hlm
            | error x => rw [h3 x hr]
          · intro b hb
            rcases List.mem_cons.mp hb with hb | hb
            · cases hb; exact hlm
            · exact hno' b hb
    · show MetaAfter e (a :: as) ((e.assign a).2.run as).2.metadata
      rcases i2 with ⟨hn, hno⟩ | ⟨pre, post, b, hsp, hb, hpost, hval⟩
      swap
      · refine .inr ⟨a :: pre, post, b, by rw [hsp]; rfl, (hl _).mp hb, ?_, hval⟩
        intro c hc; rw [← hl]; exact hpost c hc
      have hno' : ∀ b, Assign.metadata b ∈ as → ¬ Legal e (.metadata b) := by
        intro b hb; rw [← hl]; exact hno b hb
      rw [hn]
      cases a with
      | norms m =>
        refine .inl ⟨?_, ?_⟩
        · by_cases hlm : Legal e (.norms m)
          · cases m with
            | none => exact (h6 hlm).2
            | norms m => exact (h6 hlm).2
            | other => exact hlm.elim
          · cases hr : (e.assign (.norms m)).1 with
            | ok u => exact absurd (h2.mp hr) hlm
            | error x => rw [h3 x hr]
        · intro b hb
          simp only [List.mem_cons, reduceCtorEq, false_or] at hb
          exact hno' b hb
      | metadata m =>
        by_cases hlm : Legal e (.metadata m)
        · refine .inr ⟨[], as, m, rfl, hlm, hno', ?_⟩
          cases m with
          | none => exact (h6 hlm).1
          | metadata m => exact (h6 hlm).1
          | other => exact hlm
        · refine .inl ⟨?_, ?_⟩
          · cases m with
            | other => rfl
            | none => exact absurd trivial hlm
            | metadata m => exact absurd trivial hlm
          · intro b hb
            rcases List.mem_cons.mp hb with hb | hb
            · cases hb; exact hlm
            · exact hno' b hb

/-- The constructor establishes the invariants. -/
theorem C26_init (e : Embeddings K) (he : BuiltEmb e) : EmbInv e := built_inv he

/-- Which exceptions: a wrong length or type of norms is an `AssertionError` (the documentation
says `TypeError` for the latter), a wrong type of metadata a `TypeError`. -/
theorem C26_errors (e : Embeddings K) (a : Assign K) (x : PyErr)
    (h : (e.assign a).1 = .error x) :
    match a with
    | .norms _ => x = .assertionError
    | .metadata _ => x = .typeError := by
  cases a with
  | metadata a => cases a <;> first | (cases h; rfl) | cases h
  | norms a =>
    cases a with
    | none => cases h
    | other => cases h; rfl
    | norms n =>
      change (e.setNorms (.norms n)).1 = _ at h
      unfold Embeddings.setNorms at h
      simp only at h
      cases hc : normsCompatArg e.storage e.vocab (.norms n) with
      | ok u => rw [hc] at h; cases h
      | error y =>
        rw [hc] at h
        cases h
        unfold normsCompatArg normsCompat pyAssert at hc
        simp only at hc
        by_cases h3 : e.storage.nRows ≥ n.length
        · simp only [h3, decide_true, if_true, res_bind_ok] at hc
          split at hc <;> cases hc
          rfl
        · simp only [h3, decide_false] at hc
          cases hc; rfl

end

/-- A history with accepted and rejected assignments of every kind. -/
example : BuiltEmb Sample.embSimple ∧
    (Sample.embSimple.run [.norms (.norms [1]), .norms .none, .metadata .other,
      .norms (.norms [4, 5, 6]), .norms .other, .metadata .none]).1 =
      [.error .assertionError, .ok (), .error .typeError, .ok (), .error .assertionError, .ok ()] ∧
    (Sample.embSimple.run [.norms (.norms [1]), .norms .none, .metadata .other,
      .norms (.norms [4, 5, 6]), .norms .other, .metadata .none]).2.norms = some [4, 5, 6] :=
  ⟨Sample.builtEmbSimple, by decide, by decide⟩

end FF
