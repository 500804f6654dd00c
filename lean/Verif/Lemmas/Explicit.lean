import Verif.Lemmas.Dict
import Mathlib.Tactic.Linarith
/-! The constructor of `ExplicitIndexer`. -/

namespace FF

theorem foldl_max_ge (xs : List Int) (x : Int) : x ≤ xs.foldl max x := by
  induction xs generalizing x with
  | nil => simp
  | cons y ys ih => simp only [List.foldl_cons]; exact le_trans (le_max_left x y) (ih _)

theorem foldl_max_mem (xs : List Int) (x : Int) : xs.foldl max x = x ∨ xs.foldl max x ∈ xs := by
  induction xs generalizing x with
  | nil => simp
  | cons y ys ih =>
    simp only [List.foldl_cons]
    rcases ih (max x y) with h | h
    · rcases max_choice x y with e | e
      · left; rw [h, e]
      · right; rw [h, e]; simp
    · right; exact List.mem_cons_of_mem _ h

theorem foldl_max_upper (xs : List Int) (x y : Int) (h : y ∈ xs) : y ≤ xs.foldl max x := by
  induction xs generalizing x with
  | nil => simp at h
  | cons z zs ih =>
    simp only [List.foldl_cons]
    rcases List.mem_cons.mp h with h | h
    · subst h; exact le_trans (le_max_right x y) (foldl_max_ge _ _)
    · exact ih _ h

theorem pyMax_ok {l : List Int} {m : Int} : pyMax l = .ok m ↔ m ∈ l ∧ ∀ x ∈ l, x ≤ m := by
  cases l with
  | nil => simp [pyMax]
  | cons x xs =>
    have key : xs.foldl max x ∈ x :: xs ∧ ∀ y ∈ x :: xs, y ≤ xs.foldl max x := by
      refine ⟨?_, ?_⟩
      · rcases foldl_max_mem xs x with h | h
        · rw [h]; simp
        · exact List.mem_cons_of_mem _ h
      · intro y hy
        rcases List.mem_cons.mp hy with h | h
        · subst h; exact foldl_max_ge _ _
        · exact foldl_max_upper _ _ _ h
    constructor
    · intro h
      simp only [pyMax] at h
      cases h
      exact key
    · rintro ⟨h1, h2⟩
      simp only [pyMax]
      congr 1
      exact le_antisymm (h2 _ key.1) (key.2 _ h1)

theorem toU32_ok {n : Int} {m : Nat} : toU32 n = .ok m ↔ (m : Int) = n ∧ m < 2 ^ 32 := by
  unfold toU32
  constructor
  · intro h
    split at h
    · rename_i hc
      cases h
      omega
    · cases h
  · rintro ⟨h1, h2⟩
    subst h1
    rw [if_pos (by omega)]
    simp

theorem pyAssert_ok_iff {c : Bool} : pyAssert c = .ok () ↔ c = true := by
  cases c <;> simp [pyAssert]

theorem fifuNew_ok {b mn mx : Int} {ix : FifuIndexer} :
    FifuIndexer.new b mn mx = .ok ix ↔
      (ix.bucketsExp : Int) = b ∧ (ix.minN : Int) = mn ∧ (ix.maxN : Int) = mx ∧
      0 < ix.minN ∧ ix.minN ≤ ix.maxN ∧ ix.maxN < 2 ^ 32 ∧ 0 < ix.bucketsExp ∧
      ix.bucketsExp < 64 := by
  unfold FifuIndexer.new
  constructor
  · intro h
    obtain ⟨_, h1, h⟩ := res_bind_inv h
    obtain ⟨_, h2, h⟩ := res_bind_inv h
    obtain ⟨a, h3, h⟩ := res_bind_inv h
    obtain ⟨c, h4, h⟩ := res_bind_inv h
    have h1 := pyAssert_ok h1
    have h2 := pyAssert_ok h2
    obtain ⟨h3, h3'⟩ := toU32_ok.mp h3
    obtain ⟨h4, h4'⟩ := toU32_ok.mp h4
    simp only [decide_eq_true_eq] at h1 h2
    cases h
    refine ⟨?_, h3, h4, ?_, ?_, h4', ?_, ?_⟩ <;> dsimp only <;> omega
  · rintro ⟨rfl, rfl, rfl, h1, h2, h3, h4, h5⟩
    rw [pyAssert_ok_iff.mpr (by simp; omega), res_bind_ok,
      pyAssert_ok_iff.mpr (by simp; omega), res_bind_ok,
      toU32_ok.mpr ⟨rfl, by omega⟩, res_bind_ok, toU32_ok.mpr ⟨rfl, by omega⟩]
    simp

theorem ftNew_ok {b mn mx : Int} {ix : FtIndexer} :
    FtIndexer.new b mn mx = .ok ix ↔
      (ix.nBuckets : Int) = b ∧ (ix.minN : Int) = mn ∧ (ix.maxN : Int) = mx ∧
      0 < ix.minN ∧ ix.minN ≤ ix.maxN ∧ ix.maxN < 2 ^ 32 ∧ 0 < ix.nBuckets ∧
      ix.nBuckets < 2 ^ 32 := by
  unfold FtIndexer.new
  constructor
  · intro h
    obtain ⟨_, h1, h⟩ := res_bind_inv h
    obtain ⟨_, h2, h⟩ := res_bind_inv h
    obtain ⟨a, h3, h⟩ := res_bind_inv h
    obtain ⟨c, h4, h⟩ := res_bind_inv h
    have h1 := pyAssert_ok h1
    have h2 := pyAssert_ok h2
    obtain ⟨h3, h3'⟩ := toU32_ok.mp h3
    obtain ⟨h4, h4'⟩ := toU32_ok.mp h4
    simp only [decide_eq_true_eq] at h1 h2
    cases h
    refine ⟨?_, h3, h4, ?_, ?_, h4', ?_, ?_⟩ <;> dsimp only <;> omega
  · rintro ⟨rfl, rfl, rfl, h1, h2, h3, h4, h5⟩
    rw [pyAssert_ok_iff.mpr (by simp; omega), res_bind_ok,
      pyAssert_ok_iff.mpr (by simp; omega), res_bind_ok,
      toU32_ok.mpr ⟨rfl, by omega⟩, res_bind_ok, toU32_ok.mpr ⟨rfl, by omega⟩]
    simp

/-- Invariants of an explicit indexer built from an `ngram_index` argument. -/
structure ExplValid (ix : ExplIndexer) : Prop where
  minPos : 0 < ix.minN
  minMax : ix.minN ≤ ix.maxN
  max32 : ix.maxN < 2 ^ 32
  nodup : ix.ngrams.Nodup
  keys : (Dict.keys ix.index).Perm ix.ngrams
  bound : ix.bound = ((ix.index.map Prod.snd).dedup.length : Nat)
  top : ∀ x ∈ ix.index.map Prod.snd, x < ix.bound
  topMem : ix.ngrams ≠ [] → ix.bound - 1 ∈ ix.index.map Prod.snd

theorem dedup_length_eq_iff {l : List PyStr} : l.dedup.length = l.length ↔ l.Nodup := by
  constructor
  · intro h
    have : l.dedup = l := List.Sublist.eq_of_length (List.dedup_sublist l) h
    rw [← this]; exact List.nodup_dedup _
  · intro h; rw [h.dedup]

/-- Characterisation of the constructor called with an `ngram_index` (a dict, so with
distinct keys). -/
theorem explNew_some {ngrams : List PyStr} {mn mx : Int} {d : Dict PyStr Int}
    (hd : (Dict.keys d).Nodup) {ix : ExplIndexer} :
    ExplIndexer.new ngrams mn mx (some d) = .ok ix ↔
      ExplValid ix ∧ ix.ngrams = ngrams ∧ ix.index = d ∧ (ix.minN : Int) = mn ∧
        (ix.maxN : Int) = mx ∧ ngrams ≠ [] := by
  unfold ExplIndexer.new
  constructor
  · intro h
    obtain ⟨_, h1, h⟩ := res_bind_inv h
    obtain ⟨a, h3, h⟩ := res_bind_inv h
    obtain ⟨c, h4, h⟩ := res_bind_inv h
    have h1 := pyAssert_ok h1
    obtain ⟨h3, h3'⟩ := toU32_ok.mp h3
    obtain ⟨h4, h4'⟩ := toU32_ok.mp h4
    simp only [decide_eq_true_eq] at h1
    simp only at h
    obtain ⟨_, h5, h⟩ := res_bind_inv h
    obtain ⟨_, h6, h⟩ := res_bind_inv h
    obtain ⟨m, h7, h⟩ := res_bind_inv h
    obtain ⟨_, h8, h⟩ := res_bind_inv h
    have h5 := pyAssert_ok h5
    have h6 := pyAssert_ok h6
    have h8 := pyAssert_ok h8
    simp only [decide_eq_true_eq, Bool.and_eq_true, List.all_eq_true, List.mem_dedup] at h5 h6 h8
    obtain ⟨h7, h7'⟩ := pyMax_ok.mp h7
    have hn := dedup_length_eq_iff.mp h5
    cases h
    have hsub : ngrams ⊆ Dict.keys d := fun g hg => Dict.get?_isSome.mp (h6.1 g hg)
    have hlen : (Dict.keys d).length = ngrams.length := by simp [Dict.keys, h6.2]
    have hperm : ngrams.Perm (Dict.keys d) :=
      (List.subperm_of_subset hn hsub).perm_of_length_le (by omega)
    refine ⟨⟨by dsimp only; omega, by dsimp only; omega, h4', hn, hperm.symm, by simpa using h8, ?_, ?_⟩, rfl, rfl, h3, h4, ?_⟩
    · intro x hx; have := h7' x hx; simp only; omega
    · intro _; simpa using h7
    · intro e
      have : d = [] := by
        rw [e] at h6; simpa using h6.2
      rw [this] at h7; simp at h7
  · rintro ⟨hv, rfl, rfl, rfl, rfl, hne⟩
    have e1 : pyMax (ix.index.map Prod.snd) = .ok (ix.bound - 1) :=
      pyMax_ok.mpr ⟨hv.topMem hne, fun x hx => by have := hv.top x hx; omega⟩
    have hlen : ix.index.length = ix.ngrams.length := by
      have := hv.keys.length_eq
      simpa [Dict.keys] using this
    have hb := hv.bound
    have h1 := hv.minPos
    have h2 := hv.minMax
    have h3 := hv.max32
    rw [pyAssert_ok_iff.mpr (by simp; omega), res_bind_ok,
      toU32_ok.mpr ⟨rfl, by omega⟩, res_bind_ok, toU32_ok.mpr ⟨rfl, by omega⟩, res_bind_ok]
    simp only
    rw [pyAssert_ok_iff.mpr (by simp [hv.nodup.dedup]), res_bind_ok,
      pyAssert_ok_iff.mpr ?_, res_bind_ok, e1, res_bind_ok,
      pyAssert_ok_iff.mpr (by simp only [decide_eq_true_eq]; omega), res_bind_ok]
    · simp
    · simp only [Bool.and_eq_true, List.all_eq_true, List.mem_dedup, decide_eq_true_eq, hlen,
        and_true]
      intro g hg
      rw [Dict.get?_isSome]
      exact hv.keys.mem_iff.mpr hg

/-- The dictionary `{ngram: position}` as built by the constructor without `ngram_index`. -/
def enumInt (xs : List PyStr) : List (PyStr × Int) := (enumItems xs).map fun p => (p.1, (p.2 : Int))

theorem enumInt_fst (xs : List PyStr) : (enumInt xs).map Prod.fst = xs := by
  unfold enumInt
  rw [List.map_map]
  exact enumItems_fst xs

theorem enumInt_snd (xs : List PyStr) :
    (enumInt xs).map Prod.snd = (List.range xs.length).map (fun (n : Nat) => (n : Int)) := by
  unfold enumInt enumItems
  rw [List.map_map]
  have : (Prod.snd ∘ fun p : PyStr × Nat => (p.1, (p.2 : Int))) = (fun n : Nat => (n : Int)) ∘ Prod.snd := rfl
  rw [this, ← List.map_map, List.map_snd_zip]
  simp

/-- Characterisation of the constructor called without an `ngram_index`. -/
theorem explNew_none {ngrams : List PyStr} {mn mx : Int} {ix : ExplIndexer} :
    ExplIndexer.new ngrams mn mx none = .ok ix ↔
      ExplValid ix ∧ ix.ngrams = ngrams ∧ ix.index = enumInt ngrams ∧ (ix.minN : Int) = mn ∧
        (ix.maxN : Int) = mx := by
  unfold ExplIndexer.new
  have hl : (Dict.ofPairs (enumInt ngrams)).length = ngrams.dedup.length := by
    rw [Dict.length_ofPairs, enumInt_fst]
  have hval : ∀ ix : ExplIndexer, ix.index = enumInt ix.ngrams → ix.ngrams.Nodup →
      ((ix.index.map Prod.snd).dedup.length : Int) = ix.ngrams.length := by
    intro ix hi _
    rw [hi, enumInt_snd, List.Nodup.dedup]
    · simp
    · exact List.Nodup.map (fun a b h => by simpa using h) List.nodup_range
  constructor
  · intro h
    obtain ⟨_, h1, h⟩ := res_bind_inv h
    obtain ⟨a, h3, h⟩ := res_bind_inv h
    obtain ⟨c, h4, h⟩ := res_bind_inv h
    have h1 := pyAssert_ok h1
    obtain ⟨h3, h3'⟩ := toU32_ok.mp h3
    obtain ⟨h4, h4'⟩ := toU32_ok.mp h4
    simp only [decide_eq_true_eq] at h1
    simp only at h
    obtain ⟨_, h5, h⟩ := res_bind_inv h
    have h5 := pyAssert_ok h5
    change decide (ngrams.length = (Dict.ofPairs (enumInt ngrams)).length) = true at h5
    simp only [decide_eq_true_eq] at h5
    rw [hl] at h5
    have hn := dedup_length_eq_iff.mp h5.symm
    have he : Dict.ofPairs (enumInt ngrams) = enumInt ngrams :=
      Dict.ofPairs_eq _ (by rw [enumInt_fst]; exact hn)
    change Except.ok (ExplIndexer.mk ngrams a c (Dict.ofPairs (enumInt ngrams))
      (Dict.ofPairs (enumInt ngrams)).length) = _ at h
    rw [he] at h
    have hll : (enumInt ngrams).length = ngrams.length := by simp [enumInt, enumItems_length]
    cases h
    refine ⟨⟨by dsimp only; omega, by dsimp only; omega, h4', hn, ?_, ?_, ?_, ?_⟩, rfl, rfl, h3, h4⟩
    · show ((enumInt ngrams).map Prod.fst).Perm ngrams
      rw [enumInt_fst]
    · have := hval ⟨ngrams, a, c, enumInt ngrams, 0⟩ rfl hn
      simp only at this ⊢
      rw [hll, this]
    · intro x hx
      simp only [enumInt_snd, List.mem_map, List.mem_range] at hx
      obtain ⟨n, hn', rfl⟩ := hx
      simp only [hll]; omega
    · intro hne
      have : ngrams.length ≠ 0 := by simpa using hne
      simp only [enumInt_snd, List.mem_map, List.mem_range, hll]
      exact ⟨ngrams.length - 1, by omega, by omega⟩
  · rintro ⟨hv, rfl, hi, rfl, rfl⟩
    have he : Dict.ofPairs (enumInt ix.ngrams) = enumInt ix.ngrams :=
      Dict.ofPairs_eq _ (by rw [enumInt_fst]; exact hv.nodup)
    have hll : (enumInt ix.ngrams).length = ix.ngrams.length := by simp [enumInt, enumItems_length]
    have h1 := hv.minPos
    have h2 := hv.minMax
    have h3 := hv.max32
    have hb := hv.bound
    have := hval ix hi hv.nodup
    rw [pyAssert_ok_iff.mpr (by simp; omega), res_bind_ok,
      toU32_ok.mpr ⟨rfl, by omega⟩, res_bind_ok, toU32_ok.mpr ⟨rfl, by omega⟩, res_bind_ok]
    simp only
    change (pyAssert (decide (ix.ngrams.length = (Dict.ofPairs (enumInt ix.ngrams)).length)) >>= fun _ =>
      Except.ok (ExplIndexer.mk ix.ngrams ix.minN ix.maxN (Dict.ofPairs (enumInt ix.ngrams))
      (Dict.ofPairs (enumInt ix.ngrams)).length)) = _
    rw [he, pyAssert_ok_iff.mpr (by simp [hll]), res_bind_ok, ← hi]
    congr 1
    cases ix
    simp only [ExplIndexer.mk.injEq, true_and] at *
    subst hi
    omega

end FF
