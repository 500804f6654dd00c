import Verif.Props.C66
/-!
# C68: words without a direction

A vector of zeros is stored as a row of NaNs, and the similarity of a NaN row to anything is NaN.  numpy sorts
NaNs behind all numbers, so that such words are selected as nearest neighbours before all others.
-/

namespace FF

open F32

/-! ### Comparisons -/

/-- Comparisons of float32 are those of the numbers: NaN is neither smaller nor larger than anything, `-0` and
`0` are equal, and infinity is larger than all finite numbers. -/
theorem C68_compare (a b : F32) :
    (Score.nan a = true ↔ NaN a) ∧
    (NaN a ∨ NaN b → Score.lt a b = false) ∧
    (Finite a → Finite b → (Score.lt a b = true ↔ val a < val b)) ∧
    (Finite a → Score.lt a posInf = true ∧ Score.lt negInf a = true ∧
      Score.lt posInf a = false ∧ Score.lt a negInf = false) ∧
    Score.lt negInf posInf = true ∧ Score.lt posInf negInf = false := by
  refine ⟨isNaN_iff, ?_, fun ha hb => lt_iff (not_nan_inf ha).1 (not_nan_inf hb).1, fun ha => ?_, ?_, ?_⟩
  · rintro (h | h)
    · exact Score.nan_left _ _ (isNaN_iff.mpr h)
    · exact Score.nan_right _ _ (isNaN_iff.mpr h)
  · have hn := (not_nan_inf ha).1
    have hp : B32.isNaN posInf = false := by decide
    have hm : B32.isNaN negInf = false := by decide
    have hfin : B32.mant a < B32.inf := by simpa [B32.isFin] using isFin_iff.mpr ha
    have hlt : B32.mag (B32.mant a) < B32.mag B32.inf :=
      (mag_mono (Nat.le_sub_one_of_lt hfin)).trans_lt (by decide +kernel)
    have e1 : B32.int posInf = B32.mag B32.inf := rfl
    have e2 : B32.int negInf = -(B32.mag B32.inf : Int) := rfl
    have e3 : B32.int a < B32.mag B32.inf ∧ -(B32.mag B32.inf : Int) < B32.int a := by
      unfold B32.int
      split <;> omega
    show B32.lt a posInf = true ∧ B32.lt negInf a = true ∧ B32.lt posInf a = false ∧ B32.lt a negInf = false
    unfold B32.lt
    rw [hn, hp, hm, e1, e2]
    refine ⟨?_, ?_, ?_, ?_⟩
    · simpa using e3.1
    · simpa using e3.2
    · simpa using e3.1.le
    · simpa using e3.2.le
  · decide +kernel
  · decide +kernel

section
variable {K : Type} [NumOps K] [Score K]

/-- Of the words that are not skipped and whose similarity is NaN, all are answered but for as many as there are
skipped words, or as many as there are places: NaNs are preferred to all numbers. -/
theorem C68_displaced (S : Sel K) (hS : S.Admissible) (e : Embeddings K) (he : BuiltEmb e)
    (m : Mat K) (hm : e.storage = .nd m) (query : List K) (hq : query.length = m.cols) (k : Nat)
    (skips : List PyStr) (h0 : e.vocab.words ≠ [])
    (hk : k + knownSkips e.vocab.words skips ≤ e.vocab.words.length)
    (nans : List PyStr) (hnd : nans.Nodup) (hn : ∀ w ∈ nans, w ∉ skips ∧ ∃ (i : Nat) (row : List K),
      e.vocab.words[i]? = some w ∧ e.storage.getOne i = .ok row ∧ Score.nan (NumOps.dot row query) = true) :
    ∃ res, e.similarity S query k skips = .ok res ∧ res.length = k ∧
      min nans.length (k + knownSkips e.vocab.words skips) ≤
        (res.filter fun r => Score.nan r.2).length + knownSkips e.vocab.words skips := by
  obtain ⟨heap, h1, h2, h3, h4, h5, h6⟩ := similarity_heap hS he hm hq h0 hk
  obtain ⟨g1, rest, g2, _⟩ := hS.largest k heap
  refine ⟨_, h1, by rw [g1]; omega, ?_⟩
  by_cases hz : k + knownSkips e.vocab.words skips = 0
  · omega
  have h3 := h3 hz
  have hcount : (heap.filter fun r => Score.nan r.2).length ≤
      ((S.nlargest k heap).filter fun r => Score.nan r.2).length + rest.length := by
    rw [← (g2.filter _).length_eq, List.filter_append, List.length_append]
    have := List.length_filter_le (fun r : PyStr × K => Score.nan r.2) rest
    omega
  have hrest : rest.length = heap.length - k := by
    have := g2.length_eq
    rw [List.length_append, g1] at this
    omega
  by_cases hall : ∀ w ∈ nans, w ∈ (heap.filter fun r => Score.nan r.2).map Prod.fst
  · have := (List.subperm_of_subset hnd hall).length_le
    rw [List.length_map] at this
    omega
  · push Not at hall
    obtain ⟨w, hw, hout⟩ := hall
    obtain ⟨hs, i, row, hi, hr, hx⟩ := hn w hw
    rcases h6 i w row hi hr hs with h | h
    · exact absurd (List.mem_map.mpr ⟨_, List.mem_filter.mpr ⟨h, hx⟩, rfl⟩) hout
    · have : (S.nlargest k heap).filter (fun r => Score.nan r.2) = S.nlargest k heap := by
        rw [List.filter_eq_self]
        intro r hr
        have := h r (g2.mem_iff.mp (List.mem_append_left _ hr))
        unfold Score.before at this
        rw [hx] at this
        simpa using (Bool.or_eq_false_iff.mp this).2
      rw [this, g1]
      omega

/-- `embedding_similarity` without `skip` answers all words whose similarity is NaN, unless there are more of
them than answers. -/
theorem C68_all_answered (S : Sel K) (hS : S.Admissible) (e : Embeddings K) (he : BuiltEmb e)
    (m : Mat K) (hm : e.storage = .nd m) (query : List K) (hq : query.length = m.cols) (k : Nat)
    (h0 : e.vocab.words ≠ []) (hk : k ≤ e.vocab.words.length) :
    ∃ res, e.embeddingSimilarity S query k none = .ok res ∧ res.length = k ∧
      ((∀ (i : Nat) w row, e.vocab.words[i]? = some w → e.storage.getOne i = .ok row →
        Score.nan (NumOps.dot row query) = true → w ∈ res.map Prod.fst) ∨
       ∀ r ∈ res, Score.nan r.2 = true) := by
  have hs : knownSkips e.vocab.words [] = 0 := by simp [knownSkips]
  obtain ⟨heap, h1, h2, h3, h4, h5, h6⟩ := similarity_heap hS he hm hq (k := k) (skips := []) h0 (by omega)
  obtain ⟨g1, rest, g2, _⟩ := hS.largest k heap
  refine ⟨_, h1, by rw [g1]; omega, ?_⟩
  by_cases hz : k = 0
  · right
    have : S.nlargest k heap = [] := List.length_eq_zero_iff.mp (by rw [g1, hz]; simp)
    rw [this]
    simp
  have h3 := h3 (by omega)
  have hrest : rest = [] := List.length_eq_zero_iff.mp (by
    have := g2.length_eq
    rw [List.length_append, g1] at this
    omega)
  rw [hrest, List.append_nil] at g2
  by_cases hall : ∀ r ∈ S.nlargest k heap, Score.nan r.2 = true
  · exact Or.inr hall
  · left
    push Not at hall
    obtain ⟨r, hr, hx⟩ := hall
    intro i w row hi hrow hnan
    rcases h6 i w row hi hrow (by simp) with h | h
    · exact List.mem_map.mpr ⟨_, g2.mem_iff.mpr h, rfl⟩
    · exfalso
      have := h r (g2.mem_iff.mp hr)
      unfold Score.before at this
      rw [hnan] at this
      exact hx (by simpa using (Bool.or_eq_false_iff.mp this).2)

end

/-! ### Vectors of zeros -/

/-- All components are `0` or `-0`. -/
def ZeroVec (v : List F32) : Prop := ∀ x ∈ v, Finite x ∧ val x = 0

theorem Dot_nan {ps : List (F32 × F32)} {a : F32} (h : Dot ps a) (hn : ∃ p ∈ ps, NaN p.1 ∨ NaN p.2) : NaN a := by
  induction h with
  | nil => obtain ⟨p, hp, _⟩ := hn; cases hp
  | mul x y =>
    obtain ⟨p, hp, h⟩ := hn
    rw [List.mem_singleton] at hp
    subst hp
    unfold B32.mul
    rcases h with h | h <;>
    · rw [isNaN_iff.mpr h]
      simp only [Bool.or_true, Bool.true_or, if_true]
      exact nan_nan
  | fma x y _ ih =>
    obtain ⟨p, hp, h⟩ := hn
    unfold B32.fma
    rcases List.mem_cons.mp hp with rfl | hp
    · rcases h with h | h <;>
      · rw [isNaN_iff.mpr h]
        simp only [Bool.or_true, Bool.true_or, if_true]
        exact nan_nan
    · rw [isNaN_iff.mpr (ih ⟨p, hp, h⟩)]
      simp only [Bool.or_true, if_true]
      exact nan_nan
  | add _ _ iha ihb =>
    obtain ⟨p, hp, h⟩ := hn
    unfold B32.add
    rcases List.mem_append.mp hp with hp | hp
    · rw [isNaN_iff.mpr (iha ⟨p, hp, h⟩)]
      exact nan_nan
    · rw [isNaN_iff.mpr (ihb ⟨p, hp, h⟩)]
      simp only [Bool.or_true, if_true]
      exact nan_nan
  | perm hp _ ih =>
    obtain ⟨p, hp', h⟩ := hn
    exact ih ⟨p, hp.mem_iff.mpr hp', h⟩

section
variable [NumOps F32]

/-- A word with a vector of zeros has a row of NaNs, and NaN as similarity to every vector. -/
theorem C68_zero_vector (hB : Binary32) (cols : Nat) (words : List PyStr) (vs : List (List F32))
    (e : Embeddings F32) (h : Normalized cols words vs e) (i : Nat) (v : List F32)
    (hv : vs[i]? = some v) (hne : v ≠ []) (hz : ZeroVec v) :
    ∃ row, StoredRow e.storage i row ∧ row.length = v.length ∧ (∀ y ∈ row, NaN y) ∧
      ∀ query : List F32, query.length = v.length → NaN (NumOps.dot row query) := by
  obtain ⟨_, _, _, _, _, rows, h6, _, h7⟩ := h
  obtain ⟨d, hd, hs⟩ := hB.normAxis v
  obtain ⟨hdf, hd0⟩ := hd.underflow (fun p hp => ⟨(hz _ (mem_zip_self hp).1).1, by
    obtain ⟨j, hj, rfl⟩ := List.getElem_of_mem hp
    simp, by
    rw [(hz _ (mem_zip_self hp).1).2, abs_zero]
    positivity⟩)
  rw [sqrt_zero_b32 hdf hd0] at hs
  have hn := hs.eq hdf.not_nan
  have hrow : ∀ y ∈ v.map fun x => NumOps.div x (NumOps.normAxis v), NaN y := by
    intro y hy
    obtain ⟨x, hx, rfl⟩ := List.mem_map.mp hy
    rw [hn]
    exact (hB.div x d).nan ((div_zero_b32 (hz x hx).1 hdf hd0).2 (hz x hx).2)
  refine ⟨_, by rw [h6]; exact h7 i v hv, by simp, hrow, fun query hq => ?_⟩
  obtain ⟨a, ha, hsa⟩ := hB.dot (v.map fun x => NumOps.div x (NumOps.normAxis v)) query
  refine hsa.nan (Dot_nan ha ?_)
  obtain ⟨x, xs, rfl⟩ := List.exists_cons_of_ne_nil hne
  cases query with
  | nil => simp at hq
  | cons q qs =>
    exact ⟨_, List.mem_cons_self, Or.inl (hrow _ List.mem_cons_self)⟩

/-- The answers of `word_similarity` on loaded embeddings, whatever arithmetic, partition and heap: of the `N`
other words with a vector of zeros, at least `min N (k + 1) - 1` answers have NaN as similarity; of
`embedding_similarity` at least `min N k`. -/
theorem C68_zero_answers (hB : Binary32) (S : Sel F32) (hS : S.Admissible)
    (e : Embeddings F32) (he : BuiltEmb e) (cols : Nat) (words : List PyStr) (vs : List (List F32))
    (hN : Normalized cols words vs e) (hc : 0 < cols) (zeros : List PyStr) (hnd : zeros.Nodup)
    (hz : ∀ w ∈ zeros, ∃ (i : Nat) (v : List F32), words[i]? = some w ∧ vs[i]? = some v ∧ ZeroVec v)
    (k : Nat) :
    (∀ (j : Nat) w, words[j]? = some w → w ∉ zeros → k + 1 ≤ words.length →
      ∃ res, e.wordSimilarity S w k = .ok (some res) ∧ res.length = k ∧
        min zeros.length (k + 1) ≤ (res.filter fun r => Score.nan r.2).length + 1) ∧
    (∀ query : List F32, query.length = cols → words ≠ [] → k ≤ words.length →
      ∃ res, e.embeddingSimilarity S query k none = .ok res ∧ res.length = k ∧
        min zeros.length k ≤ (res.filter fun r => Score.nan r.2).length) := by
  have hN' := hN
  obtain ⟨n1, _, n3, _, _, rows, n6, n7, n8⟩ := hN
  subst n1
  have hwf : ∀ r ∈ rows, r.length = cols := by
    have := he.storage
    rw [n6] at this
    exact this.1
  have hlen : ∀ (i : Nat) v, vs[i]? = some v → v.length = cols := by
    intro i v hv
    have := hwf _ (List.mem_of_getElem? (n8 i v hv))
    simpa using this
  have hnans : ∀ query : List F32, query.length = cols → ∀ w ∈ zeros, ∃ (i : Nat) (row : List F32),
      e.vocab.words[i]? = some w ∧ e.storage.getOne i = .ok row ∧
        Score.nan (NumOps.dot row query) = true := by
    intro query hq w hw
    obtain ⟨i, v, hi, hv, hzv⟩ := hz w hw
    have hl := hlen i v hv
    obtain ⟨row, h1, _, _, h2⟩ := C68_zero_vector hB cols _ vs e hN' i v hv
      (by intro h; rw [h] at hl; simp at hl; omega) hzv
    refine ⟨i, row, hi, ?_, isNaN_iff.mpr (h2 query (by omega))⟩
    rw [n6] at h1 ⊢
    exact npGet_nat.mpr h1
  constructor
  · intro j w hw hout hk
    have hvl : ∃ v, vs[j]? = some v := by
      have hi := (List.getElem?_eq_some_iff.mp hw).1
      have hle : e.vocab.words.length ≤ vs.length := by
        have := he.words_le
        rw [n6] at this
        rw [← n7]
        exact this
      exact ⟨_, List.getElem?_eq_getElem (by omega)⟩
    obtain ⟨v, hv⟩ := hvl
    have hget : e.storage.getOne j = .ok (v.map fun x => NumOps.div x (NumOps.normAxis v)) := by
      rw [n6]
      exact npGet_nat.mpr (n8 j v hv)
    obtain ⟨_, hemb, _⟩ := C28_known e he j w _ hw hget
    have hql : (v.map fun x => NumOps.div x (NumOps.normAxis v)).length = cols := by
      rw [List.length_map]; exact hlen j v hv
    have hks : knownSkips e.vocab.words [w] = 1 := by
      have h1 := he.vocab.nodup
      have h2 : e.vocab.words.filter (fun x => decide (x ∈ [w])) = [w] := by
        have : (fun x : PyStr => decide (x ∈ [w])) = fun x => x == w := by
          funext x; simp [beq_eq_decide]
        rw [this, List.filter_beq, List.count_eq_one_of_mem h1 (List.mem_of_getElem? hw)]
        rfl
      unfold knownSkips
      rw [h2]
      rfl
    obtain ⟨res, h1, h2, h3⟩ := C68_displaced S hS e he _ n6 _ hql k [w]
      (by rintro h; rw [h] at hw; simp at hw) (by omega) zeros hnd (fun w' hw' => ⟨by
        rw [List.mem_singleton]
        rintro rfl
        exact hout hw', hnans _ hql w' hw'⟩)
    rw [hks] at h3
    exact ⟨res, by rw [wordSimilarity_eq hemb, h1]; rfl, h2, h3⟩
  · intro query hq h0 hk
    have hks : knownSkips e.vocab.words [] = 0 := by simp [knownSkips]
    obtain ⟨res, h1, h2, h3⟩ := C68_displaced S hS e he _ n6 query hq k [] h0 (by omega) zeros hnd
      fun w hw => ⟨by simp, hnans query hq w hw⟩
    rw [hks] at h3
    exact ⟨res, h1, h2, h3⟩

/-- If the query word itself has a vector of zeros, all answers have NaN as similarity. -/
theorem C68_zero_query (hB : Binary32) (S : Sel F32) (hS : S.Admissible)
    (e : Embeddings F32) (he : BuiltEmb e) (cols : Nat) (words : List PyStr) (vs : List (List F32))
    (hN : Normalized cols words vs e) (hc : 0 < cols) (j : Nat) (w : PyStr) (v : List F32)
    (hw : words[j]? = some w) (hv : vs[j]? = some v) (hz : ZeroVec v) (k : Nat)
    (hk : k + knownSkips words [w] ≤ words.length) :
    ∃ res, e.wordSimilarity S w k = .ok (some res) ∧ res.length = k ∧ ∀ r ∈ res, NaN r.2 := by
  have hN' := hN
  obtain ⟨n1, _, n3, _, _, rows, n6, n7, n8⟩ := hN
  subst n1
  have hwf : ∀ r ∈ rows, r.length = cols := by
    have := he.storage
    rw [n6] at this
    exact this.1
  have hl : v.length = cols := by
    have := hwf _ (List.mem_of_getElem? (n8 j v hv))
    simpa using this
  obtain ⟨row, h1, h2, h3, _⟩ := C68_zero_vector hB cols _ vs e hN' j v hv
    (by intro h; rw [h] at hl; simp at hl; omega) hz
  have hget : e.storage.getOne j = .ok row := by
    rw [n6] at h1 ⊢
    exact npGet_nat.mpr h1
  obtain ⟨_, hemb, _⟩ := C28_known e he j w _ hw hget
  obtain ⟨res, g1, g2, _, g3, _⟩ := similarity_answer hS he n6 (query := row) (by rw [h2]; exact hl) (k := k)
    (skips := [w]) (by rintro h; rw [h] at hw; simp at hw) hk
  refine ⟨res, by rw [wordSimilarity_eq hemb, g1]; rfl, g2, fun r hr => ?_⟩
  obtain ⟨_, i, row', _, g5, g6⟩ := g3 r.1 r.2 hr
  rw [g6]
  obtain ⟨a, ha, hsa⟩ := hB.dot row' row
  refine hsa.nan (Dot_nan ha ?_)
  have hl' : row'.length = cols := by
    rw [n6] at g5
    exact hwf _ (List.mem_of_getElem? (npGet_nat.mp g5))
  cases row with
  | nil => simp at h2; omega
  | cons x xs =>
    cases row' with
    | nil => simp at hl'; omega
    | cons y ys => exact ⟨_, List.mem_cons_self, Or.inr (h3 _ List.mem_cons_self)⟩

/-- If all norms are finite and at least `2⁻⁶⁰`, all answers have a number as similarity, they are in the order of these
numbers, and no word that is left out has a larger one.  (Missing: other vectors, above all vectors of zeros,
for which it is false.) -/
theorem C68_numbers_partial (hB : Binary32) (S : Sel F32) (hS : S.Admissible)
    (e : Embeddings F32) (he : BuiltEmb e) (cols : Nat) (words : List PyStr) (vs : List (List F32))
    (hN : Normalized cols words vs e) (hm : ∀ v ∈ vs, NormInRange v (NumOps.normAxis v)) (j : Nat) (w : PyStr) (v : List F32)
    (hw : words[j]? = some w) (hv : vs[j]? = some v) (k : Nat)
    (hk : k + knownSkips words [w] ≤ words.length) :
    ∃ res, e.wordSimilarity S w k = .ok (some res) ∧ res.length = k ∧ (∀ r ∈ res, Finite r.2) ∧
      (res.Pairwise fun a b => val b.2 ≤ val a.2) ∧
      ∀ (i : Nat) w' row q, words[i]? = some w' → w' ≠ w → w' ∉ res.map Prod.fst →
        e.storage.getOne i = .ok row → e.embedding w = .ok (some q) →
        Finite (NumOps.dot row q) ∧ ∀ r ∈ res, val (NumOps.dot row q) ≤ val r.2 := by
  have hN' := hN
  obtain ⟨n1, _, n3, _, _, rows, n6, n7, n8⟩ := hN
  subst n1
  have hwf : ∀ r ∈ rows, r.length = cols := by
    have := he.storage
    rw [n6] at this
    exact this.1
  have hlen : ∀ (i : Nat) v, vs[i]? = some v → v.length = cols := by
    intro i v hv
    have := hwf _ (List.mem_of_getElem? (n8 i v hv))
    simpa using this
  have hget : ∀ (i : Nat) v, vs[i]? = some v →
      e.storage.getOne i = .ok (v.map fun x => NumOps.div x (NumOps.normAxis v)) := by
    intro i v hv
    rw [n6]
    exact npGet_nat.mpr (n8 i v hv)
  obtain ⟨_, hemb, _⟩ := C28_known e he j w _ hw (hget j v hv)
  have hvs : ∀ {i : Nat} {w}, e.vocab.words[i]? = some w → ∃ v, vs[i]? = some v := by
    intro i w h
    have hi := (List.getElem?_eq_some_iff.mp h).1
    have hle : e.vocab.words.length ≤ vs.length := by
      have := he.words_le
      rw [n6] at this
      rw [← n7]
      exact this
    exact ⟨_, List.getElem?_eq_getElem (by omega)⟩
  have fin : ∀ (i : Nat) w row, e.vocab.words[i]? = some w → e.storage.getOne i = .ok row →
      Finite (NumOps.dot row (v.map fun x => NumOps.div x (NumOps.normAxis v))) := by
    intro i w row hi hrow
    obtain ⟨v', hv'⟩ := hvs hi
    rw [hget i v' hv'] at hrow
    cases hrow
    have hl' := hlen i v' hv'
    have hl := hlen j v hv
    exact (C66_score_partial hB v' v (by omega) (hm _ (List.mem_of_getElem? hv'))
      (hm _ (List.mem_of_getElem? hv))).1
  obtain ⟨res, h1, hT⟩ := C31_word_similarity S hS e he _ n6 w _ hemb k
    (by rintro h; rw [h] at hw; simp at hw) hk
    fun i w' row hi hrow _ => (not_nan_inf (fin i w' row hi hrow)).1
  have hfin : ∀ r ∈ res, Finite r.2 := by
    intro r hr
    obtain ⟨_, i, row, hi, hrow, hx⟩ := hT.scores r.1 r.2 hr
    rw [hx]
    exact fin i r.1 row hi hrow
  have hle : ∀ {a b : F32}, Finite a → Finite b → Score.lt a b = false → val b ≤ val a := by
    intro a b ha hb h
    refine le_of_not_gt fun h' => ?_
    have := (lt_iff (not_nan_inf ha).1 (not_nan_inf hb).1).mpr h'
    exact Bool.noConfusion (this.symm.trans h)
  refine ⟨res, h1, hT.length, hfin, ?_, ?_⟩
  · refine hT.sorted.imp_of_mem ?_
    intro a b ha hb h
    exact hle (hfin a ha) (hfin b hb) h
  · intro i w' row q hi hne hout hrow hq
    rw [hemb] at hq
    cases hq
    exact ⟨fin i w' row hi hrow, fun r hr => hle (hfin r hr) (fin i w' row hi hrow)
      (hT.best i w' row hi hrow (by simpa using hne) hout r hr)⟩

end

/-- Two words with a direction and two without. -/
def rowsZero : List (PyStr × List F32) :=
  [([97], [0x40400000, 0x40800000]), ([98], [0x40800000, 0x40400000]), ([121], [0, 0]), ([122], [0x80000000, 0])]

theorem w2vZero : ∀ p ∈ rowsZero, W2vWord p.1 := by
  intro p hp
  unfold rowsZero at hp
  simp only [List.mem_cons, List.not_mem_nil, or_false] at hp
  rcases hp with rfl | rfl | rfl | rfl <;>
  · refine ⟨?_, ?_, ?_, ?_⟩ <;> intro c hc <;> simp at hc <;> subst hc <;> decide

theorem zeroVec00 : ZeroVec [0, 0] ∧ ZeroVec [0x80000000, 0] := by
  have hz : F32.Finite 0 ∧ val 0 = 0 := ⟨finite_zero, val_zero⟩
  have hm : F32.Finite 0x80000000 ∧ val 0x80000000 = 0 :=
    ⟨by unfold F32.Finite; decide, val_zero_iff.mpr (by decide)⟩
  constructor <;> intro x hx <;> simp only [List.mem_cons, List.not_mem_nil, or_false] at hx <;>
    rcases hx with rfl | rfl <;> assumption

/-- The claim fails: `a` is (3, 4) and `b` is (4, 3), with similarity 0.96, but the nearest neighbour of `a` is
`y` or `z`, whose vectors are zero and whose similarity is NaN, in every arithmetic and for every partition. -/
theorem C68_refuted [NumOps F32] (hB : Binary32) : ∃ e : Embeddings F32,
    Rd.run (loadWord2vec false) (w2vFile 2 rowsZero) = .ok e ∧
    (∃ row q, e.storage.getOne 1 = .ok row ∧ e.embedding [97] = .ok (some q) ∧ Finite (NumOps.dot row q) ∧
      95 / 100 ≤ val (NumOps.dot row q)) ∧
    ∀ S : Sel F32, S.Admissible → ∃ w x, e.wordSimilarity S [97] 1 = .ok (some [(w, x)]) ∧
      (w = [121] ∨ w = [122]) ∧ NaN x := by
  obtain ⟨e, h1, hN⟩ := C38_load (K := F32) false 2 rowsZero w2vZero (by decide) (by decide)
    (by unfold ShapeOk; decide)
  have he := (loadWord2vec_built h1).1
  refine ⟨e, h1, ?_⟩
  have hN' := hN
  obtain ⟨n1, _, n3, _, _, rows, n6, n7, n8⟩ := hN
  have hget : ∀ (i : Nat) v, (rowsZero.map fun p => p.2.map (Codec.ofBits : F32 → F32))[i]? = some v →
      e.storage.getOne i = .ok (v.map fun x => NumOps.div x (NumOps.normAxis v)) := by
    intro i v hv
    rw [n6]
    exact npGet_nat.mpr (n8 i v hv)
  have g0 := hget 0 [0x40400000, 0x40800000] rfl
  have g1 := hget 1 [0x40800000, 0x40400000] rfl
  obtain ⟨_, hemb, _⟩ := C28_known e he 0 [97] _ (by rw [n1]; rfl) g0
  obtain ⟨s1, s2⟩ := C66_score_partial hB [0x40800000, 0x40400000] [0x40400000, 0x40800000] rfl
    ((C66_range hB _).1 Sample.moderate43).1 ((C66_range hB _).1 Sample.moderate34).1
  have e1 : exactCos (([0x40800000, 0x40400000] : List F32).map val)
      (([0x40400000, 0x40800000] : List F32).map val) = 24 / 25 := by
    simp only [List.map_cons, List.map_nil, val_three.2, val_four.2, exactCos, exactLen, exactDot]
    norm_num
  rw [e1] at s2
  refine ⟨⟨_, _, g1, hemb, s1, ?_⟩, fun S hS => ?_⟩
  · have h := (abs_le.mp s2).1
    have hb : (3 * (([0x40800000, 0x40400000] : List F32).length : ℝ) + 16) * 2⁻¹ ^ 24 ≤ 1 / 100 := by
      norm_num
    linarith
  · obtain ⟨res, r1, r2, r3⟩ := (C68_zero_answers hB S hS e he 2 _ _ hN' (by decide) [[121], [122]] (by decide)
      (by
        intro w hw
        simp only [List.mem_cons, List.not_mem_nil, or_false] at hw
        rcases hw with rfl | rfl
        exacts [⟨2, _, rfl, rfl, zeroVec00.1⟩, ⟨3, _, rfl, rfl, zeroVec00.2⟩]) 1).1 0 [97] rfl (by decide)
        (by decide)
    obtain ⟨⟨w, x⟩, rfl⟩ := List.length_eq_one_iff.mp r2
    have hx : Score.nan x = true := by
      cases h : Score.nan x with
      | true => rfl
      | false => simp [h] at r3
    have hql : (([0x40400000, 0x40800000] : List F32).map fun y =>
        NumOps.div y (NumOps.normAxis ([0x40400000, 0x40800000] : List F32))).length = 2 := rfl
    obtain ⟨res', t1, _, _, t2, _⟩ := similarity_answer hS he n6 hql (k := 1) (skips := [[97]])
      (by rw [n1]; decide) (by rw [n1]; decide)
    have r1' := r1
    rw [wordSimilarity_eq hemb] at r1'
    rw [show ((1 : Nat) : Int) = 1 from rfl] at r1' t1
    rw [t1] at r1'
    cases r1'
    obtain ⟨t3, i, row, t4, t5, t6⟩ := t2 w x List.mem_cons_self
    refine ⟨w, x, r1, ?_, isNaN_iff.mp hx⟩
    rw [n1] at t4
    match i, t4 with
    | 0, t4 => cases t4; exact absurd (List.mem_singleton.mpr rfl) t3
    | 1, t4 =>
      rw [g1] at t5
      cases t5
      rw [t6] at hx
      exact absurd (isNaN_iff.mp hx) s1.not_nan
    | 2, t4 => cases t4; exact Or.inl rfl
    | 3, t4 => cases t4; exact Or.inr rfl

/-! ### The hypotheses can be met -/

/-- `-0 < 0` is false and so is `0 < -0`; `1 < ∞`. -/
example : Score.lt (0x80000000 : F32) 0 = false ∧ Score.lt (0 : F32) 0x80000000 = false ∧
    Score.lt (0x3F800000 : F32) posInf = true ∧ Score.lt (0x3F800000 : F32) B32.nan = false := by decide +kernel

/-- Comparisons and arithmetic as in the theorem. -/
example : ∃ e : Embeddings F32, Rd.run (@loadWord2vec F32 b32Ops _ false) (w2vFile 2 rowsZero) = .ok e ∧
    ∃ w x, @Embeddings.wordSimilarity F32 b32Ops (@Sel.sorting F32 b32Score ⟨0⟩) e [97] 1 = .ok (some [(w, x)]) ∧
      NaN x := by
  obtain ⟨e, h1, _, h2⟩ := @C68_refuted b32Ops binary32_b32
  obtain ⟨w, x, h3, _, h4⟩ := h2 _ (@sorting_admissible F32 b32Score ⟨0⟩)
  exact ⟨e, h1, w, x, h3, h4⟩

/-- The query `y` itself -/
example : ∃ (e : Embeddings F32) (res : List (PyStr × F32)),
    Rd.run (@loadWord2vec F32 b32Ops _ false) (w2vFile 2 rowsZero) = .ok e ∧
    @Embeddings.wordSimilarity F32 b32Ops (@Sel.sorting F32 b32Score ⟨0⟩) e [121] 3 = .ok (some res) ∧
    res.length = 3 ∧ ∀ r ∈ res, NaN r.2 := by
  obtain ⟨e, h1, hN⟩ := @C38_load F32 b32Ops _ false 2 rowsZero w2vZero (by decide) (by decide)
    (by unfold ShapeOk; decide)
  obtain ⟨res, h2⟩ := @C68_zero_query b32Ops binary32_b32 _ (@sorting_admissible F32 b32Score ⟨0⟩) e
    (@loadWord2vec_built F32 b32Ops _ false _ _ h1).1 2 _ _ hN (by decide) 2 [121] [0, 0] rfl rfl zeroVec00.1 3
    (by decide)
  exact ⟨e, res, h1, h2⟩

end FF
