import Verif.Spec.Sel
import Verif.Props.C26
import Mathlib.Data.List.GetD
/-! Lemmas on similarity queries. -/

namespace FF

section
variable {α : Type}

/-- First position of a slice with step 1. -/
def loPos (n : Nat) : Option Int → Nat
  | none => 0
  | some a => (clampBound n 0 n a).toNat

/-- End of a slice with step 1. -/
def hiPos (n : Nat) : Option Int → Nat
  | none => n
  | some b => (clampBound n 0 n b).toNat

/-- A slice with step 1 takes and drops. -/
theorem npSlice_step1 (xs : List α) (a b : Option Int) :
    npSlice xs ⟨a, b, none⟩ = .ok ((xs.take (hiPos xs.length b)).drop (loPos xs.length a)) := by
  have h1 : (match a with
      | none => (0 : Int)
      | some a => clampBound xs.length 0 xs.length a) = ((loPos xs.length a : Nat) : Int) := by
    cases a with
    | none => rfl
    | some a =>
      simp only [loPos]
      unfold clampBound
      split <;> omega
  have h3 : (match b with
      | none => (xs.length : Int)
      | some b => clampBound xs.length 0 xs.length b) = ((hiPos xs.length b : Nat) : Int) := by
    cases b with
    | none => rfl
    | some b =>
      simp only [hiPos]
      unfold clampBound
      split <;> omega
  have h5 : hiPos xs.length b ≤ xs.length := by
    cases b with
    | none => exact le_rfl
    | some b =>
      simp only [hiPos]
      unfold clampBound
      split <;> omega
  obtain ⟨ys, hys⟩ := npSlice_total (xs := xs) (s := ⟨a, b, none⟩) (by simp)
  rw [hys]
  congr 1
  unfold npSlice PySlice.indices at hys
  simp only [Option.getD_none, one_ne_zero, if_false, res_bind_ok,
    show ¬ ((1 : Int) < 0) by omega] at hys
  have hys : mapRes (fun i : Int => match xs[i.toNat]? with
      | some x => Except.ok x
      | none => Except.error PyErr.indexError)
      (pyRange (loPos xs.length a : Nat) (hiPos xs.length b : Nat) 1) = .ok ys := by
    rw [← h1, ← h3]
    exact hys
  clear h1 h3
  generalize loPos xs.length a = lo at *
  generalize hiPos xs.length b = hi at *
  have hys := mapRes_ok.mp hys
  have hlen := hys.length_eq
  unfold pyRange at hys hlen
  rw [List.length_map, List.length_range] at hlen
  have hrl : rangeLen lo hi 1 = hi - lo := by
    have := rangeLen_pos (a := (lo : Int)) (b := (hi : Int)) (st := 1) (by omega)
    have h6 := this (hi - lo)
    have h7 := this (hi - lo - 1)
    omega
  apply List.ext_getElem?
  intro t
  by_cases ht : t < ys.length
  · have h6 := (List.forall₂_iff_get.mp hys).2 t (by simpa using (hlen ▸ ht)) ht
    simp only [List.get_eq_getElem, List.getElem_map, List.getElem_range] at h6
    have h7 : ((lo : Int) + (t : Int) * 1).toNat = lo + t := by omega
    rw [h7] at h6
    rw [List.getElem?_eq_getElem ht, List.getElem?_drop, List.getElem?_take_of_lt (by omega)]
    cases h8 : xs[lo + t]? with
    | none => rw [h8] at h6; cases h6
    | some x => rw [h8] at h6; simpa using (Except.ok.inj h6).symm
  · rw [List.getElem?_eq_none (by omega), List.getElem?_eq_none]
    simp
    omega

end

section
variable {K : Type} [NumOps K]

theorem skipIndices_mem {v : Vocab} (h : BuiltVocab v) {skips : List PyStr} {i : Nat} :
    i ∈ v.skipIndices skips ↔ ∃ w ∈ skips, v.words[i]? = some w := by
  unfold Vocab.skipIndices
  rw [List.mem_dedup, List.mem_filterMap]
  simp only [h.get]

theorem skipIndices_length {v : Vocab} (h : BuiltVocab v) (skips : List PyStr) :
    (v.skipIndices skips).length = knownSkips v.words skips := by
  have hp : (v.skipIndices skips).Perm
      ((v.words.filter fun w => decide (w ∈ skips)).map fun w => v.words.idxOf w) := by
    rw [List.perm_ext_iff_of_nodup]
    · intro i
      rw [skipIndices_mem h, List.mem_map]
      constructor
      · rintro ⟨w, hw, hi⟩
        refine ⟨w, ?_, ?_⟩
        · rw [List.mem_filter]
          exact ⟨List.mem_of_getElem? hi, by simpa using hw⟩
        · have hlt := (List.getElem?_eq_some_iff.mp hi)
          obtain ⟨h1, h2⟩ := hlt
          rw [← h2]
          exact h.nodup.idxOf_getElem i h1
      · rintro ⟨w, hw, rfl⟩
        rw [List.mem_filter] at hw
        refine ⟨w, by simpa using hw.2, ?_⟩
        rw [List.getElem?_eq_getElem (List.idxOf_lt_length_iff.mpr hw.1), List.getElem_idxOf]
    · unfold Vocab.skipIndices
      exact List.nodup_dedup _
    · refine List.Nodup.map_on ?_ (h.nodup.filter _)
      intro x hx y hy hxy
      exact (List.idxOf_inj (List.mem_filter.mp hx).1).mp hxy
  rw [hp.length_eq, List.length_map]
  rfl

/-- The loop over the partition collects the words that are not skipped. -/
theorem pushAll_perm {S : Sel K} (hpush : ∀ heap x, (S.heappush heap x).Perm (x :: heap))
    {words : List PyStr} {sims : List K} {skip : List Nat} (hl : sims.length = words.length)
    {is : List Nat} (his : ∀ i ∈ is, i < words.length) (heap : List (PyStr × K)) :
    ∃ h', pushAll S words sims skip heap is = .ok h' ∧
      h'.Perm ((is.filter fun i => decide (i ∉ skip)).map
        (fun i => (words.getD i [], sims.getD i NumOps.zero)) ++ heap) := by
  induction is generalizing heap with
  | nil => exact ⟨heap, rfl, by simp⟩
  | cons i is ih =>
    have hi := his i (by simp)
    unfold pushAll
    by_cases hs : i ∈ skip
    · rw [if_pos hs]
      obtain ⟨h', h1, h2⟩ := ih (fun j hj => his j (List.mem_cons_of_mem _ hj)) heap
      refine ⟨h', h1, ?_⟩
      rw [List.filter_cons_of_neg (by simpa using hs)]
      exact h2
    · rw [if_neg hs, List.getElem?_eq_getElem hi, List.getElem?_eq_getElem (hl ▸ hi)]
      obtain ⟨h', h1, h2⟩ := ih (fun j hj => his j (List.mem_cons_of_mem _ hj))
        (S.heappush heap (words[i], sims[i]'(hl ▸ hi)))
      refine ⟨h', h1, ?_⟩
      rw [List.filter_cons_of_pos (by simpa using hs), List.map_cons]
      rw [List.getD_eq_getElem _ _ hi, List.getD_eq_getElem _ _ (hl ▸ hi)]
      refine h2.trans ?_
      refine ((hpush heap _).append_left _).trans ?_
      exact List.perm_middle

variable [Score K]

omit [NumOps K] in
theorem before_trans {a b c : K} (h1 : Score.before a b = false) (h2 : Score.before b c = false) :
    Score.before a c = false := by
  unfold Score.before at *
  simp only [Bool.or_eq_false_iff, Bool.and_eq_false_iff, Bool.not_eq_false'] at *
  obtain ⟨h1, h1'⟩ := h1
  obtain ⟨h2, h2'⟩ := h2
  cases hb : Score.nan b with
  | false =>
    refine ⟨Score.trans _ _ _ hb h1 h2, ?_⟩
    rw [hb] at h2'
    exact Or.inl (by simpa using h2')
  | true =>
    rw [hb] at h1'
    have ha : Score.nan a = true := by simpa using h1'
    exact ⟨Score.nan_left _ _ ha, Or.inr ha⟩

omit [NumOps K] in
theorem before_total (a b : K) : Score.before a b = false ∨ Score.before b a = false := by
  unfold Score.before
  cases hl : Score.lt a b with
  | true =>
    right
    rw [Score.asymm _ _ hl]
    cases ha : Score.nan a with
    | true => rw [Score.nan_left _ _ ha] at hl; cases hl
    | false => rfl
  | false =>
    cases hl' : Score.lt b a with
    | true =>
      left
      cases hb : Score.nan b with
      | true => rw [Score.nan_left _ _ hb] at hl'; cases hl'
      | false => rfl
    | false => cases Score.nan a <;> cases Score.nan b <;> simp

omit [NumOps K] in
theorem lt_of_before {a b : K} (h : Score.before a b = false) : Score.lt a b = false := by
  unfold Score.before at h
  exact (Bool.or_eq_false_iff.mp h).1

/-- The candidates that are left from a partition. -/
theorem select_heap {S : Sel K} (hS : S.Admissible) {words : List PyStr} (hnd : words.Nodup)
    {sims : List K} (hl : sims.length = words.length) {skip : List Nat}
    {j : Nat} {p : List Nat} (hp : Partitioned sims j p) {k : Nat}
    (hk : k + skip.length ≤ words.length - j) :
    ∃ heap, pushAll S words sims skip [] (p.drop j) = .ok heap ∧ k ≤ heap.length ∧
      heap.length ≤ words.length - j ∧
      (heap.map Prod.fst).Nodup ∧
      (∀ w x, (w, x) ∈ heap → ∃ i : Nat, i ∉ skip ∧ words[i]? = some w ∧ sims[i]? = some x) ∧
      (∀ (i : Nat) w x, words[i]? = some w → sims[i]? = some x → i ∉ skip →
        (w, x) ∈ heap ∨ ∀ r ∈ heap, Score.before r.2 x = false) := by
  obtain ⟨hperm, pivot, -, hpiv⟩ := hp
  have hlt : ∀ i ∈ p.drop j, i < words.length := fun i hi => by
    rw [← hl]
    exact List.mem_range.mp (hperm.mem_iff.mp (List.mem_of_mem_drop hi))
  obtain ⟨heap, h1, h2⟩ := pushAll_perm hS.push (skip := skip) hl hlt []
  rw [List.append_nil] at h2
  have hlen : heap.length = ((p.drop j).filter fun i => decide (i ∉ skip)).length := by
    rw [h2.length_eq, List.length_map]
  have hpl : p.length = words.length := by rw [hperm.length_eq, List.length_range, hl]
  refine ⟨heap, h1, ?_, ?_, ?_, ?_, ?_⟩
  · have hpd : (p.drop j).Nodup :=
      (List.Nodup.sublist (List.drop_sublist _ _) (hperm.nodup_iff.mpr List.nodup_range))
    have hc : ((p.drop j).filter fun i => decide (i ∈ skip)).length ≤ skip.length :=
      (List.subperm_of_subset (hpd.filter _) fun i hi => by
        simpa using (List.mem_filter.mp hi).2).length_le
    have hsum := List.length_eq_length_filter_add (l := p.drop j) (fun i => decide (i ∈ skip))
    rw [List.length_drop] at hsum
    have heq : ((p.drop j).filter fun i => !decide (i ∈ skip)) =
        ((p.drop j).filter fun i => decide (i ∉ skip)) := by
      congr 1; funext i; simp
    rw [heq] at hsum
    omega
  · rw [hlen]
    refine (List.length_filter_le _ _).trans ?_
    rw [List.length_drop, hpl]
  · rw [(h2.map Prod.fst).nodup_iff, List.map_map]
    refine List.Nodup.map_on ?_ ((List.Nodup.sublist (List.drop_sublist _ _)
      (hperm.nodup_iff.mpr List.nodup_range)).filter _)
    intro a ha b hb hab
    have ha' := hlt a (List.mem_filter.mp ha).1
    have hb' := hlt b (List.mem_filter.mp hb).1
    simp only [Function.comp, List.getD_eq_getElem _ _ ha', List.getD_eq_getElem _ _ hb'] at hab
    exact (hnd.getElem_inj_iff).mp hab
  · intro w x hm
    obtain ⟨i, hi, he⟩ := List.mem_map.mp (h2.mem_iff.mp hm)
    obtain ⟨hi1, hi2⟩ := List.mem_filter.mp hi
    have hilt := hlt i hi1
    rw [List.getD_eq_getElem _ _ hilt, List.getD_eq_getElem _ _ (hl ▸ hilt)] at he
    refine ⟨i, by simpa using hi2, ?_, ?_⟩
    · rw [List.getElem?_eq_getElem hilt]
      exact congrArg some (congrArg Prod.fst he)
    · rw [List.getElem?_eq_getElem (hl ▸ hilt)]
      exact congrArg some (congrArg Prod.snd he)
  · intro i w x hw hx hns
    obtain ⟨hi, hw'⟩ := List.getElem?_eq_some_iff.mp hw
    obtain ⟨hix, hx'⟩ := List.getElem?_eq_some_iff.mp hx
    have hip : i ∈ p := hperm.mem_iff.mpr (List.mem_range.mpr hix)
    obtain ⟨t, ht, hti⟩ := List.mem_iff_getElem.mp hip
    have hpt : p[t]? = some i := by rw [List.getElem?_eq_getElem ht, hti]
    by_cases htj : t < j
    · refine Or.inr fun r hm => before_trans ?_ ((hpiv t i x hpt hx).1 htj)
      obtain ⟨rw', rx⟩ := r
      obtain ⟨i', hi', he⟩ := List.mem_map.mp (h2.mem_iff.mp hm)
      have hi1 := (List.mem_filter.mp hi').1
      have hilt := hlt i' hi1
      obtain ⟨t', ht', hti'⟩ := List.mem_iff_getElem.mp hi1
      rw [List.getElem_drop] at hti'
      have hpt' : p[j + t']? = some i' := by
        rw [List.length_drop] at ht'
        rw [List.getElem?_eq_getElem (by omega), hti']
      refine (hpiv (j + t') i' rx hpt' ?_).2 (by omega)
      rw [List.getD_eq_getElem _ _ hilt, List.getD_eq_getElem _ _ (hl ▸ hilt)] at he
      rw [List.getElem?_eq_getElem (hl ▸ hilt)]
      exact congrArg some (congrArg Prod.snd he)
    · have hid : i ∈ p.drop j := by
        rw [List.mem_iff_getElem?]
        exact ⟨t - j, by rw [List.getElem?_drop, ← hpt]; congr 1; omega⟩
      refine Or.inl (h2.mem_iff.mpr (List.mem_map.mpr
        ⟨i, List.mem_filter.mpr ⟨hid, by simpa using hns⟩, ?_⟩))
      rw [List.getD_eq_getElem _ _ hi, List.getD_eq_getElem _ _ hix, hw', hx']

end

end FF

namespace FF

/-- The hypothesis on numpy and heapq can be met. -/
theorem sorting_admissible (K : Type) [Score K] [Inhabited K] : (Sel.sorting K).Admissible := by
  refine ⟨?_, ?_, fun _ => Or.inl rfl, fun _ _ => .rfl, ?_⟩
  · intro xs kth j hj hkth
    have hne : ¬ (xs ≠ [] ∧ (kth < -xs.length ∨ (xs.length : Int) ≤ kth)) := by omega
    refine ⟨_, by unfold Sel.sorting; simp only; rw [if_neg hne], List.perm_insertionSort _ _, ?_⟩
    set p := (List.range xs.length).insertionSort fun a b =>
      Score.before (xs.getD b default) (xs.getD a default) = false with hp
    have hperm : p.Perm (List.range xs.length) := List.perm_insertionSort _ _
    have hpw : p.Pairwise fun a b => Score.before (xs.getD b default) (xs.getD a default) = false := by
      have : Std.Total (fun a b : Nat => Score.before (xs.getD b default) (xs.getD a default) = false) :=
        ⟨fun a b => before_total _ _⟩
      have : IsTrans Nat (fun a b : Nat => Score.before (xs.getD b default) (xs.getD a default) = false) :=
        ⟨fun a b c h1 h2 => before_trans h2 h1⟩
      exact List.pairwise_insertionSort _ _
    have hlen : p.length = xs.length := by rw [hperm.length_eq, List.length_range]
    have hlt : ∀ i ∈ p, i < xs.length := fun i hi => List.mem_range.mp (hperm.mem_iff.mp hi)
    have hjp : j < p.length := by omega
    refine ⟨xs.getD p[j] default, ⟨p[j], List.getElem?_eq_getElem hjp, ?_⟩, ?_⟩
    · have := hlt _ (List.getElem_mem hjp)
      rw [List.getElem?_eq_getElem this, List.getD_eq_getElem _ _ this]
    · intro t i x hti hix
      obtain ⟨ht, rfl⟩ := List.getElem?_eq_some_iff.mp hti
      have hx : xs.getD p[t] default = x := by
        obtain ⟨h1, h2⟩ := List.getElem?_eq_some_iff.mp hix
        rw [List.getD_eq_getElem _ _ h1, h2]
      rw [← hx]
      rw [List.pairwise_iff_getElem] at hpw
      refine ⟨fun h => hpw t j ht hjp h, fun h => ?_⟩
      rcases Nat.eq_or_lt_of_le h with h | h
      · subst h
        rcases before_total (xs.getD p[j] default) (xs.getD p[j] default) with h | h <;> exact h
      · exact hpw j t hjp ht h
  · intro xs kth h0 h
    unfold Sel.sorting
    simp only
    rw [if_pos ⟨h0, h⟩]
  · intro k heap
    unfold Sel.sorting
    simp only
    refine ⟨by rw [List.length_take, List.length_insertionSort], (heap.insertionSort fun a b =>
      Score.before a.2 b.2 = false).drop k.toNat, ?_, fun _ => ?_⟩
    · rw [List.take_append_drop]
      exact List.perm_insertionSort _ _
    · rw [List.take_append_drop]
      have : Std.Total (fun a b : PyStr × K => Score.before a.2 b.2 = false) := ⟨fun a b => before_total _ _⟩
      have : IsTrans (PyStr × K) (fun a b => Score.before a.2 b.2 = false) :=
        ⟨fun a b c h1 h2 => before_trans h1 h2⟩
      exact (List.pairwise_insertionSort (fun a b : PyStr × K => Score.before a.2 b.2 = false) heap).imp
        fun h => lt_of_before h

section
variable {K : Type} [NumOps K]

/-- The similarities `_similarity` computes for an `NdArray`. -/
def simsOf (m : Mat K) (n : Nat) (query : List K) : List K :=
  (m.rows.take n).map fun r => NumOps.dot r query

theorem simsOf_get {m : Mat K} {n i : Nat} {query : List K} (hi : i < n) {x : K} :
    (simsOf m n query)[i]? = some x ↔ ∃ row, (Storage.nd m).getOne i = .ok row ∧
      x = NumOps.dot row query := by
  unfold simsOf Storage.getOne
  rw [List.getElem?_map, List.getElem?_take_of_lt hi]
  simp only [npGet_nat, Option.map_eq_some_iff]
  constructor
  · rintro ⟨r, h1, h2⟩; exact ⟨r, h1, h2.symm⟩
  · rintro ⟨r, h1, h2⟩; exact ⟨r, h1, h2.symm⟩

/-- The part of `_similarity` before the partition. -/
theorem similarity_nd (S : Sel K) {e : Embeddings K} (he : BuiltEmb e) {m : Mat K}
    (hm : e.storage = .nd m) {query : List K} (hq : query.length = m.cols) (k : Int)
    (skips : List PyStr) :
    (simsOf m e.vocab.words.length query).length = e.vocab.words.length ∧
    e.similarity S query k skips = (do
      let part ← S.argpartition (simsOf m e.vocab.words.length query)
        (-k - (e.vocab.skipIndices skips).length)
      let part ← npSlice part ⟨some (-k - (e.vocab.skipIndices skips).length), none, none⟩
      let heap ← pushAll S e.vocab.words (simsOf m e.vocab.words.length query)
        (e.vocab.skipIndices skips) [] part
      return S.nlargest k heap) := by
  have hrows := (built_inv he).1
  rw [hm] at hrows
  have hub := upperBound_ge he.vocab
  have hge : e.vocab.words.length ≤ m.rows.length := by
    have : (m.rows.length : Int) = e.vocab.upperBound := hrows
    omega
  refine ⟨by simp [simsOf, hge], ?_⟩
  unfold Embeddings.similarity Storage.slice
  rw [hm]
  simp only [PySlice.upTo]
  rw [npSlice_step1]
  have hhi : hiPos m.rows.length (some (e.vocab.len : Int)) = e.vocab.words.length := by
    rw [he.vocab.len]
    simp only [hiPos]
    unfold clampBound
    split <;> omega
  rw [hhi]
  show (Storage.dot (.nd ⟨m.cols, (m.rows.take e.vocab.words.length).drop 0⟩) query >>= _) = _
  rw [List.drop_zero]
  unfold Storage.dot
  simp only
  rw [if_neg (by simpa using hq.symm)]
  rfl

end

end FF

namespace FF

section
variable {K : Type} [NumOps K]

theorem foldl_vadd_length {n : Nat} {rows : List (List K)} (h : ∀ r ∈ rows, r.length = n)
    {a : List K} (ha : a.length = n) : (rows.foldl vadd a).length = n := by
  induction rows generalizing a with
  | nil => exact ha
  | cons r rows ih =>
    refine ih (fun x hx => h x (List.mem_cons_of_mem _ hx)) ?_
    unfold vadd
    rw [List.length_zipWith, ha, h r (by simp)]
    simp

theorem embed_length {e : Embeddings K} (hs : StorageWF e.storage) {idx : Idx}
    {r : List K × Option K} (h : e.embed idx = .ok r) : r.1.length = e.storage.nCols := by
  unfold Embeddings.embed at h
  cases idx with
  | one i =>
    simp only at h
    obtain ⟨v, h1, h⟩ := res_bind_inv h
    have hl := getOne_length hs h1
    cases hn : e.norms with
    | none => rw [hn] at h; cases h; exact hl
    | some ns =>
      rw [hn] at h
      obtain ⟨n, _, h⟩ := res_bind_inv h
      cases h; exact hl
  | many is =>
    simp only at h
    obtain ⟨rows, h1, h⟩ := res_bind_inv h
    cases h
    rw [getMany_eq] at h1
    have hrows : ∀ r ∈ rows, r.length = e.storage.nCols := by
      intro r hr
      obtain ⟨t, ht, rfl⟩ := List.getElem_of_mem hr
      have h2 := mapRes_ok.mp h1
      have h3 := (List.forall₂_iff_get.mp h2).2 t (by rw [h2.length_eq]; exact ht) ht
      exact getOne_length hs h3
    show (vdiv _ _).length = _
    unfold vdiv
    rw [List.length_map]
    cases rows with
    | nil => simp [addReduce]
    | cons r rows =>
      exact foldl_vadd_length (fun x hx => hrows x (List.mem_cons_of_mem _ hx)) (hrows r (by simp))

theorem embedding_length {e : Embeddings K} (hs : StorageWF e.storage) {w : PyStr} {v : List K}
    (h : e.embedding w = .ok (some v)) : v.length = e.storage.nCols := by
  unfold Embeddings.embedding at h
  obtain ⟨o, _, h⟩ := res_bind_inv h
  cases o with
  | none => cases h
  | some idx =>
    simp only at h
    obtain ⟨r, h1, h⟩ := res_bind_inv h
    cases h
    exact embed_length hs h1

/-- The words of an answer are known and not skipped, for every `k` and every order. -/
theorem pushAll_mem {S : Sel K} (hpush : ∀ heap x, (S.heappush heap x).Perm (x :: heap))
    {words : List PyStr} {sims : List K} {skip : List Nat} {is : List Nat}
    {heap heap' : List (PyStr × K)} (h : pushAll S words sims skip heap is = .ok heap') :
    ∀ r ∈ heap', r ∈ heap ∨ ∃ i : Nat, i ∉ skip ∧ words[i]? = some r.1 ∧ sims[i]? = some r.2 := by
  induction is generalizing heap with
  | nil => cases h; exact fun r hr => Or.inl hr
  | cons i is ih =>
    unfold pushAll at h
    by_cases hs : i ∈ skip
    · rw [if_pos hs] at h; exact ih h
    · rw [if_neg hs] at h
      cases hw : words[i]? with
      | none => rw [hw] at h; cases h
      | some w =>
        cases hx : sims[i]? with
        | none => rw [hw, hx] at h; cases h
        | some x =>
          rw [hw, hx] at h
          intro r hr
          rcases ih h r hr with h1 | h1
          · rcases List.mem_cons.mp ((hpush heap (w, x)).mem_iff.mp h1) with h2 | h2
            · subst h2; exact Or.inr ⟨i, hs, hw, hx⟩
            · exact Or.inl h2
          · exact Or.inr h1

theorem similarity_mem [Score K] {S : Sel K} (hS : S.Admissible)
    {e : Embeddings K} (he : BuiltEmb e) {query : List K} {k : Int} {skips : List PyStr}
    {res : List (PyStr × K)} (h : e.similarity S query k skips = .ok res) :
    res.length ≤ k.toNat ∧ ∀ r ∈ res, r.1 ∈ e.vocab.words ∧ r.1 ∉ skips := by
  unfold Embeddings.similarity at h
  obtain ⟨words, _, h⟩ := res_bind_inv h
  obtain ⟨sims, _, h⟩ := res_bind_inv h
  simp only at h
  obtain ⟨part, _, h⟩ := res_bind_inv h
  obtain ⟨part', _, h⟩ := res_bind_inv h
  obtain ⟨heap, h1, h⟩ := res_bind_inv h
  cases h
  obtain ⟨hlen, rest, hperm, _⟩ := hS.largest k heap
  refine ⟨by rw [hlen]; omega, fun r hr => ?_⟩
  have hr' : r ∈ heap := hperm.mem_iff.mp (List.mem_append_left _ hr)
  rcases pushAll_mem hS.push h1 r hr' with h2 | ⟨i, h3, h4, _⟩
  · cases h2
  · exact ⟨List.mem_of_getElem? h4, fun hs => h3 ((skipIndices_mem he.vocab).mpr ⟨_, hs, h4⟩)⟩

theorem wordSimilarity_eq {S : Sel K} {e : Embeddings K} {w : PyStr} {k : Int} {v : List K}
    (h : e.embedding w = .ok (some v)) :
    e.wordSimilarity S w k = (e.similarity S v k [w]).map some := by
  unfold Embeddings.wordSimilarity
  rw [h]
  simp only [res_bind_ok]
  cases e.similarity S v k [w] <;> rfl

theorem analogy_eq {S : Sel K} {e : Embeddings K} {w1 w2 w3 : PyStr} {k : Int}
    {skip : Option (List PyStr)} {a b c : List K}
    (ha : e.embedding w1 = .ok (some a)) (hb : e.embedding w2 = .ok (some b))
    (hc : e.embedding w3 = .ok (some c)) :
    e.analogy S w1 w2 w3 k skip =
      (e.similarity S (analogyVec a b c) k (skip.getD [w1, w2, w3])).map some := by
  unfold Embeddings.analogy
  rw [ha, hb, hc]
  simp only [res_bind_ok]
  cases e.similarity S (analogyVec a b c) k (skip.getD [w1, w2, w3]) <;> rfl

theorem analogyVec_length {a b c : List K} {n : Nat} (ha : a.length = n) (hb : b.length = n)
    (hc : c.length = n) : (analogyVec a b c).length = n := by
  unfold analogyVec vdiv vadd vsub
  simp [ha, hb, hc]

/-- The candidates `_similarity` chooses the answers from. -/
theorem similarity_heap [Score K] {S : Sel K} (hS : S.Admissible) {e : Embeddings K} (he : BuiltEmb e)
    {m : Mat K} (hm : e.storage = .nd m) {query : List K} (hq : query.length = m.cols) {k : Nat}
    {skips : List PyStr} (h0 : e.vocab.words ≠ [])
    (hk : k + knownSkips e.vocab.words skips ≤ e.vocab.words.length) :
    ∃ heap, e.similarity S query k skips = .ok (S.nlargest k heap) ∧ k ≤ heap.length ∧
      (k + knownSkips e.vocab.words skips ≠ 0 → heap.length ≤ k + knownSkips e.vocab.words skips) ∧
      (heap.map Prod.fst).Nodup ∧
      (∀ w x, (w, x) ∈ heap → w ∉ skips ∧ ∃ (i : Nat) (row : List K),
        e.vocab.words[i]? = some w ∧ e.storage.getOne i = .ok row ∧ x = NumOps.dot row query) ∧
      (∀ (i : Nat) w row, e.vocab.words[i]? = some w → e.storage.getOne i = .ok row → w ∉ skips →
        (w, NumOps.dot row query) ∈ heap ∨
          ∀ r ∈ heap, Score.before r.2 (NumOps.dot row query) = false) := by
  obtain ⟨hl, heq⟩ := similarity_nd S he hm hq (k : Int) skips
  rw [heq]
  have hsl := skipIndices_length he.vocab skips
  have hn : 0 < e.vocab.words.length := List.length_pos_iff.mpr h0
  obtain ⟨j, hj, hkth, hjk, hjk', hlo⟩ : ∃ j : Nat, j < e.vocab.words.length ∧
      ((-(k : Int) - (e.vocab.skipIndices skips).length) = j ∨
        (-(k : Int) - (e.vocab.skipIndices skips).length) = j - e.vocab.words.length) ∧
      k + (e.vocab.skipIndices skips).length ≤ e.vocab.words.length - j ∧
      (k + (e.vocab.skipIndices skips).length ≠ 0 →
        e.vocab.words.length - j = k + (e.vocab.skipIndices skips).length) ∧
      loPos e.vocab.words.length (some (-(k : Int) - (e.vocab.skipIndices skips).length)) = j := by
    by_cases hz : k + (e.vocab.skipIndices skips).length = 0
    · refine ⟨0, hn, by omega, by omega, fun h => absurd hz h, ?_⟩
      simp only [loPos, clampBound]
      split <;> omega
    · refine ⟨e.vocab.words.length - (k + (e.vocab.skipIndices skips).length), by omega, by omega,
        by omega, by omega, ?_⟩
      simp only [loPos, clampBound]
      split <;> omega
  obtain ⟨p, hp, hpart⟩ := hS.inBounds _ _ j (by rw [hl]; exact hj) (by rw [hl]; exact hkth)
  have hpl : p.length = e.vocab.words.length := by
    rw [hpart.1.length_eq, List.length_range, hl]
  rw [hp, res_bind_ok, npSlice_step1, res_bind_ok, hpl, hlo]
  simp only [hiPos]
  rw [List.take_of_length_le (by omega)]
  obtain ⟨heap, h1, h2, h2', h3, h5, h6⟩ := select_heap hS he.vocab.nodup hl hpart
    (skip := e.vocab.skipIndices skips) (k := k) hjk
  rw [h1]
  refine ⟨heap, rfl, h2, fun h => ?_, h3, ?_, ?_⟩
  · rw [← hsl] at h ⊢
    rw [← hjk' h]
    exact h2'
  · intro w x hwx
    obtain ⟨i, hns, hw, hx⟩ := h5 w x hwx
    have hi := (List.getElem?_eq_some_iff.mp hw).1
    obtain ⟨row, hr, hxx⟩ := (simsOf_get hi).mp hx
    refine ⟨fun hws => hns ((skipIndices_mem he.vocab).mpr ⟨w, hws, hw⟩), i, row, hw, ?_, hxx⟩
    rw [hm]; exact hr
  · intro i w row hw hr hns
    have hi := (List.getElem?_eq_some_iff.mp hw).1
    rw [hm] at hr
    refine h6 i w _ hw ((simsOf_get hi).mpr ⟨row, hr, rfl⟩) ?_
    intro hmem
    obtain ⟨w', h7, h8⟩ := (skipIndices_mem he.vocab).mp hmem
    rw [hw] at h8
    cases h8
    exact hns h7

theorem similarity_answer [Score K] {S : Sel K} (hS : S.Admissible) {e : Embeddings K} (he : BuiltEmb e)
    {m : Mat K} (hm : e.storage = .nd m) {query : List K} (hq : query.length = m.cols) {k : Nat}
    {skips : List PyStr} (h0 : e.vocab.words ≠ [])
    (hk : k + knownSkips e.vocab.words skips ≤ e.vocab.words.length) :
    ∃ res, e.similarity S query k skips = .ok res ∧ res.length = k ∧ (res.map Prod.fst).Nodup ∧
      (∀ w x, (w, x) ∈ res → w ∉ skips ∧ ∃ (i : Nat) (row : List K),
        e.vocab.words[i]? = some w ∧ e.storage.getOne i = .ok row ∧ x = NumOps.dot row query) ∧
      (Comparable e query skips → IsTopK e query skips k res) := by
  obtain ⟨heap, h1, h2, _, h3, h4, h5⟩ := similarity_heap hS he hm hq h0 hk
  obtain ⟨g1, rest, g2, g3⟩ := hS.largest k heap
  have hsub : ∀ r ∈ S.nlargest k heap, r ∈ heap := fun r hr => g2.mem_iff.mp (List.mem_append_left _ hr)
  have hlen : (S.nlargest k heap).length = k := by rw [g1]; omega
  have hnd : ((S.nlargest k heap).map Prod.fst).Nodup := by
    have := (g2.map Prod.fst).nodup_iff.mpr h3
    rw [List.map_append] at this
    exact (List.nodup_append.mp this).1
  refine ⟨_, h1, hlen, hnd, fun w x hwx => h4 w x (hsub _ hwx), fun hc => ?_⟩
  have hpw := g3 (fun r hr => by
    obtain ⟨g4, i, row, g5, g6, g7⟩ := h4 r.1 r.2 hr
    rw [g7]
    exact hc i r.1 row g5 g6 g4)
  refine ⟨hlen, hnd, (List.pairwise_append.mp hpw).1, fun w x hwx => h4 w x (hsub _ hwx), ?_⟩
  intro i w row hw hr hns hnr r hrr
  rcases h5 i w row hw hr hns with h | h
  · rcases List.mem_append.mp (g2.mem_iff.mpr h) with h | h
    · exact absurd (List.mem_map.mpr ⟨_, h, rfl⟩) hnr
    · exact (List.pairwise_append.mp hpw).2.2 r hrr _ h
  · exact lt_of_before (h r (hsub r hrr))

end

end FF
