import Mathlib.Data.List.Basic
import Verif.Model.Indexers
/-! The common loop of `ngrams` and the `subword_indices` methods. -/

namespace FF

/-- Start and length of the substrings visited by the loops, in loop order. -/
def occs (len lo hi : Nat) : List (Nat × Nat) :=
  (List.range (len + 1 - lo)).flatMap fun i =>
    ((rangeDown (min hi len) lo).filter fun j => j + i ≤ len).map fun j => (i, j)

theorem mem_rangeDown {hi lo j : Nat} (h0 : 0 < lo) : j ∈ rangeDown hi lo ↔ lo ≤ j ∧ j ≤ hi := by
  unfold rangeDown
  simp only [List.mem_map, List.mem_range]
  constructor
  · rintro ⟨a, ha, rfl⟩; omega
  · rintro ⟨h1, h2⟩; exact ⟨hi - j, by omega, by omega⟩

theorem rangeDown_sorted (hi lo : Nat) (h0 : 0 < lo) : (rangeDown hi lo).Pairwise (fun a b => b < a) := by
  unfold rangeDown
  rw [List.pairwise_map]
  refine List.Pairwise.imp_of_mem ?_ (List.pairwise_lt_range (n := hi + 1 - lo))
  intro a b ha hb h
  simp only [List.mem_range] at ha hb
  omega

theorem mem_occs {len lo hi i j : Nat} (h0 : 0 < lo) :
    (i, j) ∈ occs len lo hi ↔ lo ≤ j ∧ j ≤ hi ∧ i + j ≤ len := by
  unfold occs
  simp only [List.mem_flatMap, List.mem_range, List.mem_map, List.mem_filter, mem_rangeDown h0,
    decide_eq_true_eq, Prod.mk.injEq]
  constructor
  · rintro ⟨a, ha, b, ⟨⟨h1, h2⟩, h3⟩, rfl, rfl⟩; omega
  · rintro ⟨h1, h2, h3⟩
    exact ⟨i, by omega, j, by omega, rfl, rfl⟩

theorem occs_sorted (len lo hi : Nat) (h0 : 0 < lo) :
    (occs len lo hi).Pairwise (fun p q => p.1 < q.1 ∨ p.1 = q.1 ∧ q.2 < p.2) := by
  unfold occs
  rw [List.pairwise_flatMap]
  constructor
  · intro i _
    rw [List.pairwise_map]
    exact ((rangeDown_sorted _ _ h0).filter _).imp fun h => Or.inr ⟨rfl, h⟩
  · refine List.pairwise_lt_range.imp ?_
    intro a b hab x hx y hy
    simp only [List.mem_map] at hx hy
    obtain ⟨_, _, rfl⟩ := hx
    obtain ⟨_, _, rfl⟩ := hy
    exact Or.inl hab

theorem loop_eq_flatMap {β : Type} (len lo hi : Nat) (f : Nat → Nat → List β) :
    ((List.range (len + 1 - lo)).flatMap fun i => (rangeDown (min hi len) lo).flatMap fun j =>
      if j + i ≤ len then f i j else []) = (occs len lo hi).flatMap fun p => f p.1 p.2 := by
  unfold occs
  rw [List.flatMap_assoc]
  congr 1
  funext i
  induction rangeDown (min hi len) lo with
  | nil => rfl
  | cons a l ih =>
    rw [List.flatMap_cons, ih, List.filter_cons]
    by_cases h : a + i ≤ len
    · rw [if_pos h, if_pos (by simpa using h)]; rfl
    · rw [if_neg h, if_neg (by simpa using h)]; rfl

theorem loop_eq_map {β : Type} (len lo hi : Nat) (f : Nat → Nat → β) :
    ((List.range (len + 1 - lo)).flatMap fun i => (rangeDown (min hi len) lo).flatMap fun j =>
      if j + i ≤ len then [f i j] else []) = (occs len lo hi).map fun p => f p.1 p.2 := by
  rw [loop_eq_flatMap len lo hi (fun i j => [f i j])]
  exact List.flatMap_pure_eq_map _ _

theorem occs_short {len lo hi : Nat} (h : len < lo) : occs len lo hi = [] := by
  unfold occs
  have : len + 1 - lo = 0 := by omega
  rw [this]; rfl

/-- The n-grams of an accepted range. -/
theorem ngrams_eq (word : PyStr) (lo hi : Nat) (b : Bool) :
    ngrams word lo hi b = if hi ≥ lo ∧ lo > 0 then
      .ok ((occs (bracketed b word).length lo hi).map fun p =>
        ((bracketed b word).drop p.1).take p.2) else .error .assertionError := by
  unfold ngrams
  split
  · simp only
    split
    · rename_i h
      rw [occs_short h]; rfl
    · rw [loop_eq_map _ _ _ (fun i j => pySlice (bracketed b word) i (i + j))]
      simp only [pySlice, Nat.add_sub_cancel_left]
  · rfl

theorem pySlice_eq (w : PyStr) (i j : Nat) : pySlice w i (i + j) = (w.drop i).take j := by
  simp [pySlice]

theorem fifuSub_eq {β : Type} (emit : PyStr → Nat → β) (ix : FifuIndexer) (word : PyStr)
    (off : UInt64) (b : Bool) :
    ix.subwordLoop emit word off b = (occs (bracketed b word).length ix.minN ix.maxN).map fun p =>
      emit (((bracketed b word).drop p.1).take p.2)
        ((fifuHashNgram (bracketed b word) p.1 p.2 &&& ix.mask) + off).toNat := by
  unfold FifuIndexer.subwordLoop
  simp only
  split
  · rename_i h
    rw [occs_short h]; rfl
  · rw [Nat.min_comm]
    refine (loop_eq_map _ _ _ (fun i j => emit (pySlice (bracketed b word) i (i + j))
      ((fifuHashNgram (bracketed b word) i j &&& ix.mask) + off).toNat)).trans ?_
    simp only [pySlice_eq]

theorem ftSub_eq {β : Type} (emit : PyStr → Nat → β) (ix : FtIndexer) (word : PyStr)
    (off : UInt64) (b : Bool) :
    ix.subwordLoop emit word off b = (do
      let e ← encode (bracketed b word)
      return (occs (bracketed b word).length ix.minN ix.maxN).map fun p =>
        emit (((bracketed b word).drop p.1).take p.2)
          (UInt64.ofNat ((ftHashNgram e (((findUtf8Boundaries e)[p.1]?).getD 0)
            (((findUtf8Boundaries e)[p.1 + p.2]?).getD 0)).toNat % ix.nBuckets) + off).toNat) := by
  unfold FtIndexer.subwordLoop
  simp only
  cases encode (bracketed b word) with
  | error e => rfl
  | ok e =>
    show Except.ok _ = Except.ok _
    congr 1
    refine (loop_eq_map _ _ _ (fun i j => emit (pySlice (bracketed b word) i (i + j))
      (UInt64.ofNat ((ftHashNgram e (((findUtf8Boundaries e)[i]?).getD 0)
            (((findUtf8Boundaries e)[i + j]?).getD 0)).toNat % ix.nBuckets) + off).toNat)).trans ?_
    simp only [pySlice_eq]

theorem explSub_eq {β : Type} (emit : PyStr → Int → β) (ix : ExplIndexer) (word : PyStr)
    (off : Nat) (b : Bool) :
    ix.subwordLoop emit word off b =
      ((occs (bracketed b word).length ix.minN ix.maxN).map fun p =>
        ((bracketed b word).drop p.1).take p.2).filterMap fun g =>
          (Dict.get? ix.index g).map fun i => emit g (i + (off : Int)) := by
  unfold ExplIndexer.subwordLoop
  simp only
  split
  · rename_i h
    rw [occs_short h]; rfl
  · refine (loop_eq_flatMap _ _ _ _).trans ?_
    simp only [pySlice_eq]
    rw [List.filterMap_map]
    induction occs (bracketed b word).length ix.minN ix.maxN with
    | nil => rfl
    | cons p l ih =>
      rw [List.flatMap_cons, ih, List.filterMap_cons]
      simp only [Function.comp]
      cases Dict.get? ix.index (((bracketed b word).drop p.1).take p.2) <;> rfl

theorem foldl_range'_get {α β : Type} (w : List α) (g : β → Option α → β) (n : Nat) :
    ∀ (s : Nat) (h0 : β), s + n ≤ w.length →
      (List.range' s n).foldl (fun h i => g h w[i]?) h0 =
        ((w.drop s).take n).foldl (fun h c => g h (some c)) h0 := by
  induction n with
  | zero => intro s h0 _; simp
  | succ n ih =>
    intro s h0 h
    have hs : s < w.length := by omega
    rw [List.range'_succ, List.foldl_cons, ih (s + 1) _ (by omega), List.drop_eq_getElem_cons hs,
      List.take_succ_cons, List.foldl_cons, List.getElem?_eq_getElem hs]

/-- The hash of an n-gram in the middle of a word, over the characters of the n-gram. -/
theorem fifuHash_eq (w : PyStr) (i j : Nat) (h : i + j ≤ w.length) :
    fifuHashNgram w i j = ((w.drop i).take j).foldl (fun h c => fnv64aBuf (le 4 c.val) h)
      (fnv64aBuf (le 8 j) fnv1a64Init) := by
  unfold fifuHashNgram
  simp only
  rw [foldl_range'_get w (fun h c => fnv64aBuf (le 4 ((c.map Fin.val).getD 0)) h) j i _ h]
  rfl

theorem fifuHash_slice (w : PyStr) (i j : Nat) (h : i + j ≤ w.length) :
    fifuHashNgram w i j = fifuHashNgram ((w.drop i).take j) 0 ((w.drop i).take j).length := by
  have hl : ((w.drop i).take j).length = j := by rw [List.length_take, List.length_drop]; omega
  rw [fifuHash_eq w i j h, fifuHash_eq _ _ _ (by omega), List.drop_zero,
    List.take_of_length_le (Nat.le_refl _), hl]

theorem ftHash_eq (b : Bytes) (s t : Nat) (h1 : s ≤ t) (h2 : t ≤ b.length) :
    ftHashNgram b s t = ((b.drop s).take (t - s)).foldl
      (fun h c => (h ^^^ signExtend c) * prime32) fnv132Init := by
  unfold ftHashNgram
  rw [foldl_range'_get b (fun h c => (h ^^^ signExtend (c.getD 0)) * prime32) (t - s) s _ (by omega)]
  rfl

end FF
