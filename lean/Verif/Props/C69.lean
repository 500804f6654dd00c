import Verif.Props.C68
/-!
# C69: computed queries in float32 arithmetic

The vectors that the library computes itself, for unknown words from the rows of their n-grams and for analogies
from three vectors, are divided by their norms.  With the operations of IEEE 754 binary32, if the components of
the rows are not too large, the sum is right up to rounding; if its norm is finite and not too small, the result has
length one, and similarities to it are cosine similarities.  If the sum is zero the result is NaN, without an error.
-/

namespace FF

open F32

section
variable [NumOps F32]

/-- `v` is `s` divided by its length `n`, up to rounding. -/
def UnitOf (s v : List F32) (n : F32) : Prop :=
  Finite n ∧ 0 < val n ∧
    |val n - exactLen (s.map val)| ≤ (s.length + 8) * 2⁻¹ ^ 24 * exactLen (s.map val) ∧
    v.length = s.length ∧ (∀ x ∈ v, Finite x) ∧
    |exactLen (v.map val) - 1| ≤ (s.length + 8) * 2⁻¹ ^ 24 ∧
    ∀ (t : Nat) x y, s[t]? = some x → v[t]? = some y → RoundsTo (val x / val n) y

/-- The answers to a query in the direction of `s` if the words have the vectors `vs`: `k` words that are not
skipped, with cosine similarities up to `(3 n + 16) 2⁻²⁴`; no word that is left out is more similar than an
answer by more than twice that. -/
structure CosineAnswer (words : List PyStr) (vs : List (List F32)) (s : List F32) (skips : List PyStr) (k : Nat)
    (res : List (PyStr × F32)) : Prop where
  length : res.length = k
  nodup : (res.map Prod.fst).Nodup
  scores : ∀ w x, (w, x) ∈ res → w ∉ skips ∧ Finite x ∧ ∃ (i : Nat) (v : List F32), words[i]? = some w ∧
    vs[i]? = some v ∧ |val x - exactCos (v.map val) (s.map val)| ≤ (3 * s.length + 16) * 2⁻¹ ^ 24
  best : ∀ (i i' : Nat) w w' v v', words[i]? = some w → vs[i]? = some v → words[i']? = some w' →
    vs[i']? = some v' → w' ∉ skips → w ∈ res.map Prod.fst → w' ∉ res.map Prod.fst →
    exactCos (v'.map val) (s.map val) ≤ exactCos (v.map val) (s.map val) + 2 * ((3 * s.length + 16) * 2⁻¹ ^ 24)

/-- The rows of the words are the vectors `vs` divided by their norms; further rows, of n-grams, may follow. -/
def WordRows (cols : Nat) (vs : List (List F32)) (e : Embeddings F32) : Prop :=
  vs.length = e.vocab.words.length ∧ ∃ rows, e.storage = .nd ⟨cols, rows⟩ ∧
    ∀ (i : Nat) v, vs[i]? = some v → rows[i]? = some (v.map fun x => NumOps.div x (NumOps.normAxis v))

/-- Dividing a vector by its norm. -/
theorem unitOf_inRange (hB : Binary32) {s : List F32} (hs : NormInRange s (NumOps.norm s)) :
    UnitOf s (vdiv s (NumOps.norm s)) (NumOps.norm s) := by
  obtain ⟨d, hs, e⟩ := norm_b32 hB hs
  rw [e]
  obtain ⟨h1, h2, h3, h4, h5⟩ := norm_ranged hs
  have hdm := div_ranged hB hs
  obtain ⟨g1, g2, g3⟩ := unit_ranged hs hdm
  have hpos : 0 < val (B32.sqrt d) := lt_of_lt_of_le (by positivity) h3
  refine ⟨h1, hpos, ?_, by simp [vdiv], g1, g3, ?_⟩
  · refine h5.trans (mul_le_mul_of_nonneg_right ?_ h2.le)
    have hu := uu_pos
    have : 0 ≤ (s.length : ℝ) * uu := by positivity
    change _ ≤ (s.length + 8) * uu
    linarith
  · intro t x y hx hy
    have hy' := hy
    unfold vdiv at hy
    rw [List.getElem?_map, hx] at hy
    cases hy
    have hf := g1 _ (List.mem_of_getElem? hy')
    have : NumOps.div x (B32.sqrt d) = B32.div x (B32.sqrt d) := by
      rcases hB.div x (B32.sqrt d) with h | ⟨h, _⟩
      · exact h
      · exact absurd h hf.not_nan
    show RoundsTo _ (NumOps.div x (B32.sqrt d))
    rw [this]
    exact (div_result (hs.fin x (List.mem_of_getElem? hx)) h1 hpos.ne').rounds

/-- Dividing a vector of zeros by its norm gives NaNs. -/
theorem vdiv_zero (hB : Binary32) {s : List F32} (hz : ZeroVec s) :
    ∀ y ∈ vdiv s (NumOps.norm s), NaN y := by
  obtain ⟨d, hd, hs⟩ := hB.norm s
  obtain ⟨hdf, hd0⟩ := hd.underflow (fun p hp => ⟨(hz _ (mem_zip_self hp).1).1, by
    obtain ⟨j, hj, rfl⟩ := List.getElem_of_mem hp
    simp, by
    rw [(hz _ (mem_zip_self hp).1).2, abs_zero]
    positivity⟩)
  rw [sqrt_zero_b32 hdf hd0] at hs
  have hn := hs.eq hdf.not_nan
  intro y hy
  obtain ⟨x, hx, rfl⟩ := List.mem_map.mp hy
  rw [hn]
  exact (hB.div x d).nan ((div_zero_b32 (hz x hx).1 hdf hd0).2 (hz x hx).2)

theorem rows_length {e : Embeddings F32} (he : BuiltEmb e) {is : List Int} {rows : List (List F32)}
    (hrows : List.Forall₂ (fun i r => e.storage.getOne i = .ok r) is rows) :
    ∀ r ∈ rows, r.length = e.storage.nCols := by
  intro r hr
  obtain ⟨j, hj, rfl⟩ := List.getElem_of_mem hr
  have := (List.forall₂_iff_get.mp hrows).2 j (by rw [hrows.length_eq]; exact hj) hj
  exact getOne_length he.storage this

omit [NumOps F32] in
theorem column_mem {rows : List (List F32)} {t : Nat} {ys : List F32}
    (h : rows.map (fun r => r[t]?) = ys.map some) : ∀ y ∈ ys, ∃ r ∈ rows, y ∈ r := by
  intro y hy
  have : some y ∈ rows.map fun r => r[t]? := by rw [h]; exact List.mem_map_of_mem hy
  obtain ⟨r, hr, h1⟩ := List.mem_map.mp this
  exact ⟨r, hr, List.mem_of_getElem? h1⟩

/-- Sums of at most `2²⁰` rows with components of at most `2³¹` are finite and right up to rounding. -/
theorem C69_sums_partial (hB : Binary32) (cols : Nat) (rows : List (List F32)) (s : List F32)
    (h : IsSum cols rows s) (hl : rows.length ≤ 2 ^ 20)
    (hf : ∀ r ∈ rows, ∀ x ∈ r, Finite x ∧ |val x| ≤ 2 ^ 31) (t : Nat) (ht : t < cols) :
    ∃ (ys : List F32) (x : F32), rows.map (fun r => r[t]?) = ys.map some ∧ s[t]? = some x ∧
      Finite x ∧ |val x| ≤ 2 ^ 52 ∧
      |val x - (ys.map val).sum| ≤
        ((1 + 2⁻¹ ^ 24) ^ (rows.length - 1) - 1) * (ys.map fun y => |val y|).sum := by
  obtain ⟨ys, h1, h2⟩ := h.2 t ht
  have hlen : rows.length = ys.length := by
    have := congrArg List.length h1
    simpa using this
  have hy : ∀ y ∈ ys, Finite y ∧ |val y| ≤ 2 ^ 31 := by
    intro y hy
    obtain ⟨r, hr, hyr⟩ := column_mem h1 y hy
    exact hf r hr y hyr
  obtain ⟨g1, g2, g3⟩ := sum_moderate hB ys (fun y h => (hy y h).1) (by omega) fun y h => (hy y h).2
  refine ⟨ys, _, h1, h2, g1, g2, ?_⟩
  rw [hlen]
  exact g3

theorem sum_fin (hB : Binary32) {cols : Nat} {rows : List (List F32)} {s : List F32}
    (h : IsSum cols rows s) (hl : rows.length ≤ 2 ^ 20)
    (hf : ∀ r ∈ rows, ∀ x ∈ r, Finite x ∧ |val x| ≤ 2 ^ 31) : ∀ x ∈ s, Finite x ∧ |val x| ≤ 2 ^ 52 := by
  intro x hx
  obtain ⟨t, ht, rfl⟩ := List.getElem_of_mem hx
  obtain ⟨_, y, _, h2, h3, h4, _⟩ := C69_sums_partial hB cols rows s h hl hf t (by rw [← h.1]; exact ht)
  rw [List.getElem?_eq_getElem ht] at h2
  cases h2
  exact ⟨h3, h4⟩

/-- Such sums have a norm in range, unless they are tiny. -/
theorem C69_range_partial (hB : Binary32) (cols : Nat) (rows : List (List F32)) (s : List F32)
    (h : IsSum cols rows s) (hc : cols ≤ 2 ^ 20) (hl : rows.length ≤ 2 ^ 20)
    (hf : ∀ r ∈ rows, ∀ x ∈ r, Finite x ∧ |val x| ≤ 2 ^ 31)
    (hlow : (2 : ℝ)⁻¹ ^ 59 ≤ exactLen (s.map val)) : NormInRange s (NumOps.norm s) := by
  refine ((C66_range hB s).1 (Moderate.of_components ?_ ?_ hlow ?_)).2
  · exact fun x hx => (sum_fin hB h hl hf x hx).1
  · exact fun x hx => (sum_fin hB h hl hf x hx).2
  · rw [h.1]; exact hc

/-- Unknown words: if the norm of the sum of the rows of the n-grams is finite and at least `2⁻⁶⁰`, the result is
finite and has length one, and the reported norm is the length of the sum. -/
theorem C69_unknown_partial (hB : Binary32) (e : Embeddings F32) (he : BuiltEmb e) (w : PyStr) (is : List Int)
    (rows : List (List F32)) (hidx : e.vocab.idx w = .ok (some (.many is)))
    (hrows : List.Forall₂ (fun i r => e.storage.getOne i = .ok r) is rows) :
    ∃ s v n, IsSum e.storage.nCols rows s ∧ e.getItem w = .ok v ∧
      (e.norms ≠ none → e.embeddingWithNorm w = .ok (some (v, some n))) ∧ n = NumOps.norm s ∧
      (NormInRange s n → UnitOf s v n) := by
  obtain ⟨h1, _, h3⟩ := C28_unknown e w is rows hidx hrows
  exact ⟨_, _, _, addReduce_isSum (rows_length he hrows), h1, h3, rfl, unitOf_inRange hB⟩

/-- If the rows of the n-grams cancel out, all components are NaN. -/
theorem C69_unknown_zero (hB : Binary32) (e : Embeddings F32) (he : BuiltEmb e) (w : PyStr) (is : List Int)
    (rows : List (List F32)) (hidx : e.vocab.idx w = .ok (some (.many is)))
    (hrows : List.Forall₂ (fun i r => e.storage.getOne i = .ok r) is rows)
    (hz : ∀ s, IsSum e.storage.nCols rows s → ZeroVec s) :
    ∃ v, e.getItem w = .ok v ∧ e.embedding w = .ok (some v) ∧ v.length = e.storage.nCols ∧ ∀ y ∈ v, NaN y := by
  obtain ⟨h1, h2, _⟩ := C28_unknown e w is rows hidx hrows
  have hsum := addReduce_isSum (rows_length he hrows)
  exact ⟨_, h1, h2, by simp [vdiv, hsum.1], vdiv_zero hB (hz _ hsum)⟩

/-! ### Similarities -/

theorem cosine_core (hB : Binary32) {S : Sel F32} (hS : S.Admissible) {e : Embeddings F32} (he : BuiltEmb e)
    {cols : Nat} {vs : List (List F32)} (hN : WordRows cols vs e)
    (hm : ∀ v ∈ vs, NormInRange v (NumOps.normAxis v)) {s : List F32}
    (hs : NormInRange s (NumOps.norm s)) (hl : s.length = cols) {k : Nat} {skips : List PyStr} (h0 : e.vocab.words ≠ [])
    (hk : k + knownSkips e.vocab.words skips ≤ e.vocab.words.length) :
    ∃ res, e.similarity S (vdiv s (NumOps.norm s)) k skips = .ok res ∧
      CosineAnswer e.vocab.words vs s skips k res := by
  obtain ⟨n1, rows, n6, n8⟩ := hN
  have hwf : ∀ r ∈ rows, r.length = cols := by
    have := he.storage
    rw [n6] at this
    exact this.1
  have hlen : ∀ (i : Nat) v, vs[i]? = some v → v.length = cols := by
    intro i v hv
    have := hwf _ (List.mem_of_getElem? (n8 i v hv))
    simpa using this
  have hget : ∀ (i : Nat) v, vs[i]? = some v →
      e.storage.getOne i = .ok (v.map fun x => NumOps.div x (NumOps.normAxis v)) := by
    intro i v hv
    rw [n6]
    exact npGet_nat.mpr (n8 i v hv)
  have hinj : ∀ {i i' : Nat} {w : PyStr}, e.vocab.words[i]? = some w → e.vocab.words[i']? = some w → i = i' := by
    intro i i' w h h'
    have a := he.vocab.get.mpr h
    have b := he.vocab.get.mpr h'
    rw [a] at b
    exact_mod_cast Option.some.inj b
  have hvs : ∀ {i : Nat} {w}, e.vocab.words[i]? = some w → ∃ v, vs[i]? = some v := by
    intro i w h
    have hi := (List.getElem?_eq_some_iff.mp h).1
    exact ⟨_, List.getElem?_eq_getElem (by omega)⟩
  obtain ⟨d, hs, hnd⟩ := norm_b32 hB hs
  have score : ∀ (i : Nat) v', vs[i]? = some v' →
      Finite (NumOps.dot (v'.map fun x => NumOps.div x (NumOps.normAxis v')) (vdiv s (NumOps.norm s))) ∧
      |val (NumOps.dot (v'.map fun x => NumOps.div x (NumOps.normAxis v')) (vdiv s (NumOps.norm s))) -
        exactCos (v'.map val) (s.map val)| ≤ (3 * s.length + 16) * 2⁻¹ ^ 24 := by
    intro i v' hv'
    have hmv := hm _ (List.mem_of_getElem? hv')
    have hl' := hlen i v' hv'
    obtain ⟨d1, hmv, e1⟩ := normAxis_b32 hB hmv
    rw [e1, hnd]
    obtain ⟨a, ha, hsame⟩ := hB.dot (v'.map fun x => NumOps.div x (B32.sqrt d1)) (vdiv s (B32.sqrt d))
    obtain ⟨h1, h2⟩ := score_ranged (by omega) hmv hs (div_ranged hB hmv)
      (div_ranged hB hs) ha
    rw [hsame.eq h1.not_nan]
    refine ⟨h1, ?_⟩
    rw [hl, ← hl']
    exact h2
  obtain ⟨res, h1, hT⟩ := C31_top_k S hS e he _ n6 (vdiv s (NumOps.norm s)) (by simpa [vdiv] using hl) k skips h0 hk
    (by
      intro i w' row hi hrow _
      obtain ⟨v', hv'⟩ := hvs hi
      rw [hget i v' hv'] at hrow
      cases hrow
      exact (not_nan_inf (score i v' hv').1).1)
  refine ⟨res, h1, hT.length, hT.nodup, ?_, ?_⟩
  · intro w' x hx
    obtain ⟨hne, i, row, hi, hrow, rfl⟩ := hT.scores w' x hx
    obtain ⟨v', hv'⟩ := hvs hi
    rw [hget i v' hv'] at hrow
    cases hrow
    exact ⟨hne, (score i v' hv').1, i, v', hi, hv', (score i v' hv').2⟩
  · intro i i' w' w'' v' v'' hi hv' hi' hv'' hne hin hout
    obtain ⟨⟨w1, x⟩, hx, rfl⟩ := List.mem_map.mp hin
    obtain ⟨_, i1, row, hi1, hrow, hxe⟩ := hT.scores w1 x hx
    have := hinj hi hi1
    subst this
    rw [hget i v' hv'] at hrow
    cases hrow
    have hb := hT.best i' w'' _ hi' (hget i' v'' hv'') hne hout _ hx
    simp only at hb
    rw [hxe] at hb
    have hb : val _ ≤ val _ := le_of_not_gt fun h => by
      have := (lt_iff (not_nan_inf (score i v' hv').1).1 (not_nan_inf (score i' v'' hv'').1).1).mpr h
      exact Bool.noConfusion (this.symm.trans hb)
    have s1 := abs_le.mp (score i v' hv').2
    have s2 := abs_le.mp (score i' v'' hv'').2
    linarith [s1.1, s1.2, s2.1, s2.2]

/-- Embeddings from word2vec and text files have such rows. -/
theorem wordRows_normalized {cols : Nat} {words : List PyStr} {vs : List (List F32)} {e : Embeddings F32}
    (h : Normalized cols words vs e) (hl : vs.length = words.length) : WordRows cols vs e := by
  obtain ⟨h1, _, _, _, _, rows, h6, _, h8⟩ := h
  exact ⟨by rw [h1]; exact hl, rows, h6, h8⟩

/-- `word_similarity` of an unknown word: the answers are by cosine similarity to the sum of the rows of its
n-grams. -/
theorem C69_unknown_similarity_partial (hB : Binary32) (S : Sel F32) (hS : S.Admissible) (e : Embeddings F32)
    (he : BuiltEmb e) (cols : Nat) (vs : List (List F32)) (hN : WordRows cols vs e)
    (hm : ∀ v ∈ vs, NormInRange v (NumOps.normAxis v)) (w : PyStr) (is : List Int) (rows : List (List F32)) (hidx : e.vocab.idx w = .ok (some (.many is)))
    (hrows : List.Forall₂ (fun i r => e.storage.getOne i = .ok r) is rows)
    (s : List F32) (hs : IsSum cols rows s) (hsn : NormInRange s (NumOps.norm s)) (k : Nat) (h0 : e.vocab.words ≠ [])
    (hk : k + knownSkips e.vocab.words [w] ≤ e.vocab.words.length) :
    ∃ res, e.wordSimilarity S w k = .ok (some res) ∧ CosineAnswer e.vocab.words vs s [w] k res := by
  obtain ⟨_, h2, _⟩ := C28_unknown e w is rows hidx hrows
  have hcols : e.storage.nCols = cols := by
    obtain ⟨_, r, h, _⟩ := hN
    rw [h]; rfl
  rw [hcols] at h2
  have hlen := rows_length he hrows
  rw [hcols] at hlen
  have := isSum_unique hs (addReduce_isSum hlen)
  subst this
  obtain ⟨res, r1, r2⟩ := cosine_core hB hS he hN hm hsn hs.1 h0 hk
  refine ⟨res, ?_, r2⟩
  rw [wordSimilarity_eq h2, r1]
  rfl

/-- Embeddings from fastText files do too, with the means of the rows of a word and its n-grams as vectors. -/
theorem C69_fasttext_rows (f : FtFile) (hf : f.OK) (lossy : Bool) :
    ∃ (e : Embeddings F32) (vs : List (List F32)), Rd.run (loadFasttext lossy) f.bytes = .ok e ∧ BuiltEmb e ∧
      e.vocab.words = f.words.map Prod.fst ∧ WordRows f.cols vs e ∧
      (∀ j : Nat, f.words.length ≤ j → j < f.rows.length → e.storage.getOne j = .ok (f.rows.getD j [])) ∧
      ∀ (i : Nat) p v, f.words[i]? = some p → vs[i]? = some v →
        ∃ is sel, FtSubwords ⟨f.buckets, f.minN, f.maxN⟩ f.words.length p.1 is ∧
          List.Forall₂ (fun j r => f.rows[j]? = some r) (i :: is) sel ∧ IsMean f.cols sel v := by
  obtain ⟨e, h1, h3, _, he, _, rows, norms, h4, _, h6, _, h8, h7⟩ := C42_load (K := F32) f hf lossy
  have hid : (f.rows.map fun r => r.map (Codec.ofBits : F32 → F32)) = f.rows := by
    have : (fun r : List F32 => r.map (Codec.ofBits : F32 → F32)) = id := by
      funext r
      exact List.map_id r
    rw [this, List.map_id]
  rw [hid] at h6 h7 h8
  have hex : ∀ i : Fin f.words.length, ∃ v : List F32, rows[i.val]? =
      some (v.map fun x => NumOps.div x (NumOps.normAxis v)) ∧
      ∃ is sel, FtSubwords ⟨f.buckets, f.minN, f.maxN⟩ f.words.length (f.words[i.val]).1 is ∧
          List.Forall₂ (fun j r => f.rows[j]? = some r) (i.val :: is) sel ∧ IsMean f.cols sel v := by
    intro i
    obtain ⟨is, sel, mean, g1, g2, g3, _, g5⟩ := h7 i.val (f.words[i.val]).1 (by
      rw [List.getElem?_map, List.getElem?_eq_getElem i.isLt]; rfl)
    exact ⟨mean, g5, is, sel, g1, g2, g3⟩
  choose g hg using hex
  refine ⟨e, List.ofFn g, h1, he, h3, ⟨by rw [h3]; simp, rows, h4, ?_⟩, ?_, ?_⟩
  · intro i v hv
    obtain ⟨hi, rfl⟩ := List.getElem?_eq_some_iff.mp hv
    rw [List.getElem_ofFn]
    exact (hg ⟨i, by simpa using hi⟩).1
  · intro j hj hj'
    rw [h4]
    refine npGet_nat.mpr ?_
    rw [h8 j hj, List.getElem?_eq_getElem hj', List.getD_eq_getElem _ _ hj']
  · intro i p v hp hv
    obtain ⟨hi, rfl⟩ := List.getElem?_eq_some_iff.mp hv
    obtain ⟨hi', rfl⟩ := List.getElem?_eq_some_iff.mp hp
    rw [List.getElem_ofFn]
    exact (hg ⟨i, hi'⟩).2

/-! ### Analogies -/

/-- The sum behind an analogy -/
theorem offset_core (hB : Binary32) {a b c : List F32} {cols : Nat}
    (ha : a.length = cols) (hb : b.length = cols) (hc : c.length = cols)
    (fa : ∀ x ∈ a, Finite x ∧ |val x| ≤ 2 ^ 50) (fb : ∀ x ∈ b, Finite x ∧ |val x| ≤ 2 ^ 50)
    (fc : ∀ x ∈ c, Finite x ∧ |val x| ≤ 2 ^ 50) :
    (vadd c (vsub b a)).length = cols ∧
      (∀ (t : Nat) x y z, a[t]? = some x → b[t]? = some y → c[t]? = some z →
        ∃ r, (vadd c (vsub b a))[t]? = some r ∧ Finite r ∧
        |val r - (val z + (val y - val x))| ≤ 3 * 2⁻¹ ^ 24 * (|val z| + |val y - val x|)) ∧
      ∀ x ∈ vadd c (vsub b a), Finite x ∧ |val x| ≤ 2 ^ 52 := by
  have hd : (vadd c (vsub b a)).length = cols := by
    unfold vadd vsub
    rw [List.length_zipWith, List.length_zipWith, ha, hb, hc]
    simp
  have hget : ∀ (t : Nat) x y z, a[t]? = some x → b[t]? = some y → c[t]? = some z →
      (vadd c (vsub b a))[t]? = some (NumOps.add z (NumOps.sub y x)) := by
    intro t x y z hx hy hz
    unfold vadd vsub
    rw [List.getElem?_zipWith, List.getElem?_zipWith, hx, hy, hz]
  have key : ∀ (t : Nat) x y z, a[t]? = some x → b[t]? = some y → c[t]? = some z →
      Finite (NumOps.add z (NumOps.sub y x)) ∧ |val (NumOps.add z (NumOps.sub y x))| ≤ 2 ^ 52 ∧
      |val (NumOps.add z (NumOps.sub y x)) - (val z + (val y - val x))| ≤
        3 * 2⁻¹ ^ 24 * (|val z| + |val y - val x|) := by
    intro t x y z hx hy hz
    obtain ⟨x1, x2⟩ := fa x (List.mem_of_getElem? hx)
    obtain ⟨y1, y2⟩ := fb y (List.mem_of_getElem? hy)
    obtain ⟨z1, z2⟩ := fc z (List.mem_of_getElem? hz)
    obtain ⟨h1, h2, h3⟩ := offset_b32 hB x1 y1 z1 x2 z2 y2
    refine ⟨h1, h2, h3.trans ?_⟩
    have hu := uu_pos
    have hu1 : uu ≤ 1 / 1000 := by unfold uu; norm_num
    change _ ≤ 3 * uu * _
    have e1 := abs_nonneg (val y - val x)
    have e2 := abs_nonneg (val z)
    have e3 : uu * (uu * |val y - val x|) ≤ uu * |val y - val x| := by
      refine mul_le_mul_of_nonneg_left ?_ hu.le
      nlinarith
    nlinarith [mul_nonneg hu.le e2]
  refine ⟨hd, ?_, ?_⟩
  · intro t x y z hx hy hz
    obtain ⟨h1, _, h3⟩ := key t x y z hx hy hz
    exact ⟨_, hget t x y z hx hy hz, h1, h3⟩
  · intro r hr
    obtain ⟨t, ht, rfl⟩ := List.getElem_of_mem hr
    have ht' : t < cols := by rw [← hd]; exact ht
    have g := hget t a[t] b[t] c[t] (List.getElem?_eq_getElem (by omega)) (List.getElem?_eq_getElem (by omega))
      (List.getElem?_eq_getElem (by omega))
    rw [List.getElem?_eq_getElem ht] at g
    rw [Option.some.inj g]
    obtain ⟨h1, h2, _⟩ := key t a[t] b[t] c[t] (List.getElem?_eq_getElem (by omega))
      (List.getElem?_eq_getElem (by omega)) (List.getElem?_eq_getElem (by omega))
    exact ⟨h1, h2⟩

omit [NumOps F32] in
theorem skip_getD {skip : Option (List PyStr)} {skips : List PyStr} {w1 w2 w3 : PyStr}
    (h : skip = some skips ∨ skip = none ∧ skips = [w1, w2, w3]) : skip.getD [w1, w2, w3] = skips := by
  rcases h with h | ⟨h, h'⟩
  · rw [h]; rfl
  · rw [h, h']; rfl

/-- `analogy`: the sum `c + (b - a)` is right up to two roundings; unless it is tiny, the
answers are by cosine similarity to it. -/
theorem C69_analogy_partial (hB : Binary32) (S : Sel F32) (hS : S.Admissible) (e : Embeddings F32)
    (he : BuiltEmb e) (cols : Nat) (hcols : cols ≤ 2 ^ 20) (vs : List (List F32)) (hN : WordRows cols vs e)
    (hm : ∀ v ∈ vs, NormInRange v (NumOps.normAxis v)) (w1 w2 w3 : PyStr) (a b c : List F32)
    (ha : e.embedding w1 = .ok (some a)) (hb : e.embedding w2 = .ok (some b))
    (hc : e.embedding w3 = .ok (some c))
    (fa : ∀ x ∈ a, Finite x ∧ |val x| ≤ 2 ^ 50) (fb : ∀ x ∈ b, Finite x ∧ |val x| ≤ 2 ^ 50)
    (fc : ∀ x ∈ c, Finite x ∧ |val x| ≤ 2 ^ 50) (k : Nat) (skip : Option (List PyStr))
    (skips : List PyStr) (hskip : skip = some skips ∨ skip = none ∧ skips = [w1, w2, w3])
    (h0 : e.vocab.words ≠ []) (hk : k + knownSkips e.vocab.words skips ≤ e.vocab.words.length) :
    ∃ d : List F32, d.length = cols ∧
      (∀ (t : Nat) x y z, a[t]? = some x → b[t]? = some y → c[t]? = some z → ∃ r, d[t]? = some r ∧ Finite r ∧
        |val r - (val z + (val y - val x))| ≤ 3 * 2⁻¹ ^ 24 * (|val z| + |val y - val x|)) ∧
      ((2 : ℝ)⁻¹ ^ 59 ≤ exactLen (d.map val) →
        ∃ res, e.analogy S w1 w2 w3 k skip = .ok (some res) ∧ CosineAnswer e.vocab.words vs d skips k res) := by
  have hcol : e.storage.nCols = cols := by
    obtain ⟨_, r, h, _⟩ := hN
    rw [h]; rfl
  have hla := embedding_length he.storage ha
  have hlb := embedding_length he.storage hb
  have hlc := embedding_length he.storage hc
  rw [hcol] at hla hlb hlc
  obtain ⟨d1, d2, d3⟩ := offset_core hB hla hlb hlc fa fb fc
  refine ⟨_, d1, d2, fun hlow => ?_⟩
  have hmod : Moderate (vadd c (vsub b a)) :=
    .of_components (fun x hx => (d3 x hx).1) (fun x hx => (d3 x hx).2) hlow (by rw [d1]; exact hcols)
  obtain ⟨res, r1, r2⟩ := cosine_core hB hS he hN hm ((C66_range hB _).1 hmod).2 d1 h0 hk
  refine ⟨res, ?_, r2⟩
  rw [analogy_eq ha hb hc, skip_getD hskip]
  have : analogyVec a b c = vdiv (vadd c (vsub b a)) (NumOps.norm (vadd c (vsub b a))) := rfl
  rw [this, r1]
  rfl

/-- If `c + (b - a)` is zero, all answers have NaN as similarity. -/
theorem C69_analogy_zero (hB : Binary32) (S : Sel F32) (hS : S.Admissible) (e : Embeddings F32)
    (he : BuiltEmb e) (m : Mat F32) (hst : e.storage = .nd m) (hcols : 0 < m.cols)
    (w1 w2 w3 : PyStr) (a b c : List F32)
    (ha : e.embedding w1 = .ok (some a)) (hb : e.embedding w2 = .ok (some b))
    (hc : e.embedding w3 = .ok (some c))
    (hz : ∀ (t : Nat) x y z, a[t]? = some x → b[t]? = some y → c[t]? = some z →
      Finite (NumOps.add z (NumOps.sub y x)) ∧ val (NumOps.add z (NumOps.sub y x)) = 0)
    (k : Nat) (skip : Option (List PyStr))
    (skips : List PyStr) (hskip : skip = some skips ∨ skip = none ∧ skips = [w1, w2, w3])
    (h0 : e.vocab.words ≠ []) (hk : k + knownSkips e.vocab.words skips ≤ e.vocab.words.length) :
    ∃ res, e.analogy S w1 w2 w3 k skip = .ok (some res) ∧ res.length = k ∧ ∀ r ∈ res, NaN r.2 := by
  have hla := embedding_length he.storage ha
  have hlb := embedding_length he.storage hb
  have hlc := embedding_length he.storage hc
  rw [hst] at hla hlb hlc
  change _ = m.cols at hla hlb hlc
  have hd : (vadd c (vsub b a)).length = m.cols := by
    unfold vadd vsub
    rw [List.length_zipWith, List.length_zipWith, hla, hlb, hlc]
    simp
  have hzero : ZeroVec (vadd c (vsub b a)) := by
    intro r hr
    obtain ⟨t, ht, rfl⟩ := List.getElem_of_mem hr
    have ht' : t < m.cols := by rw [← hd]; exact ht
    have g : (vadd c (vsub b a))[t]? = some (NumOps.add c[t] (NumOps.sub b[t] a[t])) := by
      unfold vadd vsub
      rw [List.getElem?_zipWith, List.getElem?_zipWith, List.getElem?_eq_getElem (by omega),
        List.getElem?_eq_getElem (by omega), List.getElem?_eq_getElem (by omega)]
    rw [List.getElem?_eq_getElem ht] at g
    rw [Option.some.inj g]
    exact hz t _ _ _ (List.getElem?_eq_getElem (by omega)) (List.getElem?_eq_getElem (by omega))
      (List.getElem?_eq_getElem (by omega))
  have hnan := vdiv_zero hB hzero
  have hql : (vdiv (vadd c (vsub b a)) (NumOps.norm (vadd c (vsub b a)))).length = m.cols := by
    simpa [vdiv] using hd
  obtain ⟨res, g1, g2, _, g3, _⟩ := similarity_answer hS he hst hql (k := k) (skips := skips) h0 hk
  refine ⟨res, ?_, g2, fun r hr => ?_⟩
  · rw [analogy_eq ha hb hc, skip_getD hskip]
    have : analogyVec a b c = vdiv (vadd c (vsub b a)) (NumOps.norm (vadd c (vsub b a))) := rfl
    rw [this, g1]
    rfl
  · obtain ⟨_, i, row', _, g5, g6⟩ := g3 r.1 r.2 hr
    rw [g6]
    have hl' : row'.length = m.cols := by
      have := getOne_length he.storage g5
      rw [hst] at this
      exact this
    generalize vdiv (vadd c (vsub b a)) (NumOps.norm (vadd c (vsub b a))) = q at hnan hql
    obtain ⟨x, hx, hsa⟩ := hB.dot row' q
    refine hsa.nan (Dot_nan hx ?_)
    cases q with
    | nil => simp at hql; omega
    | cons x xs =>
      cases row' with
      | nil => simp at hl'; omega
      | cons y ys => exact ⟨_, List.mem_cons_self, Or.inr (hnan _ List.mem_cons_self)⟩

end

/-! ### The claim fails for sums that are zero -/

/-- Words with the vectors (1, 0), (1/2, √3/2), (1/2, -√3/2) and (0.6, 0.8), rounded, and three buckets of trigrams
with the vectors (3, 4), (-3, -4) and (4, 3) -/
def embCancel : Embeddings F32 :=
  ⟨.nd ⟨2, [[0x3F800000, 0], [0x3F000000, 0x3F5DB3D7], [0x3F000000, 0xBF5DB3D7], [0x3F19999A, 0x3F4CCCCD],
      [0x40400000, 0x40800000], [0xC0400000, 0xC0800000], [0x40800000, 0x40400000]]⟩,
    ⟨[[97], [98], [99], [100]], [([97], 0), ([98], 1), ([99], 2), ([100], 3)], some (.ft ⟨3, 3, 3⟩)⟩, none, none⟩

theorem builtEmbCancel : BuiltEmb embCancel := by
  refine ⟨⟨?_, by decide⟩, by unfold embCancel StorageWF Mat.WF ShapeOk; decide, embNew_iff.mpr ⟨rfl, by decide,
    by intro n hn; cases hn⟩⟩
  intro ix h
  cases h
  exact .ft (b := 3) (mn := 3) (mx := 3) (by decide)

/-- Sums computed with `B32` -/
theorem add_of_b32 [NumOps F32] (hB : Binary32) {x y z : F32} (h : B32.add x y = z) (hz : Finite z) :
    NumOps.add x y = z := by
  rw [(hB.add x y).eq (by rw [h]; exact hz.not_nan), h]

theorem sub_of_b32 [NumOps F32] (hB : Binary32) {x y z : F32} (h : B32.sub x y = z) (hz : Finite z) :
    NumOps.sub x y = z := by
  rw [(hB.sub x y).eq (by rw [h]; exact hz.not_nan), h]

/-- All components are finite, but the vectors of the n-grams `<aa` and `aa>` cancel out, and so does
`c + (b - a)`: the vector of the unknown word `aa` is NaN, and the answer to the analogy has NaN as similarity. -/
theorem C69_refuted [NumOps F32] (hB : Binary32) : ∃ e : Embeddings F32, BuiltEmb e ∧
    (∃ m, e.storage = .nd m ∧ ∀ r ∈ m.rows, ∀ x ∈ r, Finite x) ∧
    (∃ w v, w ∉ e.vocab.words ∧ e.getItem w = .ok v ∧ v.length = 2 ∧ ∀ y ∈ v, NaN y) ∧
    ∀ S : Sel F32, S.Admissible → ∃ w x, e.analogy S [97] [98] [99] 1 none = .ok (some [(w, x)]) ∧ NaN x := by
  have z0 : F32.Finite 0 ∧ val 0 = 0 := ⟨finite_zero, val_zero⟩
  refine ⟨embCancel, builtEmbCancel, ⟨_, rfl, ?_⟩, ⟨[97, 97], ?_⟩, fun S hS => ?_⟩
  · have : (embCancel.storage = .nd ⟨2, [[0x3F800000, 0], [0x3F000000, 0x3F5DB3D7], [0x3F000000, 0xBF5DB3D7],
      [0x3F19999A, 0x3F4CCCCD], [0x40400000, 0x40800000], [0xC0400000, 0xC0800000], [0x40800000, 0x40400000]]⟩) := rfl
    intro r hr x hx
    simp only [List.mem_cons, List.not_mem_nil, or_false] at hr
    rcases hr with rfl | rfl | rfl | rfl | rfl | rfl | rfl <;>
    · simp only [List.mem_cons, List.not_mem_nil, or_false] at hx
      rcases hx with rfl | rfl <;> · unfold F32.Finite; decide
  · obtain ⟨v, h1, _, h2, h3⟩ := C69_unknown_zero hB embCancel builtEmbCancel [97, 97] [4, 5]
      [[0x40400000, 0x40800000], [0xC0400000, 0xC0800000]] (by decide +kernel) (.cons rfl (.cons rfl .nil)) (by
        intro s hs
        have := isSum_unique hs (addReduce_isSum (cols := 2)
          (rows := [[0x40400000, 0x40800000], [0xC0400000, 0xC0800000]]) (by decide))
        rw [this]
        have e : addReduce 2 [[0x40400000, 0x40800000], [0xC0400000, 0xC0800000]] = ([0, 0] : List F32) := by
          show [NumOps.add 0x40400000 0xC0400000, NumOps.add 0x40800000 0xC0800000] = _
          rw [add_of_b32 hB (z := 0) (by decide +kernel) z0.1, add_of_b32 hB (z := 0) (by decide +kernel) z0.1]
        rw [e]
        exact zeroVec00.1)
    exact ⟨v, by decide, h1, h2, h3⟩
  · have hk : ∀ (i : Nat) w row, embCancel.vocab.words[i]? = some w → embCancel.storage.getOne i = .ok row →
        embCancel.embedding w = .ok (some row) := fun i w row h1 h2 =>
      (C28_known embCancel builtEmbCancel i w row h1 h2).2.1
    obtain ⟨res, h1, h2, h3⟩ := C69_analogy_zero hB S hS embCancel builtEmbCancel _ rfl (by decide) [97] [98] [99]
      _ _ _ (hk 0 _ _ rfl rfl) (hk 1 _ _ rfl rfl) (hk 2 _ _ rfl rfl) (by
        intro t x y z hx hy hz
        match t, hx, hy, hz with
        | 0, hx, hy, hz =>
          cases hx; cases hy; cases hz
          rw [sub_of_b32 hB (z := 0xBF000000) (by decide +kernel) (by unfold F32.Finite; decide),
            add_of_b32 hB (z := 0) (by decide +kernel) z0.1]
          exact z0
        | 1, hx, hy, hz =>
          cases hx; cases hy; cases hz
          rw [sub_of_b32 hB (z := 0x3F5DB3D7) (by decide +kernel) (by unfold F32.Finite; decide),
            add_of_b32 hB (z := 0) (by decide +kernel) z0.1]
          exact z0) 1 none _ (Or.inr ⟨rfl, rfl⟩) (by decide) (by decide)
    obtain ⟨⟨w, x⟩, rfl⟩ := List.length_eq_one_iff.mp h2
    exact ⟨w, x, h1, h3 _ List.mem_cons_self⟩

/-! ### The hypotheses can be met -/

namespace Sample

theorem val_seven : val 0x40E00000 = 7 := by
  have e1 : ex 0x40E00000 = 129 := by decide
  have e2 : fr 0x40E00000 = 2 ^ 22 + 2 ^ 21 := by decide
  have e3 : sgn 0x40E00000 = 0 := by decide
  unfold val
  rw [e1, e2, e3]
  norm_num

/-- The unknown word `ab`: (3, 4) + (4, 3) = (7, 7), which is divided by its length, about 9.9. -/
example : ∃ s v n, @IsSum F32 b32Ops 2 [[0x40400000, 0x40800000], [0x40800000, 0x40400000]] s ∧
    @Embeddings.getItem F32 b32Ops embCancel [97, 98] = .ok v ∧ s = [0x40E00000, 0x40E00000] ∧ UnitOf s v n := by
  obtain ⟨s, v, n, h1, h2, _, hn, h3⟩ := @C69_unknown_partial b32Ops binary32_b32 embCancel builtEmbCancel [97, 98]
    [4, 6] [[0x40400000, 0x40800000], [0x40800000, 0x40400000]] (by decide +kernel) (.cons rfl (.cons rfl .nil))
  have hr := @C69_range_partial b32Ops binary32_b32 2 _ s h1 (by norm_num) (by norm_num) (by
      intro r hr x hx
      simp only [List.mem_cons, List.not_mem_nil, or_false] at hr
      rcases hr with rfl | rfl <;>
      · simp only [List.mem_cons, List.not_mem_nil, or_false] at hx
        rcases hx with rfl | rfl
        · first
          | exact ⟨val_three.1, by rw [val_three.2]; norm_num⟩
          | exact ⟨val_four.1, by rw [val_four.2]; norm_num⟩
        · first
          | exact ⟨val_three.1, by rw [val_three.2]; norm_num⟩
          | exact ⟨val_four.1, by rw [val_four.2]; norm_num⟩)
  have hs : s = [0x40E00000, 0x40E00000] := by
    rw [@isSum_unique F32 b32Ops _ _ _ _ h1 (@addReduce_isSum F32 b32Ops (cols := 2)
      (rows := [[0x40400000, 0x40800000], [0x40800000, 0x40400000]]) (by decide))]
    decide +kernel
  refine ⟨s, v, n, h1, h2, hs, h3 ?_⟩
  rw [hn]
  refine hr (le_trans ?_ (abs_le_exactLen (x := val 0x40E00000) (by rw [hs]; simp)))
  rw [val_seven]
  norm_num

/-- (3, 4) and (4, 3), normalised, and buckets of trigrams -/
def embUnit : Embeddings F32 :=
  ⟨.nd ⟨2, [[0x3F19999A, 0x3F4CCCCD], [0x3F4CCCCD, 0x3F19999A],
      [0x40400000, 0x40800000], [0xC0400000, 0xC0800000], [0x40800000, 0x40400000]]⟩,
    ⟨[[97], [98]], [([97], 0), ([98], 1)], some (.ft ⟨3, 3, 3⟩)⟩, none, none⟩

theorem builtEmbUnit : BuiltEmb embUnit := by
  refine ⟨⟨?_, by decide⟩, by unfold embUnit StorageWF Mat.WF ShapeOk; decide, embNew_iff.mpr ⟨rfl, by decide,
    by intro n hn; cases hn⟩⟩
  intro ix h
  cases h
  exact .ft (b := 3) (mn := 3) (mx := 3) (by decide)

theorem wordRowsUnit : @WordRows b32Ops 2 [[0x40400000, 0x40800000], [0x40800000, 0x40400000]] embUnit := by
  refine ⟨rfl, _, rfl, ?_⟩
  intro i v hv
  match i, hv with
  | 0, hv => cases hv; decide +kernel
  | 1, hv => cases hv; decide +kernel

theorem inRangeUnit : ∀ v ∈ [[0x40400000, 0x40800000], [0x40800000, 0x40400000]],
    NormInRange v (b32Ops.normAxis v) := by
  intro v hv
  simp only [List.mem_cons, List.not_mem_nil, or_false] at hv
  rcases hv with rfl | rfl
  exacts [inRange34, inRange43]

/-- The similarity of `a` to the unknown word `ab` is the cosine of (3, 4) and (7, 7). -/
example : ∃ res s, @Embeddings.wordSimilarity F32 b32Ops (@Sel.sorting F32 b32Score ⟨0⟩) embUnit [97, 98] 1 =
    .ok (some res) ∧ s = [0x40E00000, 0x40E00000] ∧
    CosineAnswer [[97], [98]] [[0x40400000, 0x40800000], [0x40800000, 0x40400000]] s [[97, 98]] 1 res := by
  have hs := @addReduce_isSum F32 b32Ops (cols := 2)
      (rows := [[0x40400000, 0x40800000], [0x40800000, 0x40400000]]) (by decide)
  have e : @addReduce F32 b32Ops 2 [[0x40400000, 0x40800000], [0x40800000, 0x40400000]] =
    [0x40E00000, 0x40E00000] := by decide +kernel
  rw [e] at hs
  obtain ⟨res, h⟩ := @C69_unknown_similarity_partial b32Ops binary32_b32 _ (@sorting_admissible F32 b32Score ⟨0⟩)
    embUnit builtEmbUnit 2 _ wordRowsUnit inRangeUnit [97, 98] [2, 4]
    [[0x40400000, 0x40800000], [0x40800000, 0x40400000]] (by decide +kernel) (.cons rfl (.cons rfl .nil))
    _ hs (@C69_range_partial b32Ops binary32_b32 2 _ _ hs (by norm_num) (by norm_num)
      (fun r hr x hx => ⟨(inRangeUnit r hr).fin x hx, by
        simp only [List.mem_cons, List.not_mem_nil, or_false] at hr
        rcases hr with rfl | rfl <;> simp only [List.mem_cons, List.not_mem_nil, or_false] at hx <;>
          rcases hx with rfl | rfl <;> simp only [val_three.2, val_four.2] <;> norm_num⟩)
      (le_trans (by rw [val_seven]; norm_num) (abs_le_exactLen (x := val 0x40E00000) (by simp)))) 1 (by decide) (by decide)
  exact ⟨res, _, h.1, rfl, h.2⟩

/-- `a` is to `b` as `b` to what: 2 · (4, 3) - (3, 4), divided by 5. -/
example : ∃ res d, @Embeddings.analogy F32 b32Ops (@Sel.sorting F32 b32Score ⟨0⟩) embUnit [97] [98] [98] 1
      (some [[97]]) = .ok (some res) ∧ d.length = 2 ∧
    CosineAnswer [[97], [98]] [[0x40400000, 0x40800000], [0x40800000, 0x40400000]] d [[97]] 1 res := by
  have hk : ∀ (i : Nat) w row, embUnit.vocab.words[i]? = some w →
      @Storage.getOne F32 b32Ops embUnit.storage i = .ok row →
      @Embeddings.embedding F32 b32Ops embUnit w = .ok (some row) := fun i w row h1 h2 =>
    (@C28_known F32 b32Ops embUnit builtEmbUnit i w row h1 h2).2.1
  have hv : ∀ x ∈ [(0x3F19999A : F32), 0x3F4CCCCD], F32.Finite x ∧ 1 / 2 ≤ val x ∧ val x ≤ 1 := by
    have e1 : ex 0x3F19999A = 126 ∧ fr 0x3F19999A = 1677722 ∧ sgn 0x3F19999A = 0 := by decide
    have e2 : ex 0x3F4CCCCD = 126 ∧ fr 0x3F4CCCCD = 5033165 ∧ sgn 0x3F4CCCCD = 0 := by decide
    intro x hx
    simp only [List.mem_cons, List.not_mem_nil, or_false] at hx
    rcases hx with rfl | rfl
    · refine ⟨by unfold F32.Finite; decide, ?_⟩
      unfold val
      rw [e1.1, e1.2.1, e1.2.2]
      norm_num
    · refine ⟨by unfold F32.Finite; decide, ?_⟩
      unfold val
      rw [e2.1, e2.2.1, e2.2.2]
      norm_num
  have hb : ∀ x ∈ [(0x3F19999A : F32), 0x3F4CCCCD], F32.Finite x ∧ |val x| ≤ 2 ^ 50 := by
    intro x hx
    obtain ⟨h1, h2, h3⟩ := hv x hx
    exact ⟨h1, by rw [abs_of_nonneg (by linarith)]; linarith [show (1 : ℝ) ≤ 2 ^ 50 by norm_num]⟩
  have hb' : ∀ x ∈ [(0x3F4CCCCD : F32), 0x3F19999A], F32.Finite x ∧ |val x| ≤ 2 ^ 50 := by
    intro x hx
    exact hb x (by simp only [List.mem_cons, List.not_mem_nil, or_false] at hx ⊢; tauto)
  obtain ⟨d, h1, h2, h3⟩ := @C69_analogy_partial b32Ops binary32_b32 _ (@sorting_admissible F32 b32Score ⟨0⟩)
    embUnit builtEmbUnit 2 (by norm_num) _ wordRowsUnit inRangeUnit [97] [98] [98] _ _ _
    (hk 0 _ _ rfl rfl) (hk 1 _ _ rfl rfl) (hk 1 _ _ rfl rfl) hb hb' hb' 1 (some [[97]]) [[97]] (Or.inl rfl)
    (by decide) (by decide)
  obtain ⟨r, r1, r2, r3⟩ := h2 0 _ _ _ rfl rfl rfl
  obtain ⟨res, g⟩ := h3 (le_trans (by
    obtain ⟨_, a1, a2⟩ := hv 0x3F19999A (by simp)
    obtain ⟨_, b1, b2⟩ := hv 0x3F4CCCCD (by simp)
    have a3 : val 0x3F19999A ≤ val 0x3F4CCCCD := by
      have := (lt_iff (a := 0x3F19999A) (b := 0x3F4CCCCD) (by decide) (by decide)).mp (by decide +kernel)
      exact this.le
    rw [abs_of_nonneg (a := val 0x3F4CCCCD) (by linarith), abs_of_nonneg (sub_nonneg.mpr a3)] at r3
    have h4 := (abs_le.mp r3).1
    have h5 : (3 : ℝ) * 2⁻¹ ^ 24 * (val 0x3F4CCCCD + (val 0x3F4CCCCD - val 0x3F19999A)) ≤ 1 / 4 := by
      have : (3 : ℝ) * 2⁻¹ ^ 24 ≤ 1 / 12 := by norm_num
      nlinarith
    have h6 : (1 : ℝ) / 4 ≤ val r := by linarith
    rw [abs_of_nonneg (by linarith)]
    refine le_trans ?_ h6
    norm_num) (abs_le_exactLen (List.mem_map_of_mem (List.mem_of_getElem? r1))))
  exact ⟨res, d, g.1, h1, g.2⟩

/-- fastText files -/
example : ∃ (e : Embeddings F32) (vs : List (List F32)),
    Rd.run (@loadFasttext F32 b32Ops _ false) ftFile34.bytes = .ok e ∧ @WordRows b32Ops 2 vs e := by
  obtain ⟨e, vs, h1, _, _, h2, _⟩ := @C69_fasttext_rows b32Ops ftFile34 ftFile34_ok false
  exact ⟨e, vs, h1, h2⟩

end Sample

end FF
