import Verif.Spec.Reorder
import Verif.Lemmas.Sim
import Verif.Lemmas.StorageRows
import Verif.Lemmas.VocabLookup
import Verif.Props.C15
/-! Lemmas for C93: words in another order. -/

namespace FF

section
variable {K : Type} [NumOps K]

theorem HasVector.unique {e : Embeddings K} (he : BuiltEmb e) {w : PyStr} {r s : List K} (hr : HasVector e w r)
    (hs : HasVector e w s) : r = s := by
  obtain ⟨i, hi, hr⟩ := hr
  obtain ⟨j, hj, hs⟩ := hs
  have hij : i = j := (List.getElem?_inj (List.getElem?_eq_some_iff.mp hi).1 he.vocab.nodup).mp (hi.trans hj.symm)
  subst hij
  exact Except.ok.inj (hr.symm.trans hs)

theorem Reordered.symm {e e' : Embeddings K} (h : Reordered e e') : Reordered e' e where
  words := h.words.symm
  rows := fun i j w hi hj => (h.rows j i w hj hi).symm
  norms := ⟨h.norms.1.symm, fun i j w ns ns' hi hj hn hn' => (h.norms.2 j i w ns' ns hj hi hn' hn).symm⟩
  sub := h.sub.symm
  ngrams := fun i hi => (h.ngrams i (h.words.length_eq ▸ hi)).symm
  cols := h.cols.symm

theorem Reordered.hasVector {e e' : Embeddings K} (h : Reordered e e') {w : PyStr} {row : List K}
    (hr : HasVector e w row) : HasVector e' w row := by
  obtain ⟨i, hi, hr⟩ := hr
  obtain ⟨j, hj⟩ := List.mem_iff_getElem?.mp (h.words.mem_iff.mp (List.mem_of_getElem? hi))
  exact ⟨j, hj, (h.rows i j w hi hj).symm.trans hr⟩

/-- The index of a word, of an unknown word, or an exception -/
theorem reordered_idx {e e' : Embeddings K} (he : BuiltEmb e) (he' : BuiltEmb e') (h : Reordered e e') (w : PyStr) :
    (∃ i j : Nat, e.vocab.words[i]? = some w ∧ e'.vocab.words[j]? = some w ∧ e.vocab.idx w = .ok (some (.one i)) ∧
      e'.vocab.idx w = .ok (some (.one j)) ∧ e.vocab.getItem w = .ok (.one i) ∧ e'.vocab.getItem w = .ok (.one j)) ∨
    (w ∉ e.vocab.words ∧ e.vocab.idx w = e'.vocab.idx w ∧ e.vocab.getItem w = e'.vocab.getItem w) := by
  by_cases hw : w ∈ e.vocab.words
  · left
    obtain ⟨i, hi⟩ := List.mem_iff_getElem?.mp hw
    obtain ⟨j, hj⟩ := List.mem_iff_getElem?.mp (h.words.mem_iff.mp hw)
    have h1 := he.vocab.get.mpr hi
    have h2 := he'.vocab.get.mpr hj
    refine ⟨i, j, hi, hj, ?_, ?_, ?_, ?_⟩
    · unfold Vocab.idx; split <;> rw [h1]
    · unfold Vocab.idx; split <;> rw [h2]
    · unfold Vocab.getItem; split <;> rw [h1]
    · unfold Vocab.getItem; split <;> rw [h2]
  · right
    have h1 := he.vocab.get_none.mpr hw
    have h2 := he'.vocab.get_none.mpr (fun hm => hw (h.words.mem_iff.mpr hm))
    have hs : ∀ ix, e.vocab.subwordIndices ix w = e'.vocab.subwordIndices ix w := by
      intro ix
      unfold Vocab.subwordIndices
      rw [h.words.length_eq]
    refine ⟨hw, ?_, ?_⟩
    · unfold Vocab.idx
      rw [← h.sub]
      cases e.vocab.sub with
      | none => simp only [h1, h2]
      | some ix => simp only [h1, h2, hs]
    · unfold Vocab.getItem
      rw [← h.sub]
      cases e.vocab.sub with
      | none => simp only [h1, h2]
      | some ix => simp only [h1, h2, hs]

/-- Rows of n-grams stay where they are. -/
theorem reordered_many {e e' : Embeddings K} (h : Reordered e e') {is : List Int}
    (hi : ∀ i ∈ is, (e.vocab.words.length : Int) ≤ i) : e.embed (.many is) = e'.embed (.many is) := by
  unfold Embeddings.embed
  have hm : e.storage.getMany is = e'.storage.getMany is := by
    rw [getMany_eq, getMany_eq]
    refine mapRes_congr fun i hm => ?_
    have := hi i hm
    have hn : i = (i.toNat : Int) := by omega
    rw [hn]
    exact h.ngrams i.toNat (by omega)
  simp only [hm, h.cols]

/-- Words take their rows and norms with them. -/
theorem reordered_one {e e' : Embeddings K} (h : Reordered e e') {i j : Nat} {w : PyStr} (hi : e.vocab.words[i]? = some w)
    (hj : e'.vocab.words[j]? = some w) : e.embed (.one i) = e'.embed (.one j) := by
  unfold Embeddings.embed
  simp only [h.rows i j w hi hj]
  cases hn : e.norms with
  | none =>
    rw [h.norms.1.mp hn]
  | some ns =>
    cases hn' : e'.norms with
    | none => rw [h.norms.1.mpr hn'] at hn; cases hn
    | some ns' =>
      have hx := h.norms.2 i j w ns ns' hi hj hn hn'
      have hg : npGet ns (i : Int) = npGet ns' (j : Int) := by
        have hk : ∀ (xs : List K) (k : Nat), npGet xs (k : Int) =
            match xs[k]? with | some x => .ok x | none => .error .indexError := by
          intro xs k
          unfold npGet npIndex
          by_cases hlt : k < xs.length
          · rw [if_pos (by omega)]
            simp only [res_bind_ok, Int.toNat_natCast, List.getElem?_eq_getElem hlt]
            rfl
          · rw [if_neg (by omega), if_neg (by omega), List.getElem?_eq_none (by omega)]
            rfl
        rw [hk, hk, hx]
      simp only [hg]

theorem reordered_lookup {e e' : Embeddings K} (he : BuiltEmb e) (he' : BuiltEmb e') (h : Reordered e e')
    (hlen : e.vocab.words.length < 2 ^ 63) (hneg : ∀ ix, e.vocab.sub = some ix → NonNegIndex ix) (w : PyStr) :
    e.embedding w = e'.embedding w ∧ e.getItem w = e'.getItem w ∧ e.embeddingWithNorm w = e'.embeddingWithNorm w := by
  obtain ⟨b1, b2, _, _⟩ := C15_bounds_partial e.vocab he.vocab hlen hneg w
  have hem : ∀ i, InRange e.vocab i → w ∉ e.vocab.words → (∀ n, i ≠ .one n) → e.embed i = e'.embed i := by
    intro i hi _ hn
    cases i with
    | one n => exact absurd rfl (hn n)
    | many is => exact reordered_many h fun j hj => (hi j hj).1
  rcases reordered_idx he he' h w with ⟨i, j, hi, hj, i1, i2, g1, g2⟩ | ⟨hw, hi, hg⟩
  · have hx := reordered_one h hi hj
    refine ⟨?_, ?_, ?_⟩
    · unfold Embeddings.embedding; rw [i1, i2]; simp only [res_bind_ok, hx]
    · unfold Embeddings.getItem; rw [g1, g2]; simp only [res_bind_ok, hx]
    · unfold Embeddings.embeddingWithNorm
      cases hn : e.norms with
      | none => rw [h.norms.1.mp hn]
      | some ns =>
        cases hn' : e'.norms with
        | none => rw [h.norms.1.mpr hn'] at hn; cases hn
        | some ns' => simp only [i1, i2, res_bind_ok, hx]
  · have hone : ∀ n, e.vocab.idx w ≠ .ok (some (.one n)) ∧ e.vocab.getItem w ≠ .ok (.one n) := by
      intro n
      have h1 := he.vocab.get_none.mpr hw
      constructor <;> intro hx
      · unfold Vocab.idx at hx
        cases hs : e.vocab.sub with
        | none => rw [hs] at hx; simp only [h1] at hx; cases hx
        | some ix =>
          rw [hs] at hx
          simp only [h1] at hx
          obtain ⟨is, _, hx⟩ := res_bind_inv hx
          split at hx <;> cases hx
      · unfold Vocab.getItem at hx
        cases hs : e.vocab.sub with
        | none => rw [hs] at hx; simp only [h1] at hx; cases hx
        | some ix =>
          rw [hs] at hx
          simp only [h1] at hx
          obtain ⟨is, _, hx⟩ := res_bind_inv hx
          split at hx <;> cases hx
    have hE : ∀ i, e.vocab.idx w = .ok (some i) → e.embed i = e'.embed i := fun i hi' =>
      hem i (b2 i hi') hw (fun n hn => (hone n).1 (hn ▸ hi'))
    refine ⟨?_, ?_, ?_⟩
    · unfold Embeddings.embedding
      rw [← hi]
      cases hx : e.vocab.idx w with
      | error x => rfl
      | ok o =>
        cases o with
        | none => rfl
        | some i => simp only [res_bind_ok, hE i hx]
    · unfold Embeddings.getItem
      rw [← hg]
      cases hx : e.vocab.getItem w with
      | error x => rfl
      | ok i => simp only [res_bind_ok, hem i (b1 i hx) hw (fun n hn => (hone n).2 (hn ▸ hx))]
    · unfold Embeddings.embeddingWithNorm
      cases hn : e.norms with
      | none => rw [h.norms.1.mp hn]
      | some ns =>
        cases hn' : e'.norms with
        | none => rw [h.norms.1.mpr hn'] at hn; cases hn
        | some ns' =>
          simp only [← hi]
          cases hx : e.vocab.idx w with
          | error x => rfl
          | ok o =>
            cases o with
            | none => rfl
            | some i => simp only [res_bind_ok, hE i hx]

variable [Score K]

omit [NumOps K] in
theorem score_irrefl (x : K) : Score.lt x x = false := by
  cases h : Score.lt x x with
  | false => rfl
  | true => exact (Score.asymm x x h).symm.trans h |>.symm ▸ rfl

/-- With fewer words to choose from, no answer is better than the one at its position among more words. -/
theorem topK_le {e e' : Embeddings K} (he : BuiltEmb e) (hsub : ∀ w row, HasVector e' w row → HasVector e w row)
    {q : List K} {sk : List PyStr} {k k' : Nat} {a b : List (PyStr × K)} (ta : IsTopK e q sk k a) (tb : IsTopK e' q sk k' b)
    (hc : Comparable e q sk) {i : Nat} {x y : PyStr × K} (hx : a[i]? = some x) (hy : b[i]? = some y) :
    Score.lt x.2 y.2 = false := by
  have hia := (List.getElem?_eq_some_iff.mp hx).1
  have hib := (List.getElem?_eq_some_iff.mp hy).1
  obtain ⟨r, hr, hra⟩ : ∃ r ∈ b.take (i + 1), r.1 ∉ (a.take i).map Prod.fst := by
    by_contra hcon
    push Not at hcon
    have hs : (b.take (i + 1)).map Prod.fst ⊆ (a.take i).map Prod.fst := by
      intro w hw
      obtain ⟨r, hr, rfl⟩ := List.mem_map.mp hw
      exact hcon r hr
    have hn : ((b.take (i + 1)).map Prod.fst).Nodup := ((List.take_sublist _ _).map _).nodup tb.nodup
    have hl := (List.subperm_of_subset hn hs).length_le
    simp only [List.length_map, List.length_take] at hl
    omega
  obtain ⟨j, hj0⟩ := List.mem_iff_getElem?.mp hr
  have hji : j < i + 1 := by
    have := (List.getElem?_eq_some_iff.mp hj0).1
    simp only [List.length_take] at this
    omega
  have hj : b[j]? = some r := by rw [List.getElem?_take_of_lt hji] at hj0; exact hj0
  have hry : Score.lt r.2 y.2 = false := by
    by_cases hij : j = i
    · subst hij
      rw [hj] at hy; cases hy
      exact score_irrefl _
    · obtain ⟨hjb, hjr⟩ := List.getElem?_eq_some_iff.mp hj
      obtain ⟨_, hiy⟩ := List.getElem?_eq_some_iff.mp hy
      have := List.pairwise_iff_getElem.mp tb.sorted j i hjb hib (by omega)
      rw [hjr, hiy] at this
      exact this
  have hrb : r ∈ b := List.mem_of_getElem? hj
  obtain ⟨hrs, i', row, hw, hrow, hr2⟩ := tb.scores r.1 r.2 hrb
  obtain ⟨l, hlw, hlrow⟩ := hsub _ _ ⟨i', hw, hrow⟩
  have hnan : Score.nan r.2 = false := by rw [hr2]; exact hc l r.1 row hlw hlrow hrs
  have hxr : Score.lt x.2 r.2 = false := by
    by_cases hmem : r.1 ∈ a.map Prod.fst
    · obtain ⟨s, hs, hsr⟩ := List.mem_map.mp hmem
      obtain ⟨_, l', row', hlw', hlrow', hs2⟩ := ta.scores s.1 s.2 hs
      rw [hsr] at hlw'
      have hrr := HasVector.unique he ⟨l, hlw, hlrow⟩ ⟨l', hlw', hlrow'⟩
      have hsr2 : s.2 = r.2 := by rw [hs2, hr2, hrr]
      obtain ⟨p, hp⟩ := List.mem_iff_getElem?.mp hs
      have hpi : i ≤ p := by
        by_contra hlt
        refine hra (List.mem_map.mpr ⟨s, List.mem_iff_getElem?.mpr ⟨p, ?_⟩, hsr⟩)
        rw [List.getElem?_take_of_lt (by omega)]
        exact hp
      rw [← hsr2]
      by_cases hip : p = i
      · subst hip
        rw [hp] at hx; cases hx
        exact score_irrefl _
      · obtain ⟨hpa, hps⟩ := List.getElem?_eq_some_iff.mp hp
        obtain ⟨_, hix⟩ := List.getElem?_eq_some_iff.mp hx
        have := List.pairwise_iff_getElem.mp ta.sorted i p hia hpa (by omega)
        rw [hps, hix] at this
        exact this
    · rw [hr2]
      exact ta.best l r.1 row hlw hlrow hrs hmem x (List.mem_of_getElem? hx)
  exact Score.trans _ _ _ hnan hxr hry

theorem topK_nan {e : Embeddings K} {q : List K} {sk : List PyStr} {k : Nat} {a : List (PyStr × K)} (ta : IsTopK e q sk k a)
    (hc : Comparable e q sk) {r : PyStr × K} (hr : r ∈ a) : Score.nan r.2 = false := by
  obtain ⟨hs, i, row, hw, hrow, h2⟩ := ta.scores r.1 r.2 hr
  rw [h2]
  exact hc i r.1 row hw hrow hs

theorem topK_same {e e' : Embeddings K} (he : BuiltEmb e) (he' : BuiltEmb e')
    (hv : ∀ w row, HasVector e w row ↔ HasVector e' w row) {q : List K} {sk : List PyStr} {k : Nat}
    {a b : List (PyStr × K)} (ta : IsTopK e q sk k a) (tb : IsTopK e' q sk k b) (hc : Comparable e q sk) : SameAnswers a b := by
  have hc' : Comparable e' q sk := by
    intro i w row hw hrow hs
    obtain ⟨j, hj, hrj⟩ := (hv w row).mpr ⟨i, hw, hrow⟩
    exact hc j w row hj hrj hs
  have hab : ∀ (i : Nat) x y, a[i]? = some x → b[i]? = some y → Score.lt x.2 y.2 = false ∧ Score.lt y.2 x.2 = false :=
    fun i x y hx hy => ⟨topK_le he (fun w row => (hv w row).mpr) ta tb hc hx hy,
      topK_le he' (fun w row => (hv w row).mp) tb ta hc' hy hx⟩
  have hlen : a.length = b.length := ta.length.trans tb.length.symm
  refine ⟨List.forall₂_iff_get.mpr ⟨hlen, fun i h1 h2 => hab i _ _ (List.getElem?_eq_getElem h1) (List.getElem?_eq_getElem h2)⟩,
    fun r ⟨s, hs, hlt⟩ => ?_⟩
  obtain ⟨i, hi⟩ := List.mem_iff_getElem?.mp hs
  have hib : i < b.length := hlen ▸ (List.getElem?_eq_some_iff.mp hi).1
  have hi' := List.getElem?_eq_getElem hib
  obtain ⟨s1, s2⟩ := hab i _ _ hi hi'
  have hbm := List.getElem_mem hib
  constructor
  · intro hr
    obtain ⟨hrs, l, row, hlw, hlrow, hr2⟩ := ta.scores r.1 r.2 hr
    obtain ⟨l', hlw', hlrow'⟩ := (hv _ _).mp ⟨l, hlw, hlrow⟩
    by_cases hm : r.1 ∈ b.map Prod.fst
    · obtain ⟨t, ht, htr⟩ := List.mem_map.mp hm
      obtain ⟨_, p, prow, hp, hprow, ht2⟩ := tb.scores t.1 t.2 ht
      rw [htr] at hp
      have := HasVector.unique he' ⟨p, hp, hprow⟩ ⟨l', hlw', hlrow'⟩
      have htr' : t = r := Prod.ext htr (by rw [ht2, hr2, this])
      exact htr' ▸ ht
    · have h1 := tb.best l' r.1 row hlw' hlrow' hrs hm _ hbm
      rw [← hr2] at h1
      have := Score.trans _ _ _ (topK_nan tb hc' hbm) s1 h1
      rw [hlt] at this; cases this
  · intro hr
    obtain ⟨hrs, l, row, hlw, hlrow, hr2⟩ := tb.scores r.1 r.2 hr
    obtain ⟨l', hlw', hlrow'⟩ := (hv _ _).mpr ⟨l, hlw, hlrow⟩
    by_cases hm : r.1 ∈ a.map Prod.fst
    · obtain ⟨t, ht, htr⟩ := List.mem_map.mp hm
      obtain ⟨_, p, prow, hp, hprow, ht2⟩ := ta.scores t.1 t.2 ht
      rw [htr] at hp
      have := HasVector.unique he ⟨p, hp, hprow⟩ ⟨l', hlw', hlrow'⟩
      have htr' : t = r := Prod.ext htr (by rw [ht2, hr2, this])
      exact htr' ▸ ht
    · have h1 := ta.best l' r.1 row hlw' hlrow' hrs hm _ hs
      rw [← hr2, hlt] at h1
      cases h1

end

end FF
