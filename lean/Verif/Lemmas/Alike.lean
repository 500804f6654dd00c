import Verif.Spec.Alike
import Verif.Props.C25
import Verif.Props.C12
import Verif.Props.C52
import Verif.Lemmas.Among
/-! Embeddings that cannot be told apart. -/

namespace FF

/-- The same embeddings are equal, or explicit ones whose indices are in another order. -/
theorem SameEmb.equal_or {a b : Embeddings F32} (ha : BuiltEmb a) (hb : BuiltEmb b) (h : SameEmb a b) :
    b = a ∨ ∃ i j : ExplIndexer, a.vocab.sub = some (.expl i) ∧
      b = { a with vocab := { a.vocab with sub := some (.expl j) } } ∧ SameIndexer (.expl i) (.expl j) := by
  obtain ⟨⟨hw, _, hs⟩, hst, hn, hm⟩ := h
  have hva := (Vocab.new_ok.mp ha.vocab.2).2
  have hvb := (Vocab.new_ok.mp hb.vocab.2).2
  have hi : b.vocab.index = a.vocab.index := by rw [hva, hvb, ← hw]
  clear ha hb hva hvb
  obtain ⟨sa, ⟨wa, xa, ua⟩, na, ma⟩ := a
  obtain ⟨sb, ⟨wb, xb, ub⟩, nb, mb⟩ := b
  simp only at hw hi hs hst hn hm
  subst hw hi hst hn hm
  rcases ua with _ | (i | i | i) <;> rcases ub with _ | (j | j | j) <;> simp only at hs <;>
    first
    | exact .inl rfl
    | exact hs.elim
    | (have hs : i = j := hs; subst hs; exact .inl rfl)
    | exact .inr ⟨i, j, rfl, rfl, hs⟩

theorem indices_sameExpl {i j : ExplIndexer} (h : SameIndexer (.expl i) (.expl j)) (w : PyStr) (off : Nat) (br : Bool) :
    (Indexer.expl i).indices w off br = (Indexer.expl j).indices w off br := by
  obtain ⟨_, h1, h2, _, h3⟩ := h
  show Except.ok (ExplIndexer.indices i w off br) = .ok (ExplIndexer.indices j w off br)
  unfold ExplIndexer.indices ExplIndexer.subwordLoop
  simp only [h1, h2, h3]

section
variable {K : Type} [NumOps K]

/-- Queries depend on the indexer through the indices that it gives. -/
theorem alike_expl {a : Embeddings K} {i j : ExplIndexer} (hs : a.vocab.sub = some (.expl i))
    (h : SameIndexer (.expl i) (.expl j)) : Alike a { a with vocab := { a.vocab with sub := some (.expl j) } } := by
  have hidx : ∀ w d, a.vocab.idx w d = ({ a.vocab with sub := some (.expl j) } : Vocab).idx w d := by
    intro w d
    unfold Vocab.idx Vocab.subwordIndices
    rw [hs]
    simp only [indices_sameExpl h]
  have hget : ∀ w, a.vocab.getItem w = ({ a.vocab with sub := some (.expl j) } : Vocab).getItem w := by
    intro w
    unfold Vocab.getItem Vocab.subwordIndices
    rw [hs]
    simp only [indices_sameExpl h]
  have hemb : ∀ w, a.embedding w =
      ({ a with vocab := { a.vocab with sub := some (.expl j) } } : Embeddings K).embedding w := by
    intro w
    unfold Embeddings.embedding
    rw [hidx]
    rfl
  have hsim : ∀ S q k sk, a.similarity S q k sk =
      ({ a with vocab := { a.vocab with sub := some (.expl j) } } : Embeddings K).similarity S q k sk :=
    fun _ _ _ _ => rfl
  refine ⟨rfl, rfl, ?_, fun _ => rfl, hidx, hget, fun w => ?_, hemb, fun w => ?_, fun _ _ _ _ => rfl, fun S w k => ?_,
    fun S w1 w2 w3 k sk => ?_⟩
  · unfold Vocab.upperBound
    rw [hs]
    simp only [Indexer.upperBound, h.2.2.2.1]
    rfl
  · unfold Embeddings.getItem
    rw [hget]
    rfl
  · unfold Embeddings.embeddingWithNorm
    rw [hidx]
    rfl
  · unfold Embeddings.wordSimilarity
    simp only [hemb, hsim]
  · unfold Embeddings.analogy
    simp only [hemb, hsim]

theorem Alike.refl (a : Embeddings K) : Alike a a :=
  ⟨rfl, rfl, rfl, fun _ => rfl, fun _ _ => rfl, fun _ => rfl, fun _ => rfl, fun _ => rfl, fun _ => rfl, fun _ _ _ _ => rfl,
    fun _ _ _ => rfl, fun _ _ _ _ _ _ => rfl⟩

theorem selectRows_congr {a b : Embeddings K} (hc : a.storage.nCols = b.storage.nCols)
    (hg : ∀ w, a.getItem w = b.getItem w) (ign : Bool) (ws : List PyStr) :
    selectRows a ign ws = selectRows b ign ws := by
  induction ws with
  | nil => rfl
  | cons w ws ih =>
    unfold selectRows
    rw [hg, ih, hc]

theorem selectEmbeddings_congr {a b : Embeddings K} (hc : a.storage.nCols = b.storage.nCols) (hm : a.metadata = b.metadata)
    (hg : ∀ w, a.getItem w = b.getItem w) (ign : Bool) (input : PyStr) (ws : List PyStr) :
    selectEmbeddings a ign input ws = selectEmbeddings b ign input ws := by
  unfold selectEmbeddings
  simp only [hc, hm, selectRows_congr hc hg]

/-! ### Conversion to explicit vocabularies -/

/-- `similarity` sees the rows of the words only. -/
theorem similarity_rows (S : Sel K) {e e' : Embeddings K} (he : BuiltEmb e) (he' : BuiltEmb e')
    (hw : e'.vocab.words = e.vocab.words) {m m' : Mat K} (hm : e.storage = .nd m) (hm' : e'.storage = .nd m')
    (hc : m'.cols = m.cols)
    (hr : ∀ i : Nat, i < e.vocab.words.length → e'.storage.getOne i = e.storage.getOne i) (query : List K) (k : Int)
    (skips : List PyStr) : e'.similarity S query k skips = e.similarity S query k skips := by
  have hle := he.words_le
  have hle' := he'.words_le
  rw [hm] at hle
  rw [hm', hw] at hle'
  have hle : e.vocab.words.length ≤ m.rows.length := hle
  have hle' : e.vocab.words.length ≤ m'.rows.length := hle'
  have htake : m'.rows.take e.vocab.words.length = m.rows.take e.vocab.words.length := by
    refine List.ext_getElem (by simp [hle, hle']) fun i h1 h2 => ?_
    have hi : i < e.vocab.words.length := by simp at h1; omega
    have hx := hr i hi
    rw [hm, hm'] at hx
    have hx : npGet m'.rows (i : Int) = npGet m.rows (i : Int) := hx
    rw [npGet_nat.mpr (List.getElem?_eq_getElem (by omega)),
      npGet_nat.mpr (List.getElem?_eq_getElem (by omega))] at hx
    simpa using hx
  have hix : e'.vocab.index = e.vocab.index := by
    rw [(Vocab.new_ok.mp he.vocab.2).2, (Vocab.new_ok.mp he'.vocab.2).2, hw]
  have hsl : e'.storage.slice (.upTo e'.vocab.len) = e.storage.slice (.upTo e.vocab.len) := by
    rw [he.vocab.len, he'.vocab.len, hw, hm, hm']
    unfold Storage.slice PySlice.upTo
    simp only
    rw [npSlice_step1, npSlice_step1]
    have hhi : ∀ n : Nat, e.vocab.words.length ≤ n →
        hiPos n (some (e.vocab.words.length : Int)) = e.vocab.words.length := by
      intro n hn
      simp only [hiPos]
      unfold clampBound
      split <;> omega
    rw [hhi _ hle, hhi _ hle', htake, hc]
    rfl
  unfold Embeddings.similarity Vocab.skipIndices
  rw [hsl, hix, hw]

/-- A word that is carried over has the same rows before and after the conversion. -/
theorem explicit_idx {e e' : Embeddings K} (he : BuiltEmb e) (hlen : e.vocab.words.length < 2 ^ 63)
    (h : e.bucketToExplicit = .ok e') {w : PyStr} (hc : CarriedOver e.vocab w) :
    ∃ idx idx', e.vocab.idx w = .ok (some idx) ∧ e'.vocab.idx w = .ok (some idx') ∧ e'.embed idx' = e.embed idx := by
  obtain ⟨ix, hs⟩ : ∃ ix, e.vocab.sub = some ix := by
    cases hs : e.vocab.sub with
    | none => unfold Embeddings.bucketToExplicit at h; rw [hs] at h; cases h
    | some ix => exact ⟨ix, rfl⟩
  obtain ⟨hh, hAne, eix, bs, r⟩ := b2eEmb_of he hs h
  have hs' : e'.vocab.sub = some (.expl eix) := by rw [r.vocab.vocab]
  have hix := he.vocab.1 ix hs
  by_cases hw : w ∈ e.vocab.words
  · obtain ⟨i, hi, hiw⟩ := List.getElem_of_mem hw
    have hgi : Dict.get? e.vocab.index w = some i :=
      he.vocab.get.mpr (by rw [List.getElem?_eq_getElem hi, hiw])
    have hgi' : Dict.get? e'.vocab.index w = some i :=
      r.built.vocab.get.mpr (by rw [r.vocab.vocab]; simp only; rw [List.getElem?_eq_getElem hi, hiw])
    refine ⟨.one i, .one i, ?_, ?_, ?_⟩
    · unfold Vocab.idx; rw [hs, hgi]
    · unfold Vocab.idx; rw [hs', hgi']
    · unfold Embeddings.embed
      simp only
      rw [r.known i hi, r.norms]
  · obtain hc | ⟨ix', A, gs, hsx, hA, hgs, hne, hall⟩ := hc
    · exact absurd hc hw
    rw [hs] at hsx
    cases hsx
    have hAe := ngramsOfAll_unique hix hA
    have hgse : gs = wordNgrams ix w := C17_unique _ _ _ _ _ hgs (ngramsOf_wordNgrams hix w)
    subst hAe hgse
    have hsur : (∃ f, ix = .ft f) → w.any isSurrogate = false := by
      rintro ⟨f, rfl⟩
      cases hsu : w.any isSurrogate with
      | false => rfl
      | true =>
        obtain ⟨c, hc, hcs⟩ := List.any_eq_true.mp hsu
        obtain ⟨g, hg, hcg⟩ := wordNgrams_cover hix hne hc
        have h5 : (Indexer.ft f).call g = .ok (some (bucketOf (.ft f) g)) := r.vocab.callOk g (hall g hg)
        unfold Indexer.call FtIndexer.call at h5
        rw [encode_err (List.any_eq_true.mpr ⟨c, hcg, hcs⟩)] at h5
        cases h5
    obtain ⟨h6, h7⟩ := hash_indices hix hh w hlen hsur
    have hw' : Dict.get? e'.vocab.index w = none := by
      rw [r.built.vocab.get_none, r.vocab.vocab]; exact hw
    have hidx := expl_indices (r.built.vocab.1 _ hs') w e'.vocab.words.length
    have hwn : wordNgrams (.expl eix) w = wordNgrams ix w :=
      wordNgrams_congr (a := .expl eix) (b := ix) r.vocab.minN r.vocab.maxN w
    have hwl : e'.vocab.words.length = e.vocab.words.length := by rw [r.vocab.vocab]
    rw [hwn, hwl] at hidx
    have hfm : ∀ l : List PyStr, (∀ g ∈ l, g ∈ allNgrams ix e.vocab.words) →
        (l.filterMap fun g => (eix.call g).map fun i => (e.vocab.words.length : Int) + i) =
          l.map fun g => (e.vocab.words.length : Int) + (eix.call g).getD 0 := by
      intro l hl
      induction l with
      | nil => rfl
      | cons g l ih =>
        obtain ⟨k, _, hc⟩ := r.vocab.call g (hl g (by simp))
        rw [List.filterMap_cons, hc, List.map_cons, hc, ← ih fun g hg => hl g (List.mem_cons_of_mem _ hg)]
        rfl
    rw [hfm _ hall] at hidx
    refine ⟨.many ((wordNgrams ix w).map fun g => (e.vocab.words.length : Int) + bucketOf ix g),
      .many ((wordNgrams ix w).map fun g => (e.vocab.words.length : Int) + (eix.call g).getD 0), ?_, ?_, ?_⟩
    · unfold Vocab.idx Vocab.subwordIndices
      rw [hs, he.vocab.get_none.mpr hw]
      simp only
      rw [h6]
      simp only [res_bind_ok]
      rw [if_pos (by intro hc; exact hne (List.map_eq_nil_iff.mp hc))]
      rfl
    · unfold Vocab.idx Vocab.subwordIndices
      rw [hs', hw']
      simp only
      rw [hwl, hidx]
      simp only [res_bind_ok]
      rw [if_pos (by intro hc; exact hne (List.map_eq_nil_iff.mp hc))]
      rfl
    · unfold Embeddings.embed
      simp only
      rw [getMany_eq, getMany_eq, mapRes_comp, mapRes_comp]
      have : mapRes (fun g => e'.storage.getOne ((e.vocab.words.length : Int) + (eix.call g).getD 0)) (wordNgrams ix w) =
          mapRes (fun g => e.storage.getOne ((e.vocab.words.length : Int) + bucketOf ix g)) (wordNgrams ix w) := by
        refine mapRes_congr fun g hg => ?_
        obtain ⟨k, _, hc⟩ := r.vocab.call g (hall g hg)
        rw [hc]
        exact r.sub g (hall g hg) k hc
      rw [this]
      obtain ⟨rows, hrows⟩ := r.shape
      rw [hrows]
      rfl

theorem explicit_lookup {e e' : Embeddings K} (he : BuiltEmb e) (hlen : e.vocab.words.length < 2 ^ 63)
    (h : e.bucketToExplicit = .ok e') {w : PyStr} (hc : CarriedOver e.vocab w) :
    e'.getItem w = e.getItem w ∧ e'.embedding w = e.embedding w ∧ e'.embeddingWithNorm w = e.embeddingWithNorm w := by
  obtain ⟨idx, idx', h1, h2, h3⟩ := explicit_idx he hlen h hc
  have hemb : e'.embedding w = e.embedding w := by
    unfold Embeddings.embedding
    rw [h1, h2]
    simp only [res_bind_ok, h3]
  refine ⟨?_, hemb, ?_⟩
  · have hg : ∀ (x : Embeddings K) i, x.vocab.idx w = .ok (some i) → x.getItem w = (x.embed i).map Prod.fst := by
      intro x i hi
      unfold Embeddings.getItem
      have : x.vocab.getItem w = .ok i := by
        unfold Vocab.idx at hi
        unfold Vocab.getItem
        rcases hs : x.vocab.sub with _ | ix <;> rcases hd : Dict.get? x.vocab.index w with _ | n <;>
          rw [hs, hd] at hi <;> simp only at hi ⊢
        · cases hi
        · simp_all
        · obtain ⟨sw, h5, h6⟩ := res_bind_inv hi
          rw [h5]
          simp only [res_bind_ok]
          by_cases hsw : sw = []
          · rw [if_neg (by simpa using hsw)] at h6
            cases h6
          · rw [if_pos hsw] at h6 ⊢
            cases h6
            rfl
        · simp_all
      rw [this]
      simp only [res_bind_ok]
      cases x.embed i <;> rfl
    rw [hg e idx h1, hg e' idx' h2, h3]
  · unfold Embeddings.embeddingWithNorm
    rw [h1, h2, (C25_result e e' he h).2.2.1]
    simp only [res_bind_ok, h3]

end

end FF
