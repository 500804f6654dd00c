import Verif.Lemmas.B2EEmb
import Verif.Spec.Num
import Verif.Props.C36
/-! C25: `bucket_to_explicit` preserves embeddings. -/

namespace FF

section
variable {K : Type} [NumOps K]

/-- What `bucket_to_explicit` returns. -/
structure B2EEmb (e e' : Embeddings K) (ix : Indexer) (eix : ExplIndexer) (bs : List Int) :
    Prop where
  vocab : B2EResult e.vocab ix e'.vocab eix bs
  built : BuiltEmb e'
  norms : e'.norms = e.norms
  metadata : e'.metadata = none
  shape : ∃ rows, e'.storage = .nd ⟨e.storage.nCols, rows⟩
  known : ∀ i : Nat, i < e.vocab.words.length → e'.storage.getOne i = e.storage.getOne i
  sub : ∀ g ∈ allNgrams ix e.vocab.words, ∀ k : Nat, eix.call g = some (k : Int) →
    e'.storage.getOne (e.vocab.words.length + k) =
      e.storage.getOne (e.vocab.words.length + bucketOf ix g)

theorem explBuilt {v v' : Vocab} {ix : Indexer} {eix : ExplIndexer} {bs : List Int}
    (hA : allNgrams ix v.words ≠ []) (r : B2EResult v ix v' eix bs) : BuiltIndexer (.expl eix) := by
  have hk : (Dict.keys eix.index).Nodup := r.valid.keys.nodup_iff.mpr r.valid.nodup
  have hgne : eix.ngrams ≠ [] := by
    obtain ⟨g, hg⟩ := List.exists_mem_of_ne_nil _ hA
    exact List.ne_nil_of_mem ((r.ngrams.2.1 g).mpr hg)
  exact .explIdx hk ((explNew_some hk).mpr ⟨r.valid, rfl, rfl, rfl, rfl, hgne⟩)

theorem b2eEmb_new {e : Embeddings K} (he : BuiltEmb e) {ix : Indexer} (hs : e.vocab.sub = some ix)
    {v' : Vocab} {eix : ExplIndexer} {bs : List Int}
    (r : B2EResult e.vocab ix v' eix bs) {rows : List (List K)}
    (hl : rows.length = e.vocab.words.length + bs.length) :
    Embeddings.new (.nd ⟨e.storage.nCols, rows⟩) v' e.norms none =
      .ok ⟨.nd ⟨e.storage.nCols, rows⟩, v', e.norms, none⟩ := by
  rw [embNew_iff]
  have hv' : v'.len = e.vocab.words.length := by
    rw [r.vocab]; simp [Vocab.len, enumItems_length]
  refine ⟨rfl, ?_, ?_⟩
  · rw [r.vocab]
    show (rows.length : Int) = _
    simp [Vocab.upperBound, Vocab.len, enumItems_length, Indexer.upperBound, r.bound, hl]
  · intro n hn
    have := (embNew_iff.mp he.new).2.2 n hn
    rw [he.vocab.len] at this
    refine ⟨?_, by rw [hv']; exact this.2⟩
    show n.length ≤ rows.length
    omega

theorem b2eEmb_of {e e' : Embeddings K} (he : BuiltEmb e) {ix : Indexer}
    (hs : e.vocab.sub = some ix) (h : e.bucketToExplicit = .ok e') :
    (∀ x, ix ≠ .expl x) ∧ allNgrams ix e.vocab.words ≠ [] ∧
      ∃ eix bs, B2EEmb e e' ix eix bs := by
  unfold Embeddings.bucketToExplicit at h
  rw [hs] at h
  have hh : ∀ x, ix ≠ .expl x := by
    intro x hx
    rw [hx] at h
    cases h
  have hcases : (do
      let vocab ← e.vocab.toExplicit
      match vocab.sub with
      | some (.expl eix) => do
        let cols := e.storage.nCols
        let n := vocab.len
        let _ ← zerosShape vocab.upperBound cols
        let zero := List.replicate vocab.upperBound.toNat (List.replicate cols NumOps.zero)
        let known ← e.storage.slice (.upTo n)
        let known ← known.toArray
        if known.length ≠ n then .error .valueError
        let rows := known ++ zero.drop n
        let rows ← foldRes (b2eRow e ix eix n) rows eix.ngrams
        Embeddings.new (.nd ⟨cols, rows⟩) vocab e.norms none
      | _ => .error .attributeError) = Except.ok e' := by
    cases ix with
    | expl x => exact absurd rfl (hh x)
    | fifu x => exact h
    | ft x => exact h
  clear h
  obtain ⟨v', h1, h⟩ := res_bind_inv hcases
  obtain ⟨hb, _⟩ := toExplicit_eq hs h1
  have hix := he.vocab.1 ix hs
  obtain ⟨hA, eix, bs, r⟩ := bucketToExplicit_inv he.vocab.nodup hix hb
  refine ⟨hh, hA, eix, bs, ?_⟩
  have hv'len : v'.len = e.vocab.words.length := by
    rw [r.vocab]; simp [Vocab.len, enumItems_length]
  have hub : v'.upperBound.toNat = e.vocab.words.length + bs.length := by
    rw [r.vocab]
    simp only [Vocab.upperBound, Vocab.len, enumItems_length, Indexer.upperBound, r.bound]
    omega
  rw [show v'.sub = some (.expl eix) by rw [r.vocab]] at h
  simp only [hv'len, hub] at h
  obtain ⟨shape, h0, h⟩ := res_bind_inv h
  obtain ⟨hz1, hz2, hz3⟩ := zerosShape_iff.mp h0
  have hz2' : e.storage.nCols = shape.2 := by exact_mod_cast hz2
  obtain ⟨s1, h2, h⟩ := res_bind_inv h
  obtain ⟨known, h3, h⟩ := res_bind_inv h
  by_cases hkl : known.length = e.vocab.words.length
  swap
  · rw [if_pos hkl] at h; cases h
  rw [if_neg (by simpa using hkl)] at h
  change (foldRes _ _ _ >>= _) = _ at h
  obtain ⟨rows, h4, h⟩ := res_bind_inv h
  -- the rows of the words
  obtain ⟨s1', is, h5, h6, hwf1, h7, h8, h9⟩ := slice_ok he.storage (sl := .upTo e.vocab.words.length)
    (by simp [PySlice.upTo])
  rw [h2] at h5
  cases h5
  have hisl : is.length = e.vocab.words.length := by
    rw [← h7]
    have := toArray_ok hwf1 |>.mp h3
    have := mapRes_length this
    simp at this
    omega
  have his : ∀ i : Nat, i < e.vocab.words.length → is[i]? = some i := by
    have hsel := slicePos_sel h6
    rcases hsel with ⟨_, hso, lo, hlo, hmem⟩ | ⟨hneg, _⟩
    swap
    · simp [PySlice.upTo] at hneg
    have hlo0 : lo = 0 := by rw [hlo]; simp [PySlice.upTo]
    subst hlo0
    have hlt : ∀ x ∈ is, x < e.vocab.words.length := by
      intro x hx
      have := ((hmem x).mp hx).2.2.1 _ rfl
      unfold wrapBound at this
      rw [if_neg (by omega)] at this
      omega
    have heq : is = List.range e.vocab.words.length := by
      have hp : is.Perm (List.range e.vocab.words.length) := by
        have hnd : is.Nodup := hso.imp (fun h => Nat.ne_of_lt h)
        have hsub : is ⊆ List.range e.vocab.words.length := fun x hx => List.mem_range.mpr (hlt x hx)
        refine (List.subperm_of_subset hnd hsub).perm_of_length_le ?_
        rw [List.length_range, hisl]
      exact hp.eq_of_pairwise (fun a b _ _ h1 h2 => absurd h1 (by omega)) hso List.pairwise_lt_range
    intro i hi
    rw [heq]; exact List.getElem?_range hi
  have hknown : ∀ i : Nat, i < e.vocab.words.length → e.storage.getOne i = npGet known (i : Int) := by
    intro i hi
    rw [← h9 i i (his i hi)]
    have h10 := mapRes_ok.mp ((toArray_ok hwf1).mp h3)
    have hi1 : i < ((List.range s1.nRows).map fun i : Nat => (i : Int)).length := by
      simp; rw [h7, hisl]; exact hi
    have := (List.forall₂_iff_get.mp h10).2 i hi1 (by rw [hkl]; exact hi)
    simp only [List.get_eq_getElem, List.getElem_map, List.getElem_range] at this
    rw [this, npGet_nat.mpr (List.getElem?_eq_getElem (by rw [hkl]; exact hi))]
  have hinit : RowsInv e ix eix e.vocab.words.length known
      (known ++ (List.replicate (e.vocab.words.length + bs.length)
        (List.replicate e.storage.nCols NumOps.zero)).drop e.vocab.words.length)
      (e.vocab.words.length + bs.length) [] := by
    refine ⟨?_, ?_, by simp, ?_⟩
    · rw [List.length_append, hkl]; simp
    · intro i hi
      exact List.getElem?_append_left (by rw [hkl]; exact hi)
    · intro x hx
      rcases List.mem_append.mp hx with hx | hx
      · obtain ⟨j, hj, rfl⟩ := List.getElem_of_mem hx
        have := hknown j (by omega)
        rw [npGet_nat.mpr (List.getElem?_eq_getElem hj)] at this
        exact getOne_length he.storage this
      · have := List.mem_of_mem_drop hx
        rw [List.mem_replicate] at this
        rw [this.2]; simp
  have hinv := b2eRows_inv he.storage r rfl eix.ngrams (fun g hg => (r.ngrams.2.1 g).mp hg)
    (by simp) hinit h4
  have hnew := b2eEmb_new he hs r hinv.length
  rw [h] at hnew
  have he' := Except.ok.inj hnew
  rw [List.nil_append] at hinv
  subst he'
  refine ⟨r, ⟨⟨?_, ?_⟩, ?_, h⟩, rfl, rfl, ⟨_, rfl⟩, ?_, ?_⟩
  · intro jx hj
    simp only [r.vocab, Option.some.injEq] at hj
    rw [← hj]
    exact explBuilt hA r
  · simp only [r.vocab]
    exact Vocab.new_ok.mpr ⟨he.vocab.nodup, rfl⟩
  · refine ⟨hinv.cols, ?_⟩
    show ShapeOk rows.length e.storage.nCols
    rw [hinv.length, ← hub, hz1, hz2', Int.toNat_natCast]
    exact hz3
  · intro i hi
    rw [hknown i hi]
    show npGet rows (i : Int) = _
    have h11 := hinv.known i hi
    have h12 := List.getElem?_eq_getElem (l := known) (i := i) (by rw [hkl]; exact hi)
    rw [npGet_nat.mpr h12, npGet_nat.mpr (h11.trans h12)]
  · intro g hg k hk
    obtain ⟨v, hv1, hv2⟩ := hinv.done g ((r.ngrams.2.1 g).mpr hg) k hk
    rw [hv2]
    show npGet rows _ = _
    rw [show (e.vocab.words.length : Int) + (k : Int) = ((e.vocab.words.length + k : Nat) : Int) by
      push_cast; rfl, npGet_nat]
    exact hv1

/-- The words, n-gram range and norms stay, metadata is dropped, the result satisfies the
invariants of the constructor. -/
theorem C25_result (e e' : Embeddings K) (he : BuiltEmb e) (h : e.bucketToExplicit = .ok e') :
    BuiltEmb e' ∧ e'.vocab.words = e.vocab.words ∧ e'.norms = e.norms ∧ e'.metadata = none ∧
      e.vocab.toExplicit = .ok e'.vocab := by
  cases hs : e.vocab.sub with
  | none => unfold Embeddings.bucketToExplicit at h; rw [hs] at h; cases h
  | some ix =>
    obtain ⟨hh, hA, eix, bs, r⟩ := b2eEmb_of he hs h
    have hv : e'.vocab.words = e.vocab.words := by rw [r.vocab.vocab]
    refine ⟨r.built, hv, r.norms, r.metadata, ?_⟩
    unfold Embeddings.bucketToExplicit at h
    rw [hs] at h
    have : ∃ v', e.vocab.toExplicit = .ok v' := by
      cases ix with
      | expl x => exact absurd rfl (hh x)
      | fifu x => obtain ⟨v', h1, _⟩ := res_bind_inv h; exact ⟨v', h1⟩
      | ft x => obtain ⟨v', h1, _⟩ := res_bind_inv h; exact ⟨v', h1⟩
    obtain ⟨v', h1⟩ := this
    obtain ⟨hb, _⟩ := toExplicit_eq hs h1
    have hix := he.vocab.1 ix hs
    rw [h1]
    -- the vocabulary is the converted one
    have : e'.vocab = v' := by
      cases ix with
      | expl x => exact absurd rfl (hh x)
      | fifu x =>
        obtain ⟨v'', h2, h⟩ := res_bind_inv h
        rw [h1] at h2; cases h2
        obtain ⟨_, eix', bs', r'⟩ := bucketToExplicit_inv he.vocab.nodup hix hb
        rw [show v'.sub = some (.expl eix') by rw [r'.vocab]] at h
        simp only at h
        obtain ⟨_, _, h⟩ := res_bind_inv h
        obtain ⟨s1, _, h⟩ := res_bind_inv h
        obtain ⟨known, _, h⟩ := res_bind_inv h
        by_cases hkl : known.length = v'.len
        · rw [if_neg (by simpa using hkl)] at h
          change (foldRes _ _ _ >>= _) = _ at h
          obtain ⟨rows, _, h⟩ := res_bind_inv h
          rw [(embNew_iff.mp h).1]
        · rw [if_pos hkl] at h; cases h
      | ft x =>
        obtain ⟨v'', h2, h⟩ := res_bind_inv h
        rw [h1] at h2; cases h2
        obtain ⟨_, eix', bs', r'⟩ := bucketToExplicit_inv he.vocab.nodup hix hb
        rw [show v'.sub = some (.expl eix') by rw [r'.vocab]] at h
        simp only at h
        obtain ⟨_, _, h⟩ := res_bind_inv h
        obtain ⟨s1, _, h⟩ := res_bind_inv h
        obtain ⟨known, _, h⟩ := res_bind_inv h
        by_cases hkl : known.length = v'.len
        · rw [if_neg (by simpa using hkl)] at h
          change (foldRes _ _ _ >>= _) = _ at h
          obtain ⟨rows, _, h⟩ := res_bind_inv h
          rw [(embNew_iff.mp h).1]
        · rw [if_pos hkl] at h; cases h
    rw [this]

/-- Known words keep their embedding and norm.

Partial, like the following theorems: only if the conversion returns, which `C25_success`
characterises; `C25_no_ngrams_refuted` is an embedding for which it raises. -/
theorem C25_known_partial (e e' : Embeddings K) (he : BuiltEmb e) (h : e.bucketToExplicit = .ok e')
    (w : PyStr) (hw : w ∈ e.vocab.words) :
    e'.getItem w = e.getItem w ∧ e'.embedding w = e.embedding w ∧
      e'.embeddingWithNorm w = e.embeddingWithNorm w := by
  cases hs : e.vocab.sub with
  | none => unfold Embeddings.bucketToExplicit at h; rw [hs] at h; cases h
  | some ix =>
    obtain ⟨hh, hA, eix, bs, r⟩ := b2eEmb_of he hs h
    obtain ⟨i, hi, hiw⟩ := List.getElem_of_mem hw
    have hgi : Dict.get? e.vocab.index w = some i :=
      he.vocab.get.mpr (by rw [List.getElem?_eq_getElem hi, hiw])
    have hgi' : Dict.get? e'.vocab.index w = some i :=
      r.built.vocab.get.mpr (by rw [r.vocab.vocab]; simp only; rw [List.getElem?_eq_getElem hi, hiw])
    have hs' : e'.vocab.sub = some (.expl eix) := by rw [r.vocab.vocab]
    have hemb : e'.embed (.one i) = e.embed (.one i) := by
      unfold Embeddings.embed
      simp only
      rw [r.known i hi, r.norms]
    refine ⟨?_, ?_, ?_⟩
    · unfold Embeddings.getItem Vocab.getItem
      rw [hs, hs', hgi, hgi']
      show (e'.embed (.one i) >>= _) = (e.embed (.one i) >>= _)
      rw [hemb]
    · unfold Embeddings.embedding Vocab.idx
      rw [hs, hs', hgi, hgi']
      show (e'.embed (.one i) >>= _) = (e.embed (.one i) >>= _)
      rw [hemb]
    · unfold Embeddings.embeddingWithNorm Vocab.idx
      rw [hs, hs', hgi, hgi', r.norms]
      cases e.norms with
      | none => rfl
      | some n =>
        show (e'.embed (.one i) >>= _) = (e.embed (.one i) >>= _)
        rw [hemb]

/-- Unknown words use exactly the n-grams that occur in known words, with the rows of their
buckets: the result is what the old storage gives for the list of those rows. -/
theorem C25_unknown_partial (e e' : Embeddings K) (ix : Indexer) (he : BuiltEmb e)
    (hs : e.vocab.sub = some ix)
    (h : e.bucketToExplicit = .ok e') (w : PyStr) (hw : w ∉ e.vocab.words) (A gs : List PyStr)
    (hA : NgramsOfAll e.vocab.words ix.minN ix.maxN A)
    (hgs : NgramsOf (wrap true w) ix.minN ix.maxN gs) :
    ∃ (bucket : PyStr → Int) (kept : List PyStr),
      (∀ g ∈ A, ix.call g = .ok (some (bucket g))) ∧
      kept.Sublist gs ∧ kept = gs.filter (· ∈ A) ∧
      e'.getItem w = if kept = [] then .error .keyError else (do
        let r ← e.embed (.many (kept.map fun g => (e.vocab.words.length : Int) + bucket g))
        return r.1) := by
  obtain ⟨hh, hAne, eix, bs, r⟩ := b2eEmb_of he hs h
  have hix := he.vocab.1 ix hs
  have hAe := ngramsOfAll_unique hix hA
  have hgse : gs = wordNgrams ix w := C17_unique _ _ _ _ _ hgs (ngramsOf_wordNgrams hix w)
  subst hAe hgse
  refine ⟨bucketOf ix, _, r.vocab.callOk, List.filter_sublist, rfl, ?_⟩
  have hs' : e'.vocab.sub = some (.expl eix) := by rw [r.vocab.vocab]
  have hw' : Dict.get? e'.vocab.index w = none := by
    rw [r.built.vocab.get_none, r.vocab.vocab]; exact hw
  have hbe := r.built.vocab.1 _ hs'
  have hidx := expl_indices hbe w e'.vocab.words.length
  have hwn : wordNgrams (.expl eix) w = wordNgrams ix w :=
    wordNgrams_congr (a := .expl eix) (b := ix) r.vocab.minN r.vocab.maxN w
  have hwl : e'.vocab.words.length = e.vocab.words.length := by rw [r.vocab.vocab]
  rw [hwn, hwl] at hidx
  -- the indices, one per kept n-gram
  have hfm : ∀ l : List PyStr, (l.filterMap fun g => (eix.call g).map fun i =>
        (e.vocab.words.length : Int) + i) =
      (l.filter (· ∈ allNgrams ix e.vocab.words)).map fun g =>
        (e.vocab.words.length : Int) + (eix.call g).getD 0 := by
    intro l
    induction l with
    | nil => rfl
    | cons g l ih =>
      by_cases hg : g ∈ allNgrams ix e.vocab.words
      · obtain ⟨k, _, hc⟩ := r.vocab.call g hg
        rw [List.filterMap_cons, hc, List.filter_cons_of_pos (by simpa using hg), List.map_cons, hc,
          ← ih]
        rfl
      · rw [List.filterMap_cons, r.vocab.none g hg, List.filter_cons_of_neg (by simpa using hg), ← ih]
        rfl
  rw [hfm] at hidx
  generalize hkept : (wordNgrams ix w).filter (· ∈ allNgrams ix e.vocab.words) = kept at hidx ⊢
  have hkA : ∀ g ∈ kept, g ∈ allNgrams ix e.vocab.words := by
    intro g hg
    rw [← hkept, List.mem_filter] at hg
    simpa using hg.2
  unfold Embeddings.getItem Vocab.getItem
  rw [hs', hw']
  simp only
  have hsi : e'.vocab.subwordIndices (.expl eix) w = .ok (kept.map fun g =>
      (e.vocab.words.length : Int) + (eix.call g).getD 0) := by
    unfold Vocab.subwordIndices; rw [hwl]; exact hidx
  rw [hsi]
  simp only [res_bind_ok]
  by_cases hk : kept = []
  · subst hk
    rfl
  · have : kept.map (fun g => (e.vocab.words.length : Int) + (eix.call g).getD 0) ≠ [] := by
      intro hc; exact hk (List.map_eq_nil_iff.mp hc)
    rw [if_pos this, if_neg hk]
    show (e'.embed _ >>= _) = _
    congr 1
    unfold Embeddings.embed
    simp only
    have hcols : ∀ (a b : Nat) (rows : List (List K)), rows ≠ [] →
        addReduce a rows = addReduce b rows := by
      intro a b rows hr
      cases rows with
      | nil => exact absurd rfl hr
      | cons x xs => rfl
    rw [getMany_eq, getMany_eq, mapRes_comp, mapRes_comp]
    have : mapRes (fun g => e'.storage.getOne ((e.vocab.words.length : Int) + (eix.call g).getD 0))
        kept = mapRes (fun g => e.storage.getOne ((e.vocab.words.length : Int) + bucketOf ix g))
        kept := by
      refine mapRes_congr fun g hg => ?_
      obtain ⟨k, _, hc⟩ := r.vocab.call g (hkA g hg)
      rw [hc]
      exact r.sub g (hkA g hg) k hc
    rw [this]
    cases hm : mapRes (fun g => e.storage.getOne ((e.vocab.words.length : Int) + bucketOf ix g))
        kept with
    | error x => rfl
    | ok rows =>
      have : rows ≠ [] := by
        intro hr
        have := mapRes_length hm
        rw [hr] at this
        exact hk (List.length_eq_zero_iff.mp this.symm)
      simp only [res_bind_ok]
      rw [hcols e'.storage.nCols e.storage.nCols rows this]

/-- Unknown words all of whose n-grams occur in known words keep their embedding.  Lists in memory
have fewer than `2^63` items. -/
theorem C25_same_partial (e e' : Embeddings K) (ix : Indexer) (he : BuiltEmb e)
    (hs : e.vocab.sub = some ix) (hlen : e.vocab.words.length < 2 ^ 63)
    (h : e.bucketToExplicit = .ok e') (w : PyStr) (hw : w ∉ e.vocab.words) (A gs : List PyStr)
    (hA : NgramsOfAll e.vocab.words ix.minN ix.maxN A)
    (hgs : NgramsOf (wrap true w) ix.minN ix.maxN gs) (hne : gs ≠ []) (hall : ∀ g ∈ gs, g ∈ A) :
    e'.getItem w = e.getItem w := by
  obtain ⟨bucket, kept, h1, _, h3, h4⟩ := C25_unknown_partial e e' ix he hs h w hw A gs hA hgs
  obtain ⟨hh, hAne, eix, bs, r⟩ := b2eEmb_of he hs h
  have hix := he.vocab.1 ix hs
  have hAe := ngramsOfAll_unique hix hA
  have hgse : gs = wordNgrams ix w := C17_unique _ _ _ _ _ hgs (ngramsOf_wordNgrams hix w)
  have hkept : kept = gs := by
    rw [h3, List.filter_eq_self]
    intro g hg
    simpa using hall g hg
  rw [h4, hkept, if_neg hne]
  have hsur : (∃ f, ix = .ft f) → w.any isSurrogate = false := by
    rintro ⟨f, rfl⟩
    cases hsu : w.any isSurrogate with
    | false => rfl
    | true =>
      obtain ⟨c, hc, hcs⟩ := List.any_eq_true.mp hsu
      obtain ⟨g, hg, hcg⟩ := wordNgrams_cover hix (by rw [← hgse]; exact hne) hc
      have h5 := h1 g (hall g (by rw [hgse]; exact hg))
      unfold Indexer.call FtIndexer.call at h5
      rw [encode_err (List.any_eq_true.mpr ⟨c, hcg, hcs⟩)] at h5
      cases h5
  obtain ⟨h6, h7⟩ := hash_indices hix hh w hlen hsur
  rw [← hgse] at h6 h7
  have hb : ∀ g ∈ gs, bucketOf ix g = bucket g := by
    intro g hg
    have h8 := h1 g (hall g hg)
    rw [h7 g hg] at h8
    simpa using h8
  have hmap : (gs.map fun g => (e.vocab.words.length : Int) + bucketOf ix g) =
      gs.map fun g => (e.vocab.words.length : Int) + bucket g :=
    List.map_congr_left fun g hg => by rw [hb g hg]
  rw [hmap] at h6
  unfold Embeddings.getItem Vocab.getItem
  rw [hs, he.vocab.get_none.mpr hw]
  simp only
  rw [show e.vocab.subwordIndices ix w = _ from h6]
  simp only [res_bind_ok]
  rw [if_pos (by intro hc; exact hne (List.map_eq_nil_iff.mp hc))]
  rfl

/-- `TypeError` for other vocabularies; otherwise the conversion succeeds iff that of the
vocabulary does (see `C24_success`) and numpy has arrays of the new shape, and an exception of the
former is passed on.  Quantized codes are assumed to select centroids; otherwise reading the rows
raises `IndexError`. -/
theorem C25_success (e : Embeddings K) (he : BuiltEmb e) :
    ((∀ f, e.vocab.sub ≠ some (.fifu f)) → (∀ f, e.vocab.sub ≠ some (.ft f)) →
      e.bucketToExplicit = .error .typeError) ∧
    ((∃ f, e.vocab.sub = some (.fifu f)) ∨ (∃ f, e.vocab.sub = some (.ft f)) →
      (∀ x, e.vocab.toExplicit = .error x → e.bucketToExplicit = .error x) ∧
      (∀ v', e.vocab.toExplicit = .ok v' → ¬ ShapeOk v'.upperBound.toNat e.storage.nCols →
        e.bucketToExplicit = .error .valueError) ∧
      (CodesOk e.storage → ∀ v', e.vocab.toExplicit = .ok v' →
        ShapeOk v'.upperBound.toNat e.storage.nCols → ∃ e', e.bucketToExplicit = .ok e')) := by
  refine ⟨fun h1 h2 => ?_, fun hex => ?_⟩
  · unfold Embeddings.bucketToExplicit
    rcases hs : e.vocab.sub with _ | (ix | ix | ix)
    · rfl
    · exact absurd hs (h1 ix)
    · exact absurd hs (h2 ix)
    · rfl
  · obtain ⟨ix, hs, hh⟩ : ∃ ix, e.vocab.sub = some ix ∧ ∀ x, ix ≠ .expl x := by
      obtain ⟨f, h⟩ | ⟨f, h⟩ := hex
      · exact ⟨_, h, by simp⟩
      · exact ⟨_, h, by simp⟩
    have hunf : e.bucketToExplicit = (do
      let vocab ← e.vocab.toExplicit
      match vocab.sub with
      | some (.expl eix) => do
        let cols := e.storage.nCols
        let n := vocab.len
        let _ ← zerosShape vocab.upperBound cols
        let zero := List.replicate vocab.upperBound.toNat (List.replicate cols NumOps.zero)
        let known ← e.storage.slice (.upTo n)
        let known ← known.toArray
        if known.length ≠ n then .error .valueError
        let rows := known ++ zero.drop n
        let rows ← foldRes (b2eRow e ix eix n) rows eix.ngrams
        Embeddings.new (.nd ⟨cols, rows⟩) vocab e.norms none
      | _ => .error .attributeError) := by
      unfold Embeddings.bucketToExplicit
      rw [hs]
      cases ix with
      | expl x => exact absurd rfl (hh x)
      | fifu x => rfl
      | ft x => rfl
    rw [hunf]
    refine ⟨fun x hx => by rw [hx]; rfl, fun v' h1 hsh => ?_, fun hc v' h1 hsh => ?_⟩
    · obtain ⟨hb, _⟩ := toExplicit_eq hs h1
      obtain ⟨hA, eix, bs, r⟩ := bucketToExplicit_inv he.vocab.nodup (he.vocab.1 ix hs) hb
      rw [h1]
      simp only [res_bind_ok]
      rw [show v'.sub = some (.expl eix) by rw [r.vocab]]
      simp only
      cases hz : zerosShape v'.upperBound e.storage.nCols with
      | error x => rw [zerosShape_error hz]; rfl
      | ok s =>
        obtain ⟨hz1, hz2, hz3⟩ := zerosShape_iff.mp hz
        rw [hz1, Int.toNat_natCast, Int.ofNat.inj hz2] at hsh
        exact absurd hz3 hsh
    obtain ⟨hb, _⟩ := toExplicit_eq hs h1
    have hix := he.vocab.1 ix hs
    obtain ⟨hA, eix, bs, r⟩ := bucketToExplicit_inv he.vocab.nodup hix hb
    have hv'len : v'.len = e.vocab.words.length := by
      rw [r.vocab]; simp [Vocab.len, enumItems_length]
    have hub : v'.upperBound.toNat = e.vocab.words.length + bs.length := by
      rw [r.vocab]
      simp only [Vocab.upperBound, Vocab.len, enumItems_length, Indexer.upperBound, r.bound]
      omega
    have hz : zerosShape v'.upperBound e.storage.nCols = .ok (v'.upperBound.toNat, e.storage.nCols) := by
      refine zerosShape_iff.mpr ⟨?_, rfl, hsh⟩
      rw [r.vocab]
      simp only [Vocab.upperBound, Vocab.len, enumItems_length, Indexer.upperBound, r.bound]
      omega
    have hrows : (e.storage.nRows : Int) = e.vocab.words.length + ix.upperBound := by
      rw [(embNew_iff.mp he.new).2.1]
      unfold Vocab.upperBound
      rw [hs, he.vocab.len]
    have hbn : ∀ g ∈ allNgrams ix e.vocab.words, 0 ≤ bucketOf ix g ∧ bucketOf ix g < ix.upperBound :=
      fun g hg => call_lt hix (fun x hx => absurd hx (hh x)) (r.callOk g hg)
    have hubn : 0 ≤ ix.upperBound := by
      obtain ⟨g, hg⟩ := List.exists_mem_of_ne_nil _ hA
      have := hbn g hg
      omega
    obtain ⟨s1, is, h5, h6, hwf1, h7, h8, h9⟩ := slice_ok he.storage
      (sl := .upTo e.vocab.words.length) (by simp [PySlice.upTo])
    have his : is = List.range e.vocab.words.length := by
      refine sliceSel_unique (slicePos_sel h6) ?_
      left
      refine ⟨by simp [PySlice.upTo], List.pairwise_lt_range, 0, by simp [PySlice.upTo], fun x => ?_⟩
      simp only [PySlice.upTo, List.mem_range, Option.some.injEq, forall_eq', wrapBound]
      rw [if_neg (by omega)]
      simp
      omega
    have hn1 : s1.nRows = e.vocab.words.length := by rw [h7, his, List.length_range]
    obtain ⟨known, h3⟩ := (C36_array s1 hwf1).2 (by
      intro i hi
      rw [h9 i i (by rw [his]; exact List.getElem?_range (by omega))]
      exact getOne_total he.storage hc (by omega))
    obtain ⟨hkl, hkr⟩ := (C36_array s1 hwf1).1 known h3
    rw [hn1] at hkl
    rw [h1]
    simp only [res_bind_ok]
    rw [show v'.sub = some (.expl eix) by rw [r.vocab]]
    simp only [hv'len, hub, h5, h3, hz, res_bind_ok]
    rw [if_neg (by simpa using hkl)]
    show ∃ e', (foldRes _ _ _ >>= _) = _
    have hinit : RowsInv e ix eix e.vocab.words.length known
        (known ++ (List.replicate (e.vocab.words.length + bs.length)
          (List.replicate e.storage.nCols NumOps.zero)).drop e.vocab.words.length)
        (e.vocab.words.length + bs.length) [] := by
      refine ⟨?_, ?_, by simp, ?_⟩
      · rw [List.length_append, hkl]; simp
      · intro i hi
        exact List.getElem?_append_left (by rw [hkl]; exact hi)
      · intro x hx
        rcases List.mem_append.mp hx with hx | hx
        · obtain ⟨j, hj, rfl⟩ := List.getElem_of_mem hx
          rw [← h8]
          exact getOne_length hwf1 ((hkr j _).mp (List.getElem?_eq_getElem hj))
        · have := List.mem_of_mem_drop hx
          rw [List.mem_replicate] at this
          rw [this.2]; simp
    obtain ⟨rows, h4⟩ := b2eRows_total he.storage r rfl eix.ngrams
      (fun g hg => (r.ngrams.2.1 g).mp hg) (fun g hg => getOne_total he.storage hc (by
        have := hbn g hg
        omega)) (by simp) hinit
    have hinv := b2eRows_inv he.storage r rfl eix.ngrams (fun g hg => (r.ngrams.2.1 g).mp hg)
      (by simp) hinit h4
    rw [h4]
    exact ⟨_, b2eEmb_new he hs r hinv.length⟩

end

/-- Bucket embeddings whose words are too short to have an n-gram cannot be converted. -/
theorem C25_no_ngrams_refuted : ∃ e : Embeddings Int, BuiltEmb e ∧
    (∃ f, e.vocab.sub = some (.ft f)) ∧ e.bucketToExplicit = .error .valueError := by
  refine ⟨⟨.nd ⟨1, [[5], [6]]⟩, ⟨[[97]], [([97], 0)], some (.ft ⟨1, 4, 6⟩)⟩, none, none⟩,
    ⟨⟨?_, by decide⟩, ?_, ?_⟩, ⟨_, rfl⟩, Sample.of_errOf (by decide +kernel)⟩
  · intro ix h
    cases h
    exact .ft (b := 1) (mn := 4) (mx := 6) (by decide)
  · unfold StorageWF Mat.WF ShapeOk; decide
  · exact embNew_iff.mpr ⟨rfl, by decide, by simp⟩

/-! ### The hypotheses can be met -/

namespace Sample

/-- `ab` and `ba` with bigrams in three buckets and rational vectors -/
def embRat : Embeddings Rat :=
  ⟨.nd ⟨2, [[3, 4], [0, 2], [300, 0], [7, 7], [0, 400]]⟩,
    ⟨[[97, 98], [98, 97]], [([97, 98], 0), ([98, 97], 1)], some (.ft ⟨3, 2, 2⟩)⟩, some [5, 2], none⟩

theorem builtEmbRat : BuiltEmb embRat := by
  refine ⟨⟨?_, by decide⟩, by unfold embRat StorageWF Mat.WF ShapeOk; decide, embNew_iff.mpr ⟨rfl, by decide,
    by intro n hn; cases hn; decide⟩⟩
  intro ix h
  cases h
  exact .ft (b := 3) (mn := 2) (mx := 2) (by decide)

end Sample

/-- `ab` is known, all n-grams of `aba` are, only `a>` of `ca` is, none of `c`. -/
example : (do
    let e ← Sample.embRat.bucketToExplicit
    let a ← e.getItem [97, 98]
    let b ← e.getItem [97, 98, 97]
    let b' ← Sample.embRat.getItem [97, 98, 97]
    let c ← e.getItem [99, 97]
    return (a, b, b', c, Sample.errOf (e.getItem [99]))) =
    Except.ok ([3, 4], [3 / 7, 4 / 7], [3 / 7, 4 / 7], [1, 0], some .keyError) := by decide +kernel

/-- The hypotheses of the theorems hold for them. -/
example : ∃ e' A gs, BuiltEmb Sample.embRat ∧ Sample.embRat.bucketToExplicit = .ok e' ∧
    Sample.embRat.vocab.words.length < 2 ^ 63 ∧ [97, 98] ∈ Sample.embRat.vocab.words ∧
    [97, 98, 97] ∉ Sample.embRat.vocab.words ∧
    NgramsOfAll Sample.embRat.vocab.words 2 2 A ∧ NgramsOf (wrap true [97, 98, 97]) 2 2 gs ∧
    gs ≠ [] ∧ ∀ g ∈ gs, g ∈ A := by
  obtain ⟨e', h⟩ := Sample.ok_of_errOf (r := Sample.embRat.bucketToExplicit) (by decide +kernel)
  have hix := Sample.builtEmbRat.vocab.1 _ rfl
  exact ⟨e', _, _, Sample.builtEmbRat, h, by decide, by decide, by decide,
    ngramsOfAll_allNgrams hix _, ngramsOf_wordNgrams hix _, by decide +kernel, by decide +kernel⟩

end FF
