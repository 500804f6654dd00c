import Verif.Lemmas.ToExplicit
import Verif.Props.C17
import Verif.Spec.Samples
/-! C24: `to_explicit`. -/

namespace FF

theorem ngramsOf_wordNgrams {ix : Indexer} (hix : BuiltIndexer ix) (w : PyStr) :
    NgramsOf (wrap true w) ix.minN ix.maxN (wordNgrams ix w) := by
  obtain ⟨gs, h1, h2⟩ := C17_enumerates w ix.minN ix.maxN true hix.range.2 hix.range.1
  rw [ngrams_occs hix.range.1 hix.range.2] at h1
  cases h1
  exact h2

theorem ngramsOfAll_allNgrams {ix : Indexer} (hix : BuiltIndexer ix) (ws : List PyStr) :
    NgramsOfAll ws ix.minN ix.maxN (allNgrams ix ws) := by
  refine ⟨ws.map (wordNgrams ix), ?_, rfl⟩
  induction ws with
  | nil => exact .nil
  | cons w ws ih => exact .cons (ngramsOf_wordNgrams hix w) ih

theorem ngramsOfAll_unique {ix : Indexer} (hix : BuiltIndexer ix) {ws A : List PyStr}
    (h : NgramsOfAll ws ix.minN ix.maxN A) : A = allNgrams ix ws := by
  obtain ⟨gss, hf, rfl⟩ := h
  unfold allNgrams
  rw [List.flatMap_def]
  congr 1
  induction hf with
  | nil => rfl
  | cons hw _ ih =>
    rw [List.map_cons, ih, C17_unique _ _ _ _ _ hw (ngramsOf_wordNgrams hix _)]

theorem toExplicit_eq {v v' : Vocab} {ix : Indexer} (hs : v.sub = some ix)
    (h : v.toExplicit = .ok v') : bucketToExplicit v ix = .ok v' ∧ ∀ e, ix ≠ .expl e := by
  unfold Vocab.toExplicit at h
  rw [hs] at h
  cases ix with
  | fifu ix => exact ⟨h, by simp⟩
  | ft ix => exact ⟨h, by simp⟩
  | expl ix => cases h

/-- If the conversion succeeds: `A` are the n-grams of the known words in order, `bucket` the
hash bucket of each.  The words are kept, the n-grams of the result are the distinct elements of
`A` by first occurrence, and the index of an n-gram is the position of its bucket among the
distinct buckets by first occurrence; nothing else has an index.

Partial: the property claims this for every vocabulary, but the conversion raises for some
(`C24_success`, `C24_no_ngrams_refuted`). -/
theorem C24_preserves_partial (v v' : Vocab) (ix : Indexer) (hv : BuiltVocab v)
    (hs : v.sub = some ix) (h : v.toExplicit = .ok v') :
    ∃ (eix : ExplIndexer) (A : List PyStr) (bucket : PyStr → Int) (bs : List Int),
      NgramsOfAll v.words ix.minN ix.maxN A ∧
      (∀ g ∈ A, ix.call g = .ok (some (bucket g))) ∧
      BuiltVocab v' ∧ v'.words = v.words ∧ v'.sub = some (.expl eix) ∧
      eix.minN = ix.minN ∧ eix.maxN = ix.maxN ∧
      InFirstOrder A eix.ngrams ∧ InFirstOrder (A.map bucket) bs ∧
      v'.upperBound = v.words.length + bs.length ∧
      ∀ g k, eix.call g = some k ↔ g ∈ A ∧ ∃ n : Nat, bs[n]? = some (bucket g) ∧ k = n := by
  have hix := hv.1 ix hs
  obtain ⟨hb, hne⟩ := toExplicit_eq hs h
  obtain ⟨hA, eix, bs, r⟩ := bucketToExplicit_inv hv.nodup hix hb
  have hk : (Dict.keys eix.index).Nodup := r.valid.keys.nodup_iff.mpr r.valid.nodup
  have hgne : eix.ngrams ≠ [] := by
    obtain ⟨g, hg⟩ := List.exists_mem_of_ne_nil _ hA
    exact List.ne_nil_of_mem ((r.ngrams.2.1 g).mpr hg)
  refine ⟨eix, _, bucketOf ix, bs, ngramsOfAll_allNgrams hix _, r.callOk, ⟨?_, ?_⟩, ?_, ?_, r.minN,
    r.maxN, r.ngrams, r.buckets, ?_, ?_⟩
  · rw [r.vocab]
    intro jx hj
    cases hj
    exact .explIdx hk ((explNew_some hk).mpr ⟨r.valid, rfl, rfl, rfl, rfl, hgne⟩)
  · rw [r.vocab]; exact Vocab.new_ok.mpr ⟨hv.nodup, rfl⟩
  · rw [r.vocab]
  · rw [r.vocab]
  · rw [r.vocab]
    simp [Vocab.upperBound, Vocab.len, enumItems_length, Indexer.upperBound, r.bound]
  · intro g k
    by_cases hg : g ∈ allNgrams ix v.words
    · obtain ⟨n, hn, hc⟩ := r.call g hg
      rw [hc]
      constructor
      · intro hk; cases hk; exact ⟨hg, n, hn, rfl⟩
      · rintro ⟨_, m, hm, rfl⟩
        have := (List.getElem?_inj (List.getElem?_eq_some_iff.mp hn).1 r.buckets.1).mp (hn.trans hm.symm)
        rw [this]
    · rw [r.none g hg]
      constructor
      · intro hk; cases hk
      · intro hk; exact absurd hk.1 hg

/-- Two n-grams of known words get the same index iff they share a bucket. -/
theorem C24_same_bucket (v v' : Vocab) (ix : Indexer) (eix : ExplIndexer) (A : List PyStr)
    (hv : BuiltVocab v) (hs : v.sub = some ix) (h : v.toExplicit = .ok v')
    (he : v'.sub = some (.expl eix)) (hA : NgramsOfAll v.words ix.minN ix.maxN A) (g g' : PyStr)
    (hg : g ∈ A) (hg' : g' ∈ A) : eix.call g = eix.call g' ↔ ix.call g = ix.call g' := by
  have hix := hv.1 ix hs
  obtain ⟨hb, _⟩ := toExplicit_eq hs h
  obtain ⟨_, eix', bs, r⟩ := bucketToExplicit_inv hv.nodup hix hb
  rw [ngramsOfAll_unique hix hA] at hg hg'
  rw [r.vocab] at he
  cases he
  obtain ⟨n, hn, hc⟩ := r.call g hg
  obtain ⟨n', hn', hc'⟩ := r.call g' hg'
  rw [hc, hc', r.callOk g hg, r.callOk g' hg']
  constructor
  · intro heq
    have : n = n' := by simpa using heq
    rw [this, hn'] at hn
    rw [Option.some.inj hn]
  · intro heq
    have : bucketOf ix g = bucketOf ix g' := by simpa using heq
    rw [this, ← hn'] at hn
    rw [(List.getElem?_inj (List.getElem?_eq_some_iff.mp (hn.trans hn')).1 r.buckets.1).mp hn]

/-- The indices used are exactly 0, …, `upper_bound - 1` of the new indexer. -/
theorem C24_range (v v' : Vocab) (ix : Indexer) (eix : ExplIndexer) (A : List PyStr)
    (hv : BuiltVocab v) (hs : v.sub = some ix) (h : v.toExplicit = .ok v')
    (he : v'.sub = some (.expl eix)) (hA : NgramsOfAll v.words ix.minN ix.maxN A) (i : Int) :
    (0 ≤ i ∧ i < eix.bound) ↔ ∃ g ∈ A, eix.call g = some i := by
  have hix := hv.1 ix hs
  obtain ⟨hb, _⟩ := toExplicit_eq hs h
  obtain ⟨_, eix', bs, r⟩ := bucketToExplicit_inv hv.nodup hix hb
  rw [ngramsOfAll_unique hix hA]
  rw [r.vocab] at he
  cases he
  rw [r.bound]
  constructor
  · rintro ⟨h0, h1⟩
    have hlt : i.toNat < bs.length := by omega
    have hm : bs[i.toNat] ∈ (allNgrams ix v.words).map (bucketOf ix) := by
      rw [← r.buckets.2.1]; exact List.getElem_mem hlt
    obtain ⟨g, hg, hgb⟩ := List.mem_map.mp hm
    obtain ⟨n, hn, hc⟩ := r.call g hg
    refine ⟨g, hg, ?_⟩
    rw [hc]
    have : bs[n]? = bs[i.toNat]? := by rw [hn, hgb, List.getElem?_eq_getElem hlt]
    have := (List.getElem?_inj (List.getElem?_eq_some_iff.mp hn).1 r.buckets.1).mp this
    congr 1
    omega
  · rintro ⟨g, hg, hc⟩
    obtain ⟨n, hn, hc'⟩ := r.call g hg
    rw [hc'] at hc
    cases hc
    have := (List.getElem?_eq_some_iff.mp hn).1
    omega

/-- When it succeeds: iff the known words have an n-gram and, for fastText vocabularies, no
n-gram contains a lone surrogate. -/
theorem C24_success (v : Vocab) (ix : Indexer) (A : List PyStr) (hv : BuiltVocab v)
    (hs : v.sub = some ix) (hh : ∀ e, ix ≠ .expl e) (hA : NgramsOfAll v.words ix.minN ix.maxN A) :
    (∃ v', v.toExplicit = .ok v') ↔
      A ≠ [] ∧ ((∃ f, ix = .ft f) → ∀ g ∈ A, g.any isSurrogate = false) := by
  have hix := hv.1 ix hs
  rw [ngramsOfAll_unique hix hA]
  constructor
  · rintro ⟨v', h⟩
    obtain ⟨hb, _⟩ := toExplicit_eq hs h
    obtain ⟨hne, eix', bs, r⟩ := bucketToExplicit_inv hv.nodup hix hb
    refine ⟨hne, ?_⟩
    rintro ⟨f, rfl⟩ g hg
    cases hsu : g.any isSurrogate with
    | false => rfl
    | true =>
      have := r.callOk g hg
      unfold CallOk Indexer.call FtIndexer.call at this
      rw [encode_err hsu] at this
      cases this
  · rintro ⟨hne, hf⟩
    have hok : ∀ g ∈ allNgrams ix v.words, CallOk ix g := by
      intro g hg
      cases ix with
      | fifu ix => exact callOk_of rfl
      | ft ix =>
        have he := ftCall_eq (ix := ix) (hf ⟨ix, rfl⟩ g hg)
        exact callOk_of (k := _) (by simp only [Indexer.call]; rw [he]; rfl)
      | expl ix => exact absurd rfl (hh ix)
    obtain ⟨v', _, _, h, _⟩ := bucketToExplicit_ok hv.nodup hix hne hok
    refine ⟨v', ?_⟩
    unfold Vocab.toExplicit
    rw [hs]
    cases ix with
    | fifu ix => exact h
    | ft ix => exact h
    | expl ix => exact absurd rfl (hh ix)

/-- The property fails when no known word has an n-gram: `ValueError`. -/
theorem C24_no_ngrams (v : Vocab) (ix : Indexer) (hv : BuiltVocab v) (hs : v.sub = some ix)
    (hh : ∀ e, ix ≠ .expl e) (hA : NgramsOfAll v.words ix.minN ix.maxN []) :
    v.toExplicit = .error .valueError := by
  have hix := hv.1 ix hs
  have h := bucketToExplicit_empty (v := v) hix (ngramsOfAll_unique hix hA).symm
  unfold Vocab.toExplicit
  rw [hs]
  cases ix with
  | fifu ix => exact h
  | ft ix => exact h
  | expl ix => exact absurd rfl (hh ix)

theorem C24_no_ngrams_refuted : ∃ v : Vocab, BuiltVocab v ∧ (∃ f, v.sub = some (.fifu f)) ∧
    v.toExplicit = .error .valueError := by
  refine ⟨⟨[[97]], [([97], 0)], some (.fifu ⟨21, 4, 6⟩)⟩, ⟨?_, by decide⟩, ⟨_, rfl⟩,
    Sample.of_errOf (by decide +kernel)⟩
  intro ix h
  cases h
  exact .fifu (b := 21) (mn := 4) (mx := 6) (by decide)

/-! ### The hypotheses can be met: two buckets, so that n-grams collide -/

example : ∃ v', BuiltVocab Sample.bucket ∧ Sample.bucket.sub = some (.fifu ⟨1, 2, 3⟩) ∧
    Sample.bucket.toExplicit = .ok v' ∧ ∃ eix, v'.sub = some (.expl eix) ∧ eix.bound = 2 ∧
    eix.ngrams.length = 9 := by
  obtain ⟨v', h⟩ := Sample.ok_of_errOf (r := Sample.bucket.toExplicit) (by decide +kernel)
  have h2 : (Sample.bucket.toExplicit.map fun v => (match v.sub with
      | some (.expl e) => some (e.bound, e.ngrams.length) | _ => none)) = .ok (some (2, 9)) := by
    decide +kernel
  rw [h] at h2
  refine ⟨v', Sample.builtBucket, rfl, h, ?_⟩
  simp only [Except.map] at h2
  revert h2
  split
  · rename_i e he
    intro h2
    refine ⟨e, he, ?_⟩
    simpa using h2
  · intro h2; cases h2

example : ∃ A, NgramsOfAll Sample.ft.words 2 3 A ∧ A ≠ [] ∧ ∃ v', Sample.ft.toExplicit = .ok v' := by
  refine ⟨_, ngramsOfAll_allNgrams (ix := .ft ⟨2, 2, 3⟩) Sample.builtFtIx _, by decide +kernel,
    Sample.ok_of_errOf (by decide +kernel)⟩

end FF
