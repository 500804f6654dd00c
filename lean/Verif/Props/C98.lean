import Verif.Lemmas.Alike
import Verif.Props.C34
/-! C98: saved and converted embeddings answer as the original. -/

namespace FF

section
variable [NumOps F32]

/-- Embeddings with the same parts cannot be told apart by lookups and queries. -/
theorem C98_same {a b : Embeddings F32} (ha : BuiltEmb a) (hb : BuiltEmb b) (h : SameEmb a b) : Alike a b := by
  obtain rfl | ⟨i, j, hs, rfl, hij⟩ := h.equal_or ha hb
  · exact Alike.refl _
  · exact alike_expl hs hij

/-- Nor by exports to any format, selections or conversions, whether these succeed or raise. -/
theorem C98_same_exports [NumText F32] [TextIO] (T : Toml) {a b : Embeddings F32} (ha : BuiltEmb a) (hb : BuiltEmb b)
    (h : SameEmb a b) :
    (∀ f : Format, (f.writer T a).file = (f.writer T b).file) ∧ a.bucketToExplicit = b.bucketToExplicit ∧
      ∀ ign input ws, selectEmbeddings a ign input ws = selectEmbeddings b ign input ws := by
  have hal := C98_same ha hb h
  refine ⟨?_, ?_, selectEmbeddings_congr (by rw [h.storage]) h.metadata hal.getItem⟩
  · obtain rfl | ⟨i, j, hs, rfl, hij⟩ := h.equal_or ha hb
    · exact fun _ => rfl
    · intro f
      refine congrArg Wr.file ?_
      cases f with
      | finalfusion =>
        show a.write T = Embeddings.write T _
        have hw : a.vocab.writeChunk = ({ a.vocab with sub := some (.expl j) } : Vocab).writeChunk := by
          obtain ⟨h1, h2, h3, _, h4⟩ := hij
          unfold Vocab.writeChunk
          rw [hs]
          simp only [writeExplicitVocab, h1, h2, h3, h4]
        have hc : a.chunkIds = ({ a with vocab := { a.vocab with sub := some (.expl j) } } : Embeddings F32).chunkIds := by
          unfold Embeddings.chunkIds Vocab.chunkId
          rw [hs]
        unfold Embeddings.write
        rw [hc, hw]
      | fasttext =>
        unfold Format.writer writeFasttext
        simp only [hs, reduceCtorEq, if_false]
      | word2vec => rfl
      | text => rfl
      | textdims => rfl
  · obtain rfl | ⟨i, j, hs, rfl, hij⟩ := h.equal_or ha hb
    · rfl
    · unfold Embeddings.bucketToExplicit
      rw [hs]

/-- What was written can be loaded, also memory-mapped unless the matrix is empty, and answers as the original. -/
theorem C98_saved [NumText F32] [TextIO] (T : Toml) (e : Embeddings F32) (bs : Bytes) (he : BuiltEmb e)
    (hg : HasNgrams e.vocab) (hT : TomlOk T e.metadata) (hw : (e.write T).file = (.ok (), bs)) (mmap : Bool)
    (h0 : mmap = true → e.storage.nonempty) :
    ∃ e', Rd.run (loadFinalfusion T mmap) bs = .ok e' ∧ Alike e e' ∧
      (∀ f : Format, (f.writer T e).file = (f.writer T e').file) ∧ e.bucketToExplicit = e'.bucketToExplicit ∧
      ∀ ign input ws, selectEmbeddings e ign input ws = selectEmbeddings e' ign input ws := by
  obtain ⟨e', h1, h2⟩ : ∃ e', Rd.run (loadFinalfusion T mmap) bs = .ok e' ∧ SameEmb e e' := by
    cases mmap with
    | false => exact C01_roundtrip T e bs he hg hT hw
    | true => exact C12_roundtrip_mmap T e bs he hg hT (h0 rfl) hw
  have hb := (loadFinalfusion_built h1).1
  exact ⟨e', h1, C98_same he hb h2, C98_same_exports T he hb h2⟩

/-- The output of `ffp-convert` to finalfusion answers as the input, whatever its format. -/
theorem C98_convert [NumText F32] [TextIO] [Remap] (T : Toml) (src : Format) (input output : PyStr) (lossy mmap : Bool)
    (fs fs' : FS) (ha : NotOnto src mmap input output)
    (hT : ∀ bs e, fs input = some bs → src.load T lossy mmap bs = .ok e → TomlOk T e.metadata)
    (h : convertMain T src .finalfusion input output lossy mmap fs = (.ok (), fs')) :
    ∃ e e', readFile input (src.load T lossy mmap) fs = .ok e ∧
      readFile output (Format.load T .finalfusion lossy false) fs' = .ok e' ∧ Alike e e' := by
  obtain ⟨e, e', h1, h2, h3, _⟩ := C52_to_finalfusion T src input output lossy mmap fs fs' ha hT h
  have hb : ∀ {p : PyStr} {f : Format} {mm : Bool} {g : FS} {x : Embeddings F32},
      readFile p (f.load T lossy mm) g = .ok x → BuiltEmb x := by
    intro p f mm g x hx
    unfold readFile at hx
    split at hx
    · cases hx
    · exact formatLoad_built hx
  exact ⟨e, e', h1, h2, C98_same (hb h1) (hb h2) h3⟩

end

section
variable {K : Type} [NumOps K]

/-- Known words, and other strings whose n-grams all occur in known words, keep their vectors and norms. -/
theorem C98_explicit_lookup (e e' : Embeddings K) (he : BuiltEmb e) (hlen : e.vocab.words.length < 2 ^ 63)
    (h : e.bucketToExplicit = .ok e') (w : PyStr) (hc : CarriedOver e.vocab w) :
    e'.getItem w = e.getItem w ∧ e'.embedding w = e.embedding w ∧ e'.embeddingWithNorm w = e.embeddingWithNorm w :=
  explicit_lookup he hlen h hc

/-- Queries for them, and for any vector, have the same outcome as before the conversion. -/
theorem C98_explicit (e e' : Embeddings K) (he : BuiltEmb e) (hlen : e.vocab.words.length < 2 ^ 63)
    (m : Mat K) (hm : e.storage = .nd m) (h : e.bucketToExplicit = .ok e') (S : Sel K) (k : Int) :
    (∀ query skip, e'.embeddingSimilarity S query k skip = e.embeddingSimilarity S query k skip) ∧
    (∀ w, CarriedOver e.vocab w → e'.wordSimilarity S w k = e.wordSimilarity S w k) ∧
    ∀ w1 w2 w3 skip, CarriedOver e.vocab w1 → CarriedOver e.vocab w2 → CarriedOver e.vocab w3 →
      e'.analogy S w1 w2 w3 k skip = e.analogy S w1 w2 w3 k skip := by
  obtain ⟨ix, hs⟩ : ∃ ix, e.vocab.sub = some ix := by
    cases hs : e.vocab.sub with
    | none => unfold Embeddings.bucketToExplicit at h; rw [hs] at h; cases h
    | some ix => exact ⟨ix, rfl⟩
  obtain ⟨_, _, eix, bs, r⟩ := b2eEmb_of he hs h
  obtain ⟨rows, hrows⟩ := r.shape
  have hsim : ∀ query skips, e'.similarity S query k skips = e.similarity S query k skips := fun query skips =>
    similarity_rows S he r.built (by rw [r.vocab.vocab]) hm hrows (by rw [hm]; rfl) r.known query k skips
  have hemb : ∀ w, CarriedOver e.vocab w → e'.embedding w = e.embedding w :=
    fun w hw => (explicit_lookup he hlen h hw).2.1
  refine ⟨fun query skip => hsim _ _, fun w hw => ?_, fun w1 w2 w3 skip h1 h2 h3 => ?_⟩
  · unfold Embeddings.wordSimilarity
    simp only [hemb w hw, hsim]
  · unfold Embeddings.analogy
    simp only [hemb w1 h1, hemb w2 h2, hemb w3 h3, hsim]

/-- Quantized embeddings cannot be queried (C34), but after the conversion they can: the answers are nearest neighbours by
the vectors that the original has for its words. -/
theorem C98_explicit_quantized [Score K] (S : Sel K) (hS : S.Admissible) (e e' : Embeddings K) (he : BuiltEmb e)
    (h : e.bucketToExplicit = .ok e') (query : List K) (hq : query.length = e.storage.nCols) (k : Nat) (skips : List PyStr)
    (hk : k + knownSkips e.vocab.words skips ≤ e.vocab.words.length)
    (hc : ∀ w v, w ∈ e.vocab.words → w ∉ skips → e.embedding w = .ok (some v) → Score.nan (NumOps.dot v query) = false) :
    ∃ res, e'.embeddingSimilarity S query k (some skips) = .ok res ∧ NearestAmong e e.vocab.words query skips k res := by
  obtain ⟨ix, hs⟩ : ∃ ix, e.vocab.sub = some ix := by
    cases hs : e.vocab.sub with
    | none => unfold Embeddings.bucketToExplicit at h; rw [hs] at h; cases h
    | some ix => exact ⟨ix, rfl⟩
  obtain ⟨_, hne, eix, bs, r⟩ := b2eEmb_of he hs h
  obtain ⟨rows, hrows⟩ := r.shape
  have hw : e'.vocab.words = e.vocab.words := by rw [r.vocab.vocab]
  have h0 : e.vocab.words ≠ [] := by
    intro hx
    rw [hx] at hne
    exact hne rfl
  have hsel : ∀ w row, HasVector e' w row ↔ w ∈ e.vocab.words ∧ e.embedding w = .ok (some row) := by
    intro w row
    constructor
    · rintro ⟨i, hi, hg⟩
      rw [hw] at hi
      have hlt := (List.getElem?_eq_some_iff.mp hi).1
      rw [r.known i hlt] at hg
      exact ⟨List.mem_iff_getElem?.mpr ⟨i, hi⟩, (C28_known e he i w row hi hg).2.1⟩
    · rintro ⟨hm, hv⟩
      obtain ⟨v, hx, hv'⟩ := word_row r.built hrows (by rw [hw]; exact hm)
      rw [(C25_known_partial e e' he h w hm).2.1, hv] at hv'
      cases hv'
      exact hx
  obtain ⟨res, h1, t⟩ := C31_top_k S hS e' r.built _ hrows query hq k skips (by rw [hw]; exact h0) (by rw [hw]; exact hk) (by
    intro i w row hi hg hsk
    obtain ⟨h1, h2⟩ := (hsel w row).mp ⟨i, hi, hg⟩
    exact hc w row h1 hsk h2)
  refine ⟨res, h1, t.length, t.nodup, t.sorted, fun w x hx => ?_, fun w v hw' hv' hsk hn r hr' => ?_⟩
  · obtain ⟨h2, i, row, h3, h4, h5⟩ := t.scores w x hx
    obtain ⟨h6, h7⟩ := (hsel w row).mp ⟨i, h3, h4⟩
    exact ⟨h6, h2, row, h7, h5⟩
  · obtain ⟨i, h3, h4⟩ := (hsel w v).mpr ⟨hw', hv'⟩
    exact t.best i w v h3 h4 hsk hn r hr'

end

/-- From file to file: after a successful run of `ffp-bucket-to-explicit`, the output holds the conversion of the input and
answers as the input; no other file has changed. -/
theorem C98_explicit_files [NumOps F32] [NumText F32] [TextIO] (T : Toml) (src : Format) (input output : PyStr)
    (lossy mmap : Bool) (fs fs' : FS) (h : bucketToExplicitMain T src input output lossy mmap fs = (.ok (), fs')) :
    ∃ e e', readFile input (src.load T lossy mmap) fs = .ok e ∧
      readFile output (Rd.run (loadFinalfusion T false)) fs' = .ok e' ∧ (∀ p, p ≠ output → fs' p = fs p) ∧
      (∃ e1, e.bucketToExplicit = .ok e1 ∧ SameEmb e1 e') ∧
      (e.vocab.words.length < 2 ^ 63 →
        (∀ w, CarriedOver e.vocab w → e'.embedding w = e.embedding w ∧ e'.embeddingWithNorm w = e.embeddingWithNorm w) ∧
        ∀ m, e.storage = .nd m → ∀ (S : Sel F32) (k : Int),
          (∀ query skip, e'.embeddingSimilarity S query k skip = e.embeddingSimilarity S query k skip) ∧
          (∀ w, CarriedOver e.vocab w → e'.wordSimilarity S w k = e.wordSimilarity S w k) ∧
          ∀ w1 w2 w3 skip, CarriedOver e.vocab w1 → CarriedOver e.vocab w2 → CarriedOver e.vocab w3 →
            e'.analogy S w1 w2 w3 k skip = e.analogy S w1 w2 w3 k skip) := by
  unfold bucketToExplicitMain at h
  cases hl : readFile input (src.load T lossy mmap) fs with
  | error x => rw [hl] at h; cases h
  | ok e =>
  rw [hl] at h
  simp only at h
  cases hx : e.bucketToExplicit with
  | error x => rw [hx] at h; cases h
  | ok e1 =>
  rw [hx] at h
  simp only at h
  obtain ⟨bs, hbs, rfl⟩ := writeFile_ok h
  have he : BuiltEmb e := by
    unfold readFile at hl
    split at hl
    · cases hl
    · exact formatLoad_built hl
  obtain ⟨hb1, hw1, _, hm1, _⟩ := C25_result e e1 he hx
  obtain ⟨ix, hs⟩ : ∃ ix, e.vocab.sub = some ix := by
    cases hs : e.vocab.sub with
    | none => unfold Embeddings.bucketToExplicit at hx; rw [hs] at hx; cases hx
    | some ix => exact ⟨ix, rfl⟩
  obtain ⟨_, hne, eix, bs', r⟩ := b2eEmb_of he hs hx
  have hg : HasNgrams e1.vocab := by
    intro jx hj
    rw [r.vocab.vocab] at hj
    cases hj
    obtain ⟨g, hg⟩ := List.exists_mem_of_ne_nil _ hne
    exact List.ne_nil_of_mem ((r.vocab.ngrams.2.1 g).mpr hg)
  obtain ⟨e', h1, h3⟩ := C01_roundtrip T e1 bs hb1 hg (fun m s hm => by rw [hm1] at hm; cases hm) hbs
  have h2 := C98_same hb1 (loadFinalfusion_built h1).1 h3
  refine ⟨e, e', rfl, ?_, fun p hp => if_neg hp, ⟨e1, hx, h3⟩, fun hlen => ⟨fun w hw => ?_, fun m hm S k => ?_⟩⟩
  · unfold readFile
    simp only [if_true]
    exact h1
  · obtain ⟨_, h4, h5⟩ := explicit_lookup he hlen hx hw
    exact ⟨(h2.embedding w).symm.trans h4, (h2.withNorm w).symm.trans h5⟩
  · obtain ⟨h4, h5, h6⟩ := C98_explicit e e1 he hlen m hm hx S k
    exact ⟨fun query skip => (h2.near S query k skip).symm.trans (h4 query skip),
      fun w hw => (h2.nearWord S w k).symm.trans (h5 w hw),
      fun w1 w2 w3 skip a b c => (h2.analogy S w1 w2 w3 k skip).symm.trans (h6 w1 w2 w3 skip a b c)⟩

/-! ### Cases that meet the hypotheses -/

namespace Sample

theorem done_of {β : Type} {p : Res Unit × β} (h : p.1 = .ok ()) : ∃ b, p = (.ok (), b) := ⟨p.2, Prod.ext h rfl⟩

/-- Explicit n-grams whose index is in another order than the list of n-grams -/
def explOrder (d : Dict PyStr Int) : Embeddings F32 :=
  ⟨.nd ⟨1, [[1], [2], [3]]⟩, ⟨[[97]], [([97], 0)], some (.expl ⟨[[60, 97], [97, 62]], 2, 2, d, 2⟩)⟩, none, none⟩

theorem builtExplOrder (d : Dict PyStr Int) (hd : d = [([60, 97], 0), ([97, 62], 1)] ∨ d = [([97, 62], 1), ([60, 97], 0)]) :
    BuiltEmb (explOrder d) := by
  refine ⟨⟨?_, rfl⟩, ?_, ?_⟩
  · intro ix h
    cases h
    rcases hd with rfl | rfl
    · exact .explIdx (d := [([60, 97], 0), ([97, 62], 1)]) (gs := [[60, 97], [97, 62]]) (mn := 2) (mx := 2) (by decide) (by decide)
    · exact .explIdx (d := [([97, 62], 1), ([60, 97], 0)]) (gs := [[60, 97], [97, 62]]) (mn := 2) (mx := 2) (by decide) (by decide)
  · rcases hd with rfl | rfl <;> unfold explOrder StorageWF Mat.WF ShapeOk <;> decide
  · exact embNew_iff.mpr ⟨rfl, rfl, by intro n hn; cases hn⟩

/-- `ab` and `ba` with bigrams in three buckets and quantized vectors -/
def embQuantBuckets : Embeddings Int :=
  ⟨.quant ⟨⟨2, 1, [[[1], [2]], [[3], [5]]], none⟩, 2, [[0, 1], [1, 1], [0, 0], [1, 0], [0, 1]], none⟩,
    ⟨[[97, 98], [98, 97]], [([97, 98], 0), ([98, 97], 1)], some (.ft ⟨3, 2, 2⟩)⟩, none, none⟩

theorem builtQuantBuckets : BuiltEmb embQuantBuckets := by
  refine ⟨⟨?_, by decide⟩, ⟨by decide, rfl, by decide, by decide, (by intro p h; cases h), (by intro p h; cases h), by decide,
      by decide, by decide⟩, embNew_iff.mpr ⟨rfl, by decide, by intro n hn; cases hn⟩⟩
  intro ix h
  cases h
  exact .ft (b := 3) (mn := 2) (mx := 2) (by decide)

end Sample

/-- Two indices in different orders are different dicts, but the same embeddings. -/
example [NumOps F32] : Sample.explOrder [([60, 97], 0), ([97, 62], 1)] ≠ Sample.explOrder [([97, 62], 1), ([60, 97], 0)] ∧
    Alike (Sample.explOrder [([60, 97], 0), ([97, 62], 1)]) (Sample.explOrder [([97, 62], 1), ([60, 97], 0)]) := by
  refine ⟨fun h => ?_, C98_same (Sample.builtExplOrder _ (.inl rfl)) (Sample.builtExplOrder _ (.inr rfl))
    ⟨⟨rfl, fun _ => rfl, rfl, rfl, rfl, rfl, fun g => ?_⟩, rfl, rfl, rfl⟩⟩
  · have h1 := congrArg (fun e : Embeddings F32 => e.vocab) h
    revert h1
    decide
  · show Dict.get? [([60, 97], 0), ([97, 62], 1)] g = Dict.get? [([97, 62], 1), ([60, 97], 0)] g
    exact Dict.get?_perm (List.Perm.swap _ _ _) (by decide) g

/-- Saved, loaded and mapped -/
example : ∃ bs, (Sample.embExpl.write Sample.toml).file = (.ok (), bs) ∧ BuiltEmb Sample.embExpl ∧
    HasNgrams Sample.embExpl.vocab ∧ TomlOk Sample.toml Sample.embExpl.metadata ∧ Sample.embExpl.storage.nonempty :=
  ⟨_, Sample.file_ok Sample.writeExpl, Sample.builtEmbExpl, Sample.ngExpl, Sample.tomlExpl, by
    show _ ≠ 0
    decide⟩

/-- `aba` is not a word, but its n-grams are n-grams of words. -/
example : BuiltEmb Sample.embRat ∧ CarriedOver Sample.embRat.vocab [97, 98, 97] ∧ [97, 98, 97] ∉ Sample.embRat.vocab.words ∧
    CarriedOver Sample.embRat.vocab [97, 98] ∧ ∃ e', Sample.embRat.bucketToExplicit = .ok e' ∧
      e'.embeddingWithNorm [97, 98, 97] = Sample.embRat.embeddingWithNorm [97, 98, 97] := by
  have hix := Sample.builtEmbRat.vocab.1 _ rfl
  have hc : CarriedOver Sample.embRat.vocab [97, 98, 97] :=
    .inr ⟨_, _, _, rfl, ngramsOfAll_allNgrams hix _, ngramsOf_wordNgrams hix _, by decide +kernel, by decide +kernel⟩
  obtain ⟨e', h⟩ := Sample.ok_of_errOf (r := Sample.embRat.bucketToExplicit) (by decide +kernel)
  exact ⟨Sample.builtEmbRat, hc, by decide, .inl (by decide), e', h,
    (C98_explicit_lookup _ e' Sample.builtEmbRat (by decide) h _ hc).2.2⟩

/-- Quantized vectors: no answers before, nearest neighbours after the conversion. -/
example : ∃ e' res, Sample.embQuantBuckets.bucketToExplicit = .ok e' ∧
    Sample.embQuantBuckets.embeddingSimilarity (Sel.sorting Int) [1, 0] (1 : Nat) (some []) = .error .attributeError ∧
    e'.embeddingSimilarity (Sel.sorting Int) [1, 0] (1 : Nat) (some []) = .ok res ∧
    NearestAmong Sample.embQuantBuckets [[97, 98], [98, 97]] [1, 0] [] 1 res := by
  obtain ⟨e', h⟩ := Sample.ok_of_errOf (r := Sample.embQuantBuckets.bucketToExplicit) (by decide +kernel)
  obtain ⟨res, h1, h2⟩ := C98_explicit_quantized (Sel.sorting Int) (sorting_admissible Int) _ e' Sample.builtQuantBuckets h
    [1, 0] rfl 1 [] (by decide) (fun _ _ _ _ _ => rfl)
  exact ⟨e', res, h, (C34_quantized _ _ Sample.builtQuantBuckets _ rfl _).1 _ _, h1, h2⟩

/-- A file that `ffp-bucket-to-explicit` converts -/
example : ∃ fs fs', @bucketToExplicitMain Sample.f32Ops Sample.f32Text Sample.textIO Sample.toml .finalfusion [97] [98] false
    false fs = (.ok (), fs') :=
  ⟨fun _ => some ((Sample.embBucket.write Sample.toml).file).2, Sample.done_of (by decide +kernel)⟩

end FF
