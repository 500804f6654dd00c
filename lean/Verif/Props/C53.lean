import Verif.Lemmas.Consistent
import Verif.Spec.Samples
import Verif.Props.C40
import Verif.Props.C42
/-!
# C53: whatever the loaders of foreign formats return is consistent

For every byte string, as for finalfusion files (C10): see `Consistent`.  Moreover the norms of all
words are there, the storage is a plain matrix and the vocabulary is the one of the format.
-/

namespace FF

section
variable {K : Type} [NumOps K]

/-- What the loaders of formats without subwords return. -/
structure PlainLoaded (e : Embeddings K) : Prop where
  consistent : Consistent e
  simple : e.vocab.sub = none
  bare : e.metadata = none
  dense : ∃ m, e.storage = .nd m
  perWord : ∃ n, e.norms = some n ∧ n.length = e.vocab.words.length
  wordRows : e.storage.nRows = e.vocab.words.length

theorem plainLoaded {e : Embeddings K} (h : BuiltEmb e ∧ e.vocab.sub = none ∧ e.metadata = none ∧
    (∃ m, e.storage = .nd m) ∧ e.norms.isSome) : PlainLoaded e := by
  obtain ⟨hb, hs, hm, hst, hn⟩ := h
  have hc := consistent_of_simple hb hs
  obtain ⟨n, hn⟩ := Option.isSome_iff_exists.mp hn
  refine ⟨hc, hs, hm, hst, ⟨n, hn, hc.norms n hn⟩, ?_⟩
  have := hc.rows
  unfold Vocab.upperBound at this
  rw [hs, hb.vocab.len] at this
  exact Int.ofNat_inj.mp this

theorem C53_word2vec [Codec K] (lossy : Bool) (bs : Bytes) (e : Embeddings K)
    (h : Rd.run (loadWord2vec lossy) bs = .ok e) : PlainLoaded e :=
  plainLoaded (loadWord2vec_built h)

theorem C53_text [TextIO] [NumText K] (lossy : Bool) (bs : Bytes) (e : Embeddings K)
    (h : loadText lossy bs = .ok e) : PlainLoaded e :=
  plainLoaded (loadText_built h)

theorem C53_text_dims [TextIO] [NumText K] (lossy : Bool) (bs : Bytes) (e : Embeddings K)
    (h : loadTextDims lossy bs = .ok e) : PlainLoaded e :=
  plainLoaded (loadTextDims_built h)

/-- fastText files: every word and every bucket has a row, the words have norms. -/
theorem C53_fasttext [Codec K] (lossy : Bool) (bs : Bytes) (e : Embeddings K)
    (h : Rd.run (loadFasttext lossy) bs = .ok e) :
    Consistent e ∧ (∃ m, e.storage = .nd m) ∧
    (∃ n, e.norms = some n ∧ n.length = e.vocab.words.length) ∧
    ∃ ix : FtIndexer, e.vocab.sub = some (.ft ix) ∧
      e.storage.nRows = e.vocab.words.length + ix.nBuckets := by
  obtain ⟨hb, ⟨ix, hs⟩, _, hst, hn⟩ := loadFasttext_built h
  have hc := consistent_of_built hb (by
    intro ix' h' e' he
    rw [hs] at h'
    cases h'
    cases he) (by
    obtain ⟨s', h⟩ := rd_run_ok h
    unfold loadFasttext at h
    obtain ⟨_, _, _, h⟩ := rd_bind_inv h
    obtain ⟨cfg, _, _, h⟩ := rd_bind_inv h
    obtain ⟨p, _, h1, h⟩ := rd_bind_inv h
    obtain ⟨m, _, _, h⟩ := rd_bind_inv h
    have := readFtVocab_length h1
    obtain ⟨rfl, _⟩ := embNew_iff.mp (rd_lift_inv h).1
    show p.1.words.length < 2 ^ 63
    omega)
  obtain ⟨n, hn⟩ := Option.isSome_iff_exists.mp hn
  refine ⟨hc, hst, ⟨n, hn, hc.norms n hn⟩, ix, hs, ?_⟩
  have := hc.rows
  unfold Vocab.upperBound Indexer.upperBound FtIndexer.upperBound at this
  rw [hs, hb.vocab.len] at this
  simp only at this
  omega

end

/-! ### Files that load -/

example : ∃ e : Embeddings F32, Rd.run (@loadFasttext F32 Sample.f32Ops _ true) Sample.ftFile2.bytes =
    .ok e ∧ Consistent e :=
  let ⟨e, h⟩ := Sample.ok_of_errOf
    (r := Rd.run (@loadFasttext F32 Sample.f32Ops _ true) Sample.ftFile2.bytes) (by decide +kernel)
  ⟨e, h, (@C53_fasttext F32 Sample.f32Ops _ _ _ e h).1⟩

example : ∃ e : Embeddings F32, Rd.run (@loadWord2vec F32 Sample.f32Ops _ false)
    (w2vFile 2 [([97], [7, 14]), ([0xDF], [24, 32])]) = .ok e ∧ @PlainLoaded F32 e :=
  let ⟨e, h⟩ := Sample.ok_of_errOf (r := Rd.run (@loadWord2vec F32 Sample.f32Ops _ false)
    (w2vFile 2 [([97], [7, 14]), ([0xDF], [24, 32])])) (by decide +kernel)
  ⟨e, h, @C53_word2vec F32 Sample.f32Ops _ _ _ e h⟩

/-- `a 1 2`, `b 3 4` -/
example : ∃ e : Embeddings F32, @loadText F32 Sample.f32Ops Sample.f32Text Sample.textIO false
    [97, 32, 49, 32, 50, 10, 98, 32, 51, 32, 52, 10] = .ok e ∧ @PlainLoaded F32 e :=
  let ⟨e, h⟩ := Sample.ok_of_errOf (r := @loadText F32 Sample.f32Ops Sample.f32Text Sample.textIO false
    [97, 32, 49, 32, 50, 10, 98, 32, 51, 32, 52, 10]) (by decide +kernel)
  ⟨e, h, @C53_text F32 Sample.f32Ops Sample.textIO Sample.f32Text _ _ e h⟩

/-- `1 2`, `b 3 4` -/
example : ∃ e : Embeddings F32, @loadTextDims F32 Sample.f32Ops Sample.f32Text Sample.textIO false
    [49, 32, 50, 10, 98, 32, 51, 32, 52, 10] = .ok e ∧ @PlainLoaded F32 e :=
  let ⟨e, h⟩ := Sample.ok_of_errOf (r := @loadTextDims F32 Sample.f32Ops Sample.f32Text Sample.textIO false
    [49, 32, 50, 10, 98, 32, 51, 32, 52, 10]) (by decide +kernel)
  ⟨e, h, @C53_text_dims F32 Sample.f32Ops Sample.textIO Sample.f32Text _ _ e h⟩

end FF
