import Verif.Lemmas.Exports
import Verif.Props.C27
import Verif.Props.C42
import Verif.Props.C48
/-!
# C64: exactly what the exports can express

`write_word2vec`, `write_text`, `write_text_dims` and `write_fasttext` succeed exactly for the
embeddings that their formats can express; otherwise the exception says which vector or word cannot
be written, and the file holds the header and the entries of all words before it.
-/

namespace FF

/-- The text can be encoded as UTF-8: it has no lone surrogates. -/
def Encodable (w : PyStr) : Prop := ∀ c ∈ w, c.val < 0xD800 ∨ 0xDFFF < c.val

theorem not_encodable {w : PyStr} : w.any isSurrogate = true ↔ ¬ Encodable w := by
  unfold Encodable
  rw [← any_surrogate]
  cases w.any isSurrogate <;> simp

section
variable {K : Type} [NumOps K]

theorem storedRow_lacks {s : Storage K} (hs : StorageWF s) {i : Nat} :
    (∃ r, StoredRow s i r) ↔ ¬ RowLacks s (i : Int) := by
  rw [← getOne_lacks hs]
  constructor
  · rintro ⟨r, hr⟩ he
    rw [(getOne_stored hs).mpr hr] at he
    cases he
  · intro hn
    cases h : s.getOne (i : Int) with
    | ok r => exact ⟨r, (getOne_stored hs).mp h⟩
    | error x => rw [getOne_err h] at h; exact absurd h hn

/-- A word has a vector unless its row has a code without centroid; norms are never missing. -/
theorem C64_exportable (e : Embeddings K) (he : BuiltEmb e) (i : Nat)
    (hi : i < e.vocab.words.length) :
    (∃ v, Exported e i v) ↔
      ∀ q c, e.storage = .quant q → q.codes[i]? = some c → ∀ x ∈ c, x.toNat < q.pq.nCentroids := by
  rw [exported_iff_stored he hi, storedRow_lacks he.storage]
  have hle := he.words_le
  cases hs : e.storage with
  | nd m =>
    rw [hs] at hle
    have : e.vocab.words.length ≤ m.rows.length := hle
    simp only [RowLacks]
    refine ⟨fun _ q c h => (by cases h), fun _ h => h (by omega)⟩
  | quant q =>
    rw [hs] at hle
    have hl : e.vocab.words.length ≤ q.codes.length := hle
    simp only [RowLacks]
    constructor
    · intro h q' c hq hc x hx
      cases hq
      by_contra hb
      exact h (.inr ⟨i, c, .inl rfl, hc, x, hx, by omega⟩)
    · rintro h (h1 | ⟨j, c, hj, hc, x, hx, hb⟩)
      · exact h1 (by omega)
      · have hjl := (List.getElem?_eq_some_iff.mp hc).1
        have : i = j := by omega
        subst this
        have := h q c rfl hc x hx
        omega

section
variable [Codec K]

/-- `write_word2vec` succeeds exactly if every word has a vector and can be encoded (and the file is
not larger than a file can be), and writes the words with their vectors. -/
theorem C64_word2vec (e : Embeddings K) (he : BuiltEmb e) (bs : Bytes) :
    (writeWord2vec e).file = (.ok (), bs) ↔
    ∃ vs, ExportedAll e vs ∧ (∀ w ∈ e.vocab.words, Encodable w) ∧
      bs = w2vFile e.storage.nCols (e.vocab.words.zip (vs.map fun v => v.map Codec.bits)) ∧
      bs.length < 2 ^ 63 := by
  constructor
  · intro h
    obtain ⟨vs, h1, h2, h3⟩ := writeWord2vec_inv he h
    refine ⟨vs, h1, fun w hw => any_surrogate.mp (h2 w hw), h3, ?_⟩
    unfold Wr.file writeWord2vec at h
    obtain ⟨m, s1, k1, j1⟩ := wr_bind_inv h
    obtain ⟨_, s2, k2, j2⟩ := wr_bind_inv j1
    obtain ⟨rfl, hl⟩ := wr_bytes_inv k2
    exact w2vWriteRows_length hl j2
  · rintro ⟨vs, h1, h2, rfl, h4⟩
    exact writeWord2vec_ok he h1 (fun w hw => any_surrogate.mpr (h2 w hw)) h4

/-- If `write_word2vec` raises, the file holds the header, with the number of all words, and the
entries of the words before the one that could not be written. -/
theorem C64_word2vec_raises (e : Embeddings K) (he : BuiltEmb e) (bs : Bytes) (x : PyErr)
    (h : (writeWord2vec e).file = (.error x, bs)) :
    x = .osError ∨
    ∃ (k : Nat) (w : PyStr) (vs : List (List K)), e.vocab.words[k]? = some w ∧ vs.length = k ∧
      (∀ (j : Nat) v, vs[j]? = some v → Exported e j v) ∧
      (∀ w' ∈ e.vocab.words.take k, Encodable w') ∧
      bs = utf8 (decimal e.vocab.words.length ++ [32] ++ decimal e.storage.nCols ++ [10]) ++
        ((e.vocab.words.take k).zip (vs.map fun v => v.map Codec.bits)).flatMap
          (fun p => utf8 p.1 ++ [32] ++ f32sLE p.2 ++ [10]) ∧
      ((¬ ∃ v, Exported e k v) ∧ x = .indexError ∨
        (∃ v, Exported e k v) ∧ ¬ Encodable w ∧ x = .unicodeEncodeError) := by
  rcases writeWord2vec_err he h with h | ⟨k, w, vs, h1, h2, h3, h4, h5, h6⟩
  · exact .inl h
  · refine .inr ⟨k, w, vs, h1, h2, h3, fun w' hw' => any_surrogate.mp (h4 w' hw'), h5, ?_⟩
    rw [← not_encodable]
    exact h6

/-- `write_fasttext` succeeds exactly for fastText vocabularies and plain matrices with sizes below
`2 ^ 31` whose words can be encoded (and whose file is not larger than a file can be). -/
theorem C64_fasttext (e : Embeddings K) (he : BuiltEmb e) (bs : Bytes) :
    (writeFasttext e).file = (.ok (), bs) ↔
    ∃ (ix : FtIndexer) (m : Mat K) (vs : List (List K)), e.vocab.sub = some (.ft ix) ∧ e.storage = .nd m ∧
      m.cols < 2 ^ 31 ∧ ix.nBuckets < 2 ^ 31 ∧ ix.maxN < 2 ^ 31 ∧ e.vocab.words.length < 2 ^ 31 ∧
      (∀ w ∈ e.vocab.words, Encodable w) ∧ vs.length = e.vocab.words.length ∧
      (∀ (i : Nat) w v, e.vocab.words[i]? = some w → vs[i]? = some v →
        FtRaw ix e.vocab.words.length m e.norms i w v) ∧
      bs = (ftExport ix e.vocab.words m.cols (vs.map fun v => v.map Codec.bits)
        ((m.rows.drop e.vocab.words.length).map fun v => v.map Codec.bits)
        (m.rows.map fun v => v.map Codec.bits).flatten).bytes ∧
      bs.length < 2 ^ 63 := by
  constructor
  · intro h
    obtain ⟨ix, m, h1, h2, h3⟩ := writeFasttext_nd h
    rw [he.vocab.len] at h3
    obtain ⟨vs, g1, g2, g3, g4, g5⟩ := writeFasttext_inv ⟨he, h1, h2, by omega⟩ h
    exact ⟨ix, m, vs, h1, h2, g2.cols, g2.buckets, g2.maxN, g2.words,
      fun w hw => any_surrogate.mp (g2.text w hw), g1, g3, g4, g5⟩
  · rintro ⟨ix, m, vs, h1, h2, h3, h4, h5, h6, h7, h8, h9, rfl, h11⟩
    obtain ⟨_, _, _, i1, i2, i3, i4, i5⟩ := ftNew_ok.mp (builtIndexer_wf (he.vocab.1 _ h1))
    exact writeFasttext_ok ⟨he, h1, h2, by omega⟩
      ⟨h3, h4, by omega, h5, h6, fun w hw => any_surrogate.mpr (h7 w hw)⟩ h8 h9 h11

omit [Codec K] in
/-- The vectors always exist. -/
theorem C64_fasttext_vectors (e : Embeddings K) (he : BuiltEmb e) (ix : FtIndexer) (m : Mat K)
    (hsub : e.vocab.sub = some (.ft ix)) (hst : e.storage = .nd m)
    (hn : e.vocab.words.length < 2 ^ 31) (i : Nat) (w : PyStr) (hw : e.vocab.words[i]? = some w)
    (ht : Encodable w) : ∃ v, FtRaw ix e.vocab.words.length m e.norms i w v := by
  obtain ⟨v, _, h⟩ := ftWordRow_total ⟨he, hsub, hst, by omega⟩ hw (any_surrogate.mpr ht)
  exact ⟨v, h⟩

/-- Why `write_fasttext` raises: a number does not fit (`struct.error`), a word cannot be encoded, or
the matrix is quantized (`AttributeError`, or `IndexError` if a code has no centroid); other
vocabularies are refused. -/
theorem C64_fasttext_raises (e : Embeddings K) (he : BuiltEmb e) (bs : Bytes) (x : PyErr)
    (h : (writeFasttext e).file = (.error x, bs)) :
    x = .osError ∨ (x = .valueError ∧ bs = [] ∧ ∀ ix, e.vocab.sub ≠ some (.ft ix)) ∨
    ∃ ix, e.vocab.sub = some (.ft ix) ∧
      (x = .structError ∧ (2 ^ 31 ≤ e.storage.nCols ∨ 2 ^ 31 ≤ ix.nBuckets ∨ 2 ^ 31 ≤ ix.maxN ∨
        2 ^ 31 ≤ e.vocab.words.length) ∨
       x = .unicodeEncodeError ∧ (∃ w ∈ e.vocab.words, ¬ Encodable w) ∨
       x = .attributeError ∧ (∃ q, e.storage = .quant q) ∨
       x = .indexError ∧ ∃ q, e.storage = .quant q ∧ ∃ c ∈ q.codes, ∃ y ∈ c, q.pq.nCentroids ≤ y.toNat) := by
  by_cases hs : ∃ ix, e.vocab.sub = some (.ft ix)
  · obtain ⟨ix, hs⟩ := hs
    obtain ⟨_, _, _, i1, i2, i3, i4, i5⟩ := ftNew_ok.mp (builtIndexer_wf (he.vocab.1 _ hs))
    rcases writeFasttext_err he hs h with h | ⟨h1, h2⟩ | ⟨_, ⟨h1, w, hw, h2⟩ | ⟨_, ⟨h1, h2⟩ | h1⟩⟩
    · exact .inl h
    · exact .inr (.inr ⟨ix, hs, .inl ⟨h1, by omega⟩⟩)
    · exact .inr (.inr ⟨ix, hs, .inr (.inl ⟨h1, w, hw, not_encodable.mp h2⟩)⟩)
    · refine .inr (.inr ⟨ix, hs, .inr (.inr (.inr ⟨h1, ?_⟩))⟩)
      cases hst : e.storage with
      | nd m => rw [hst] at h2; exact absurd trivial h2
      | quant q =>
        rw [hst] at h2
        unfold CodesOk at h2
        simp only at h2
        push Not at h2
        obtain ⟨c, hc, y, hy, h2⟩ := h2
        exact ⟨q, rfl, c, hc, y, hy, h2⟩
    · exact .inr (.inr ⟨ix, hs, .inr (.inr (.inl h1))⟩)
  · push Not at hs
    rw [writeFasttext_refused hs] at h
    cases h
    exact .inr (.inl ⟨rfl, rfl, hs⟩)

/-- Embeddings with a quantized matrix cannot be exported, although their vocabulary is accepted. -/
theorem C64_fasttext_quantized (e : Embeddings K) (q : QArr K) (hq : e.storage = .quant q) :
    (writeFasttext e).file.1 ≠ .ok () := by
  intro h
  obtain ⟨_, m, _, hm, _⟩ := writeFasttext_nd (s' := (writeFasttext e).file.2) (u := ()) (s := [])
    (by rw [← h]; rfl)
  rw [hq] at hm
  cases hm

end

section
variable [NumText K]

omit [NumOps K] in
theorem numbers_plain (hnum : ∀ x : K, NumberText (NumText.str x)) (xs : List K) :
    (List.intercalate [32] (xs.map NumText.str)).any isSurrogate = false := by
  refine any_surrogate.mpr fun c hc => ?_
  rcases mem_intercalate hc with rfl | ⟨p, hp, hc⟩
  · decide
  · obtain ⟨x, _, rfl⟩ := List.mem_map.mp hp
    have := (hnum x).2 c hc
    omega

/-- `write_text` and `write_text_dims` succeed exactly if every word has a vector and can be encoded,
and the separator (if there are any words), and the file is not larger than a file can be. -/
theorem C64_text (dims : Bool) (e : Embeddings K) (he : BuiltEmb e) (sep : PyStr)
    (hnum : ∀ x : K, NumberText (NumText.str x)) (bs : Bytes) :
    (writeText dims e sep).file = (.ok (), bs) ↔
    ∃ vs, ExportedAll e vs ∧ (∀ w ∈ e.vocab.words, Encodable w) ∧
      (e.vocab.words ≠ [] → Encodable sep) ∧
      bs = utf8 (textFile dims sep e.storage.nCols
        ((e.vocab.words.zip vs).map fun p => (p.1, p.2.map NumText.str))) ∧
      bs.length < 2 ^ 63 := by
  have hn : ∀ xs : List K, (List.intercalate [32] (xs.map NumText.str)).any isSurrogate = false :=
    fun xs => numbers_plain hnum xs
  constructor
  · intro h
    obtain ⟨vs, h1, h2, h3⟩ := writeText_inv he h
    have hb : bs.length < maxSize ∧ (e.vocab.words ≠ [] → sep.any isSurrogate = false) := by
      unfold Wr.file writeText at h
      obtain ⟨m, s1, k1, j1⟩ := wr_bind_inv h
      obtain ⟨_, rfl⟩ := wr_lift_inv k1
      cases dims with
      | false => exact textWriteRows_sep (by decide) j1
      | true =>
        rw [if_pos rfl] at j1
        obtain ⟨_, s2, k2, j2⟩ := wr_bind_inv j1
        exact textWriteRows_sep (writeStr_length k2) j2
    exact ⟨vs, h1, fun w hw => any_surrogate.mp (h2 w hw), fun h0 => any_surrogate.mp (hb.2 h0), h3, hb.1⟩
  · rintro ⟨vs, h1, h2, h3, rfl, h5⟩
    by_cases h0 : e.vocab.words = []
    · have hw : writeText dims e sep = writeText dims e [] := by
        unfold writeText
        rw [h0]
        rfl
      have hf : textFile dims sep e.storage.nCols
          ((e.vocab.words.zip vs).map fun p => (p.1, p.2.map NumText.str)) =
          textFile dims [] e.storage.nCols (strRows (e.vocab.words.zip vs)) := by
        unfold strRows
        rw [h0]
        rfl
      rw [hf] at h5 ⊢
      rw [hw]
      exact writeText_ok he h1 (fun w hw => any_surrogate.mpr (h2 w hw)) rfl (fun v _ => hn v) h5
    · exact writeText_ok he h1 (fun w hw => any_surrogate.mpr (h2 w hw)) (any_surrogate.mpr (h3 h0))
        (fun v _ => hn v) h5

/-- If one of them raises, the file holds the header and the lines of the words before the one that
could not be written; if it is the separator that cannot be written, the first word. -/
theorem C64_text_raises (dims : Bool) (e : Embeddings K) (he : BuiltEmb e) (sep : PyStr)
    (hnum : ∀ x : K, NumberText (NumText.str x)) (bs : Bytes) (x : PyErr)
    (h : (writeText dims e sep).file = (.error x, bs)) :
    x = .osError ∨
    ∃ (k : Nat) (w : PyStr) (vs : List (List K)) (left : PyStr), e.vocab.words[k]? = some w ∧
      vs.length = k ∧ (∀ (j : Nat) v, vs[j]? = some v → Exported e j v) ∧
      (∀ w' ∈ e.vocab.words.take k, Encodable w') ∧
      bs = utf8 ((if dims then decimal e.vocab.words.length ++ [32] ++ decimal e.storage.nCols ++ [10]
        else []) ++ ((e.vocab.words.take k).zip (vs.map fun v => v.map NumText.str)).flatMap
          (fun p => p.1 ++ sep ++ List.intercalate [32] p.2 ++ [10]) ++ left) ∧
      ((¬ ∃ v, Exported e k v) ∧ x = .indexError ∧ left = [] ∨
        (∃ v, Exported e k v) ∧ ¬ Encodable w ∧ x = .unicodeEncodeError ∧ left = [] ∨
        k = 0 ∧ (∃ v, Exported e k v) ∧ Encodable w ∧ ¬ Encodable sep ∧ x = .unicodeEncodeError ∧
          left = w) := by
  have hn : ∀ xs : List K, (List.intercalate [32] (xs.map NumText.str)).any isSurrogate = false :=
    fun xs => numbers_plain hnum xs
  rcases writeText_err he hn h with h | ⟨k, w, vs, left, h1, h2, h3, h4, h5, h6⟩
  · exact .inl h
  · refine .inr ?_
    rcases h6 with ⟨g1, g2, rfl⟩ | ⟨g1, g2, g3, rfl⟩ | ⟨rfl, g1, g2, g3, g4, rfl⟩
    · refine ⟨k, w, vs, [], h1, h2, h3, fun w' hw' => any_surrogate.mp (h4 w' hw'), ?_,
        .inl ⟨g1, g2, rfl⟩⟩
      rw [h5, List.append_nil, utf8_append]
      rfl
    · refine ⟨k, w, vs, [], h1, h2, h3, fun w' hw' => any_surrogate.mp (h4 w' hw'), ?_,
        .inr (.inl ⟨g1, not_encodable.mp g2, g3, rfl⟩)⟩
      rw [h5, List.append_nil, utf8_append]
      rfl
    · refine ⟨0, left, vs, left, h1, h2, h3, fun w' hw' => any_surrogate.mp (h4 w' hw'), ?_,
        .inr (.inr ⟨rfl, g1, any_surrogate.mp g2, not_encodable.mp g3, g4, rfl⟩)⟩
      rw [h5]
      simp [utf8_append]

end

end

/-! ### The hypotheses can be met, and every outcome occurs -/

namespace Sample

attribute [local instance] f32Ops f32Text

/-- The second word is a lone surrogate. -/
def badWord : Embeddings F32 :=
  ⟨.nd ⟨1, [[1], [2]]⟩, ⟨[[97], [0xD800]], enumItems [[97], [0xD800]], none⟩, none, none⟩

theorem builtBadWord : BuiltEmb badWord :=
  ⟨⟨(by intro ix h; cases h), by decide⟩, by unfold StorageWF badWord Mat.WF ShapeOk; decide, rfl⟩

/-- The second row has a code without centroid. -/
def badCode : Embeddings F32 :=
  ⟨.quant ⟨⟨2, 1, [[[1], [2]]], none⟩, 1, [[1], [5]], none⟩, ⟨[[97], [98]], enumItems [[97], [98]], none⟩,
    none, none⟩

theorem builtBadCode : BuiltEmb badCode :=
  ⟨⟨(by intro ix h; cases h), by decide⟩, ⟨by decide, by decide, by decide, by decide,
    (by intro p h; cases h), (by intro n h; cases h), by decide, by decide, by decide⟩, rfl⟩

/-- Everything can be written. -/
example : (writeWord2vec embSimple).file.1 = .ok () ∧ (writeText true embSimple [32]).file.1 = .ok () := by
  decide +kernel

/-- `2 1`, `a`, the vector. -/
example : (writeWord2vec badWord).file = (.error .unicodeEncodeError,
    [50, 32, 49, 10, 97, 32, 1, 0, 0, 0, 10]) := by decide +kernel

example : (writeWord2vec badCode).file = (.error .indexError,
    [50, 32, 49, 10, 97, 32, 2, 0, 0, 0, 10]) := by decide +kernel

/-- `a 1` -/
example : (writeText false badWord [32]).file = (.error .unicodeEncodeError, [97, 32, 49, 10]) := by
  decide +kernel

/-- The separator cannot be written: `2 1`, `a`. -/
example : (writeText true badWord [0xDC00]).file = (.error .unicodeEncodeError, [50, 32, 49, 10, 97]) := by
  decide +kernel

example : ∀ x : F32, NumberText (NumText.str x) := fun x => (f32Text_printable x).1

example : (∃ v, Exported badCode 0 v) ∧ ¬ ∃ v, Exported badCode 1 v := by
  rw [C64_exportable badCode builtBadCode 0 (by decide), C64_exportable badCode builtBadCode 1 (by decide)]
  constructor
  · intro q c hq hc
    cases hq
    cases hc
    decide
  · intro h
    exact absurd (h _ [5] rfl rfl 5 (by simp)) (by decide)

example : (writeFasttext embFt5).file.1 = .ok () := by decide +kernel

/-- N-grams longer than the format can say. -/
def longNgrams : Embeddings F32 :=
  ⟨.nd ⟨1, [[1], [2], [3]]⟩, ⟨[[97]], enumItems [[97]], some (.ft ⟨2, 2, 2 ^ 31⟩)⟩, none, none⟩

theorem builtLongNgrams : BuiltEmb longNgrams :=
  ⟨⟨by intro ix h; cases h; exact .ft (b := 2) (mn := 2) (mx := 2 ^ 31) (by decide), by decide⟩,
    by unfold StorageWF longNgrams Mat.WF ShapeOk; decide, rfl⟩

/-- Only the magic number and the version are in the file. -/
example : (writeFasttext longNgrams).file = (.error .structError, sle 4 793712314 ++ sle 4 12) := by
  decide +kernel

/-- A fastText vocabulary with a quantized matrix. -/
example : (writeFasttext embFt).file.1 = .error .attributeError := by decide +kernel

end Sample

end FF
