import Verif.Lemmas.Word2VecRef
import Verif.Props.C38
/-! C85: word2vec files exchanged with word2vec's own programs. -/

namespace FF

section
variable {K : Type} [NumOps K] [Codec K]

/-- distance.c has at most one reading of a file. -/
theorem C85_reader {bs : Bytes} {cols cols' : Nat} {rs rs' : List (Bytes × List F32)} (h : W2v.Reads bs cols rs)
    (h' : W2v.Reads bs cols' rs') : cols = cols' ∧ rs = rs' := W2v.reads_unique h h'

/-- What `write_word2vec` writes is laid out like the files word2vec.c writes, and distance.c reads from it the
words in order, each with its row times its norm, provided that it can hold the words. -/
theorem C85_export (e : Embeddings K) (he : BuiltEmb e) (bs : Bytes)
    (h : (writeWord2vec e).file = (.ok (), bs)) (hw : ∀ w ∈ e.vocab.words, W2v.Holds (utf8 w))
    (hn : e.vocab.words.length < 2 ^ 63) (hc : e.storage.nCols < 2 ^ 63) :
    ∃ rows : List (PyStr × List F32), bs = W2v.file e.storage.nCols (rows.map fun p => (utf8 p.1, p.2)) ∧
      W2v.Reads bs e.storage.nCols (rows.map fun p => (utf8 p.1, p.2)) ∧
      rows.map Prod.fst = e.vocab.words ∧
      ∀ (i : Nat) w r, rows[i]? = some (w, r) → ∃ v, Exported e i v ∧ r = v.map Codec.bits := by
  obtain ⟨rows, h1, h2, h3⟩ := C38_written e he bs h
  rw [W2v.file_eq] at h1
  refine ⟨rows, h1, ?_, h2, h3⟩
  rw [h1]
  refine W2v.reads_file _ _ ?_ ?_ ?_ hc
  · intro p hp
    obtain ⟨q, hq, rfl⟩ := List.mem_map.mp hp
    refine hw _ ?_
    rw [← h2]
    exact List.mem_map_of_mem hq
  · intro p hp
    obtain ⟨q, hq, rfl⟩ := List.mem_map.mp hp
    obtain ⟨i, hi, rfl⟩ := List.getElem_of_mem hq
    obtain ⟨v, hv, hr⟩ := h3 i _ _ (List.getElem?_eq_getElem hi)
    show rows[i].2.length = _
    have hr : rows[i].2 = v.map Codec.bits := hr
    rw [hr, List.length_map]
    exact exported_length he hv
  · rw [List.length_map, ← List.length_map (f := Prod.fst), h2]
    exact hn

/-- `load_word2vec` on a file of word2vec.c with valid UTF-8: the words are those of the file without the whitespace
at their ends.  If these are distinct, the embeddings have them with the vectors of the file, normalised, and
otherwise loading is an `AssertionError`. -/
theorem C85_load (lossy : Bool) (cols : Nat) (rows : List (PyStr × List F32)) (ws : List PyStr)
    (ht : ∀ p ∈ rows, W2v.Token (utf8 p.1)) (hsur : ∀ p ∈ rows, ∀ c ∈ p.1, c.val < 0xD800 ∨ 0xDFFF < c.val)
    (hl : ∀ p ∈ rows, p.2.length = cols) (hs : ShapeOk rows.length cols)
    (hst : List.Forall₂ (fun p w => Stripped p.1 w) rows ws) :
    (ws.Nodup → ∃ e : Embeddings K,
      Rd.run (loadWord2vec lossy) (W2v.file cols (rows.map fun p => (utf8 p.1, p.2))) = .ok e ∧
      Normalized cols ws (rows.map fun p => p.2.map Codec.ofBits) e) ∧
    (¬ ws.Nodup → Rd.run (loadWord2vec (K := K) lossy) (W2v.file cols (rows.map fun p => (utf8 p.1, p.2))) =
      .error .assertionError) := by
  rw [← W2v.file_eq]
  have hlen := hst.length_eq
  have hb := w2vBody_file lossy cols (fun p hp c hc hv => by
      have := mem_utf8_of hc (by omega)
      rw [hv] at this
      exact ((ht p hp).2.2 _ this).2.2.2.2 rfl) (fun p hp => any_surrogate.mpr (hsur p hp)) hl hst [] (.inl rfl)
  have h1 : (ws.zip (rows.map Prod.snd)).map Prod.fst = ws := by
    rw [List.map_fst_zip]
    rw [List.length_map]
    omega
  have h2 : (ws.zip (rows.map Prod.snd)).map Prod.snd = rows.map Prod.snd := by
    rw [List.map_snd_zip]
    rw [List.length_map]
    omega
  have h3 : (ws.zip (rows.map Prod.snd)).length = rows.length := by
    rw [List.length_zip, List.length_map]
    omega
  have hh := w2vHeader_file cols rows
  rw [← h3] at hh hs
  constructor
  · intro hn
    obtain ⟨e, he⟩ : ∃ e : Embeddings K, Normalized cols ws (rows.map fun p => p.2.map Codec.ofBits) e := by
      have := w2vResult_normalized (K := K) (cols := cols)
        (rows := (ws.zip (rows.map Prod.snd)).map fun p => (p.1, p.2.map Codec.ofBits))
        (by
          rw [List.map_map]
          have e1 : (Prod.fst ∘ fun p : PyStr × List F32 => (p.1, p.2.map (Codec.ofBits (K := K)))) = Prod.fst := rfl
          rw [e1, h1]
          exact hn)
      rw [List.map_map, List.map_map] at this
      have e1 : (Prod.fst ∘ fun p : PyStr × List F32 => (p.1, p.2.map (Codec.ofBits (K := K)))) = Prod.fst := rfl
      have e2 : (Prod.snd ∘ fun p : PyStr × List F32 => (p.1, p.2.map (Codec.ofBits (K := K)))) =
        (fun v => v.map Codec.ofBits) ∘ Prod.snd := rfl
      rw [e1, e2, h1, ← List.map_map, h2, List.map_map] at this
      exact ⟨_, this⟩
    refine ⟨e, (C60_word2vec lossy _ e).mpr ⟨cols, _, _, hh, hb, by rw [h1]; exact hn, hs, ?_⟩, he⟩
    have e2 : (fun p : PyStr × List F32 => p.2.map (Codec.ofBits (K := K))) =
      (fun v => v.map Codec.ofBits) ∘ Prod.snd := rfl
    rw [h1, e2, ← List.map_map, h2, List.map_map]
    exact he
  · intro hn
    exact loadWord2vec_dup hh hb (by rw [h1]; exact hn) hs

/-- Hence distinct words of word2vec.c without whitespace at their ends are kept.  Missing: words that begin or end
with whitespace other than the blanks at which word2vec.c splits; see `C85_words_refuted`. -/
theorem C85_words_partial (lossy : Bool) (cols : Nat) (rows : List (PyStr × List F32))
    (ht : ∀ p ∈ rows, W2v.Token (utf8 p.1)) (hsur : ∀ p ∈ rows, ∀ c ∈ p.1, c.val < 0xD800 ∨ 0xDFFF < c.val)
    (hsp : ∀ p ∈ rows, ∀ c, p.1.head? = some c ∨ p.1.getLast? = some c → isSpace c = false)
    (hl : ∀ p ∈ rows, p.2.length = cols) (hs : ShapeOk rows.length cols) (hn : (rows.map Prod.fst).Nodup) :
    ∃ e : Embeddings K,
      Rd.run (loadWord2vec lossy) (W2v.file cols (rows.map fun p => (utf8 p.1, p.2))) = .ok e ∧
      Normalized cols (rows.map Prod.fst) (rows.map fun p => p.2.map Codec.ofBits) e := by
  refine (C85_load lossy cols rows (rows.map Prod.fst) ht hsur hl hs ?_).1 hn
  rw [List.forall₂_map_right_iff, List.forall₂_same]
  intro p hp
  exact ⟨[], [], by simp, by simp, by simp, fun c hc => hsp p hp c (.inl hc), fun c hc => hsp p hp c (.inr hc)⟩

end

namespace Sample

theorem token_check {w : Bytes} (h : (w != [] && decide (w.length ≤ 98) &&
    w.all fun b => b != 0 && b != 9 && b != 10 && b != 13 && b != 32) = true) : W2v.Token w := by
  simp only [Bool.and_eq_true, List.all_eq_true, bne_iff_ne, decide_eq_true_eq] at h
  exact ⟨h.1.1, h.1.2, fun b hb => ⟨(h.2 b hb).1.1.1.1, (h.2 b hb).1.1.1.2, (h.2 b hb).1.1.2, (h.2 b hb).1.2, (h.2 b hb).2⟩⟩

/-- `a` and `a` with a no-break space after it: two words for word2vec.c -/
def nbspRows : List (PyStr × List F32) := [([97], [7]), ([97, 0xA0], [9])]

/-- An ideographic space -/
def wideRows : List (PyStr × List F32) := [([97], [7]), ([0x3000], [9])]

theorem nbspTokens : ∀ p ∈ nbspRows, W2v.Token (utf8 p.1) := by
  intro p hp
  simp only [nbspRows, List.mem_cons, List.not_mem_nil, or_false] at hp
  rcases hp with rfl | rfl <;> exact token_check (by decide +kernel)

theorem wideTokens : ∀ p ∈ wideRows, W2v.Token (utf8 p.1) := by
  intro p hp
  simp only [wideRows, List.mem_cons, List.not_mem_nil, or_false] at hp
  rcases hp with rfl | rfl <;> exact token_check (by decide +kernel)

end Sample

open Sample in
/-- Not every file that word2vec.c writes loads with its words: in one they become equal, and loading fails; in
another a word becomes empty. -/
theorem C85_words_refuted :
    (∃ rows : List (PyStr × List F32), (∀ p ∈ rows, W2v.Token (utf8 p.1)) ∧ (rows.map Prod.fst).Nodup ∧
      Rd.run (@loadWord2vec F32 f32Ops _ false) (W2v.file 1 (rows.map fun p => (utf8 p.1, p.2))) =
        .error .assertionError) ∧
    (∃ (rows : List (PyStr × List F32)) (e : Embeddings F32), (∀ p ∈ rows, W2v.Token (utf8 p.1)) ∧
      Rd.run (@loadWord2vec F32 f32Ops _ false) (W2v.file 1 (rows.map fun p => (utf8 p.1, p.2))) = .ok e ∧
      [] ∈ e.vocab.words ∧ [] ∉ rows.map Prod.fst) := by
  refine ⟨⟨nbspRows, nbspTokens, by decide, ?_⟩, ?_⟩
  · refine (@C85_load F32 f32Ops _ false 1 nbspRows [[97], [97]] nbspTokens ?_ (by decide) (by unfold ShapeOk; decide)
      (.cons (stripped_iff.mp (by decide)) (.cons (stripped_iff.mp (by decide)) .nil))).2 (by decide)
    intro p hp
    exact any_surrogate.mp (by revert p; decide)
  · obtain ⟨e, h1, h2⟩ := (@C85_load F32 f32Ops _ false 1 wideRows [[97], []] wideTokens
      (fun p hp => any_surrogate.mp (by revert p; decide)) (by decide) (by unfold ShapeOk; decide)
      (.cons (stripped_iff.mp (by decide)) (.cons (stripped_iff.mp (by decide)) .nil))).1 (by decide)
    exact ⟨wideRows, e, wideTokens, h1, by rw [h2.1]; decide, by decide⟩

namespace Sample

/-- Words of one and more bytes, exported for distance.c -/
example (bs : Bytes) (h : (@writeWord2vec F32 f32Ops _ embBucket).file = (.ok (), bs)) :
    W2v.Reads bs 2 [([97], [7, 14]), ([0xC3, 0x9F], [24, 32]), ([0xE8, 0xAA, 0x9E], [45, 54])] := by
  have hb : bs = W2v.file 2 [([97], [7, 14]), ([0xC3, 0x9F], [24, 32]), ([0xE8, 0xAA, 0x9E], [45, 54])] :=
    (congrArg Prod.snd h).symm.trans (by decide +kernel)
  rw [hb]
  refine W2v.reads_file _ _ ?_ (by decide) (by decide) (by decide)
  intro p hp
  simp only [List.mem_cons, List.not_mem_nil, or_false] at hp
  unfold W2v.Holds
  rcases hp with rfl | rfl | rfl <;> decide

/-- A file of word2vec.c with the words `</s>` and `語` -/
example : ∃ e : Embeddings F32, Rd.run (@loadWord2vec F32 f32Ops _ false)
    (W2v.file 1 [([60, 47, 115, 62], [7]), ([0xE8, 0xAA, 0x9E], [9])]) = .ok e ∧
    e.vocab.words = [[60, 47, 115, 62], [0x8A9E]] := by
  obtain ⟨e, h1, h2⟩ := @C85_words_partial F32 f32Ops _ false 1 [([60, 47, 115, 62], [7]), ([0x8A9E], [9])]
    (by
      intro p hp
      simp only [List.mem_cons, List.not_mem_nil, or_false] at hp
      rcases hp with rfl | rfl <;> exact token_check (by decide +kernel))
    (fun p hp => any_surrogate.mp (by revert p; decide))
    (by
      intro p hp c hc
      simp only [List.mem_cons, List.not_mem_nil, or_false] at hp
      rcases hp with rfl | rfl <;> simp at hc <;> (try rcases hc with rfl | rfl) <;> decide)
    (by decide) (by unfold ShapeOk; decide) (by decide)
  exact ⟨e, h1, h2.1⟩

end Sample

end FF
