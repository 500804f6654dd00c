import Verif.Lemmas.Scalars
/-! The words and n-grams that loaders return have no surrogates. -/

namespace FF

/-- The words and the n-grams of the vocabulary have no surrogates. -/
structure ScalarVocab (v : Vocab) : Prop where
  words : ∀ w ∈ v.words, Scalars w
  ngrams : ∀ ix, v.sub = some (.expl ix) → ∀ g ∈ ix.ngrams, Scalars g

theorem readItems_scalars {n : Nat} : ∀ {s s' : RFile} {ws : List PyStr}, readItems n s = .ok (ws, s') →
    ∀ w ∈ ws, Scalars w := by
  induction n with
  | zero => intro s s' ws h w hw; cases h; cases hw
  | succ n ih =>
    intro s s' ws h w hw
    unfold readItems at h
    obtain ⟨_, _, _, h⟩ := rd_bind_inv h
    obtain ⟨_, _, _, h⟩ := rd_bind_inv h
    obtain ⟨_, _, h1, h⟩ := rd_bind_inv h
    obtain ⟨_, _, h2, h⟩ := rd_bind_inv h
    cases h
    rcases List.mem_cons.mp hw with rfl | hw
    · exact decode_scalars (rd_lift_inv h1).1
    · exact ih h2 w hw

theorem readItemsIdx_scalars {n : Nat} : ∀ {s s' : RFile} {ws : List (PyStr × Nat)}, readItemsIdx n s = .ok (ws, s') →
    ∀ p ∈ ws, Scalars p.1 := by
  induction n with
  | zero => intro s s' ws h w hw; cases h; cases hw
  | succ n ih =>
    intro s s' ws h w hw
    unfold readItemsIdx at h
    obtain ⟨_, _, _, h⟩ := rd_bind_inv h
    obtain ⟨_, _, _, h⟩ := rd_bind_inv h
    obtain ⟨_, _, h1, h⟩ := rd_bind_inv h
    obtain ⟨_, _, _, h⟩ := rd_bind_inv h
    obtain ⟨_, _, h2, h⟩ := rd_bind_inv h
    cases h
    rcases List.mem_cons.mp hw with rfl | hw
    · exact decode_scalars (rd_lift_inv h1).1
    · exact ih h2 w hw

theorem vocabNew_scalars {words : List PyStr} {sub : Option Indexer} {v : Vocab} (h : Vocab.new words sub = .ok v)
    (hw : ∀ w ∈ words, Scalars w) (hs : ∀ ix, sub = some (.expl ix) → ∀ g ∈ ix.ngrams, Scalars g) : ScalarVocab v := by
  obtain ⟨_, rfl⟩ := Vocab.new_ok.mp h
  exact ⟨hw, hs⟩

theorem loadVocabPart_scalars {c : ChunkId} {s s' : RFile} {v : Vocab} (h : loadVocabPart c s = .ok (v, s')) :
    ScalarVocab v := by
  cases c with
  | simpleVocab =>
    unfold loadVocabPart readSimpleVocab at h
    obtain ⟨l, s1, h1, h⟩ := rd_bind_inv h
    obtain ⟨ws, s2, h2, h⟩ := rd_bind_inv h
    obtain ⟨h, _⟩ := rd_lift_inv h
    exact vocabNew_scalars h (readItems_scalars h2) (by intro ix h; cases h)
  | bucketVocab =>
    unfold loadVocabPart readBucketVocab at h
    simp only at h
    obtain ⟨r, s1, h1, h⟩ := rd_bind_inv h
    split at h
    · obtain ⟨ws, s2, h2, h⟩ := rd_bind_inv h
      obtain ⟨ix, s3, h3, h⟩ := rd_bind_inv h
      obtain ⟨h, _⟩ := rd_lift_inv h
      exact vocabNew_scalars h (readItems_scalars h2) (by intro ix h; cases h)
    · cases h
  | fastTextVocab =>
    unfold loadVocabPart readFastTextVocab at h
    simp only at h
    obtain ⟨r, s1, h1, h⟩ := rd_bind_inv h
    split at h
    · obtain ⟨ws, s2, h2, h⟩ := rd_bind_inv h
      obtain ⟨ix, s3, h3, h⟩ := rd_bind_inv h
      obtain ⟨h, _⟩ := rd_lift_inv h
      exact vocabNew_scalars h (readItems_scalars h2) (by intro ix h; cases h)
    · cases h
  | explicitVocab =>
    unfold loadVocabPart readExplicitVocab at h
    simp only at h
    obtain ⟨r, s1, h1, h⟩ := rd_bind_inv h
    split at h
    · obtain ⟨ws, s2, h2, h⟩ := rd_bind_inv h
      obtain ⟨items, s2', h2', h⟩ := rd_bind_inv h
      obtain ⟨ix, s3, h3, h⟩ := rd_bind_inv h
      obtain ⟨h3, _⟩ := rd_lift_inv h3
      obtain ⟨h, _⟩ := rd_lift_inv h
      have hd := Dict.ofPairs_nodup (items.map fun p => (p.1, (p.2 : Int)))
      refine vocabNew_scalars h (readItems_scalars h2) ?_
      intro ix' hx g hg
      cases hx
      obtain ⟨_, hn, _⟩ := (explNew_some hd).mp h3
      rw [hn] at hg
      obtain ⟨p, hp, rfl⟩ := List.mem_map.mp hg
      exact readItemsIdx_scalars h2' p hp
    · cases h
  | _ => cases h

section
variable {K : Type} [NumOps K]

theorem new_vocab {st : Storage K} {v : Vocab} {n : Option (List K)} {md : Option Meta} {e : Embeddings K}
    (h : Embeddings.new st v n md = .ok e) : e.vocab = v := by
  obtain ⟨rfl, _⟩ := embNew_iff.mp h
  rfl

theorem w2vRows_scalars [Codec K] {lossy : Bool} {cols n : Nat} : ∀ {s s' : RFile} {rs : List (PyStr × List K)},
    w2vRows lossy cols n s = .ok (rs, s') → ∀ p ∈ rs, Scalars p.1 := by
  induction n with
  | zero => intro s s' ws h w hw; cases h; cases hw
  | succ n ih =>
    intro s s' ws h w hw
    unfold w2vRows at h
    obtain ⟨_, _, _, h⟩ := rd_bind_inv h
    obtain ⟨_, _, h1, h⟩ := rd_bind_inv h
    obtain ⟨_, _, _, h⟩ := rd_bind_inv h
    obtain ⟨_, _, _, h⟩ := rd_bind_inv h
    obtain ⟨_, _, h2, h⟩ := rd_bind_inv h
    cases h
    rcases List.mem_cons.mp hw with rfl | hw
    · exact (decodeLossy_scalars (rd_lift_inv h1).1).sub strip_mem
    · exact ih h2 w hw

theorem loadWord2vec_scalars [Codec K] {lossy : Bool} {bs : Bytes} {e : Embeddings K}
    (h : Rd.run (loadWord2vec lossy) bs = .ok e) : ScalarVocab e.vocab := by
  obtain ⟨s', h⟩ := rd_run_ok h
  unfold loadWord2vec at h
  obtain ⟨_, _, _, h⟩ := rd_bind_inv h
  obtain ⟨_, _, _, h⟩ := rd_bind_inv h
  obtain ⟨_, _, _, h⟩ := rd_bind_inv h
  obtain ⟨shape, _, h0, h⟩ := rd_bind_inv h
  obtain ⟨rows, _, h1, h⟩ := rd_bind_inv h
  obtain ⟨v, _, h2, h⟩ := rd_bind_inv h
  rw [new_vocab (rd_lift_inv h).1]
  refine vocabNew_scalars (rd_lift_inv h2).1 ?_ (fun ix h => by cases h)
  intro w hw
  obtain ⟨p, hp, rfl⟩ := List.mem_map.mp hw
  exact w2vRows_scalars h1 p hp

omit [NumOps K] in
theorem textRows_scalars [NumText K] {cols : Nat} {stop : Option PyErr} {n : Nat} : ∀ {lines : List PyStr}
    {rs : List (PyStr × List K)}, textRows cols stop n lines = .ok rs → (∀ l ∈ lines, Scalars l) → ∀ p ∈ rs, Scalars p.1 := by
  induction n with
  | zero => intro lines rs h _ p hp; cases h; cases hp
  | succ n ih =>
    intro lines rs h hl p hp
    cases lines with
    | nil =>
      unfold textRows at h
      cases stop with
      | none => cases h; cases hp
      | some x => cases h
    | cons line lines =>
      unfold textRows at h
      obtain ⟨r, h1, h⟩ := res_bind_inv h
      obtain ⟨rs', h2, h⟩ := res_bind_inv h
      cases h
      rcases List.mem_cons.mp hp with rfl | hp
      · unfold textRow at h1
        cases hr : reSplit (rstrip line) with
        | nil => rw [hr] at h1; cases h1
        | cons w ps =>
          rw [hr] at h1
          obtain ⟨_, _, h1⟩ := res_bind_inv h1
          obtain ⟨_, _, h1⟩ := res_bind_inv h1
          cases h1
          exact (hl line (by simp)).sub fun c hc => rstrip_mem c (reSplit_head_mem hr c hc)
      · exact ih h2 (fun l hl' => hl l (List.mem_cons_of_mem _ hl')) p hp

theorem loadTextLines_scalars [NumText K] {file : Lines} {r c : Int} {e : Embeddings K} (h : loadTextLines file r c = .ok e)
    (hl : ∀ l ∈ file.lines, Scalars l) : ScalarVocab e.vocab := by
  unfold loadTextLines at h
  obtain ⟨shape, h0, h⟩ := res_bind_inv h
  obtain ⟨rs, h1, h⟩ := res_bind_inv h
  obtain ⟨v, h2, h3⟩ := res_bind_inv h
  rw [new_vocab h3]
  refine vocabNew_scalars h2 ?_ (fun ix h => by cases h)
  intro w hw
  obtain ⟨p, hp, rfl⟩ := List.mem_map.mp hw
  exact textRows_scalars h1 hl p hp

theorem loadText_scalars [TextIO] [NumText K] {lossy : Bool} {bs : Bytes} {e : Embeddings K} (h : loadText lossy bs = .ok e) :
    ScalarVocab e.vocab := by
  unfold loadText at h
  obtain ⟨ls, _, h⟩ := res_bind_inv h
  cases ls with
  | none => cases h
  | some q =>
    obtain ⟨_, _, h⟩ := res_bind_inv h
    exact loadTextLines_scalars h textLines_scalars

theorem next_tail {file rest : Lines} {l : PyStr} (h : file.next = .ok (some (l, rest))) :
    file.lines = l :: rest.lines ∧ file.stop = rest.stop := by
  obtain ⟨lines, stop⟩ := file
  cases lines with
  | nil => cases stop <;> cases h
  | cons k ls => cases h; exact ⟨rfl, rfl⟩

theorem loadTextDims_scalars [TextIO] [NumText K] {lossy : Bool} {bs : Bytes} {e : Embeddings K}
    (h : loadTextDims lossy bs = .ok e) : ScalarVocab e.vocab := by
  unfold loadTextDims at h
  obtain ⟨ls, h1, h⟩ := res_bind_inv h
  cases ls with
  | none => cases h
  | some q =>
    obtain ⟨l, file⟩ := q
    obtain ⟨_, _, h⟩ := res_bind_inv h
    refine loadTextLines_scalars h ?_
    intro k hk
    exact textLines_scalars (lossy := lossy) (bs := bs) k (by rw [(next_tail h1).1]; exact List.mem_cons_of_mem _ hk)

theorem readFtWords_scalars {lossy : Bool} {n : Nat} : ∀ {s s' : RFile} {ws : List PyStr},
    readFtWords lossy n s = .ok (ws, s') → ∀ w ∈ ws, Scalars w := by
  induction n with
  | zero => intro s s' ws h w hw; cases h; cases hw
  | succ n ih =>
    intro s s' ws h w hw
    unfold readFtWords at h
    obtain ⟨x, _, h1, h⟩ := rd_bind_inv h
    obtain ⟨_, _, h2, h⟩ := rd_bind_inv h
    cases h
    rcases List.mem_cons.mp hw with rfl | hw
    · unfold readFtWord at h1
      obtain ⟨_, _, _, h1⟩ := rd_bind_inv h1
      obtain ⟨_, _, _, h1⟩ := rd_bind_inv h1
      obtain ⟨t, _, _, h1⟩ := rd_bind_inv h1
      by_cases ht : t ≠ 0
      · rw [if_pos ht] at h1
        obtain ⟨_, _, h1, _⟩ := rd_bind_inv h1
        cases h1
      · rw [if_neg ht] at h1
        exact decodeLossy_scalars (rd_lift_inv h1).1
    · exact ih h2 w hw

theorem readFtVocab_scalars {b mn mx : Int} {lossy : Bool} {s s' : RFile} {p : Vocab × FtIndexer}
    (h1 : readFtVocab b mn mx lossy s = .ok (p, s')) : ScalarVocab p.1 := by
  unfold readFtVocab at h1
  obtain ⟨vs, _, _, h1⟩ := rd_bind_inv h1
  split at h1
  · rename_i n _ l _
    dsimp only at h1
    by_cases hl : l ≠ 0
    · rw [if_pos hl] at h1
      obtain ⟨_, _, h1, _⟩ := rd_bind_inv h1
      cases h1
    rw [if_neg hl] at h1
    obtain ⟨_, _, _, h1⟩ := rd_bind_inv h1
    obtain ⟨prune, _, _, h1⟩ := rd_bind_inv h1
    by_cases hp : toSigned 8 prune ≥ 0
    · rw [if_pos hp] at h1
      obtain ⟨_, _, h1, _⟩ := rd_bind_inv h1
      cases h1
    rw [if_neg hp] at h1
    obtain ⟨ws, _, h0, h1⟩ := rd_bind_inv h1
    obtain ⟨ix, _, h2, h1⟩ := rd_bind_inv h1
    obtain ⟨v, _, h3, h1⟩ := rd_bind_inv h1
    cases h1
    exact vocabNew_scalars (rd_lift_inv h3).1 (readFtWords_scalars h0) (by intro ix' h; cases h)
  · cases h1

theorem loadFasttext_scalars [Codec K] {lossy : Bool} {bs : Bytes} {e : Embeddings K}
    (h : Rd.run (loadFasttext lossy) bs = .ok e) : ScalarVocab e.vocab := by
  obtain ⟨s', h⟩ := rd_run_ok h
  unfold loadFasttext at h
  obtain ⟨_, _, _, h⟩ := rd_bind_inv h
  obtain ⟨cfg, _, _, h⟩ := rd_bind_inv h
  obtain ⟨p, _, h1, h⟩ := rd_bind_inv h
  obtain ⟨m, _, h2, h⟩ := rd_bind_inv h
  rw [new_vocab (rd_lift_inv h).1]
  exact readFtVocab_scalars h1

end

theorem formatLoad_scalars [TextIO] [NumOps F32] [NumText F32] {T : Toml} {f : Format} {lossy mmap : Bool}
    {bs : Bytes} {e : Embeddings F32} (h : f.load T lossy mmap bs = .ok e) : ScalarVocab e.vocab := by
  cases f with
  | finalfusion =>
    obtain ⟨s', h⟩ := rd_run_ok h
    unfold loadFinalfusion at h
    obtain ⟨_, s1, h1, h⟩ := rd_bind_inv h
    obtain ⟨⟨c, md⟩, s2, h2, h⟩ := rd_bind_inv h
    obtain ⟨v, s3, h3, h⟩ := rd_bind_inv h
    obtain ⟨st, s4, h4, h⟩ := rd_bind_inv h
    obtain ⟨n, s5, h5, h⟩ := rd_bind_inv h
    rw [new_vocab (rd_lift_inv h).1]
    exact loadVocabPart_scalars h3
  | fasttext => exact loadFasttext_scalars h
  | word2vec => exact loadWord2vec_scalars h
  | textdims => exact loadTextDims_scalars h
  | text => exact loadText_scalars h

end FF
