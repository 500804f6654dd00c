import Verif.Lemmas.Among
import Verif.Props.C31
import Verif.Props.C93
/-! C94: a selection answers queries as its source does among the selected words. -/

namespace FF

section
variable {K : Type} [NumOps K]

theorem selected_embedding {e e' : Embeddings K} (he : BuiltEmb e) {ign : Bool} {input : PyStr} {words : List PyStr}
    (h : selectEmbeddings e ign input words = .ok e') {w : PyStr} (hw : w ∈ words) {v : List K}
    (hv : e.embedding w = .ok (some v)) : e'.embedding w = .ok (some v) :=
  (C45_selected_partial e e' he ign input words h).2.2.1 w hw v hv

/-- The norms are not selected: `embedding_with_norm` raises `TypeError` for every word of every selection. -/
theorem C94_no_norms (e e' : Embeddings K) (he : BuiltEmb e) (ign : Bool) (input : PyStr) (words : List PyStr)
    (h : selectEmbeddings e ign input words = .ok e') :
    e'.norms = none ∧ ∀ w, e'.embeddingWithNorm w = .error .typeError := by
  obtain ⟨_, _, _, _, _, hn, _⟩ := selectEmbeddings_ok he h
  refine ⟨hn, fun w => ?_⟩
  unfold Embeddings.embeddingWithNorm
  rw [hn]

variable [Score K]

/-- The answers of a selection are nearest neighbours among its words, by the vectors that the source has for them, whether
or not they are words of the source and whatever storage the source has. -/
theorem C94_nearest {S : Sel K} (hS : S.Admissible) (e e' : Embeddings K) (he : BuiltEmb e) (ign : Bool) (input : PyStr)
    (words : List PyStr) (h : selectEmbeddings e ign input words = .ok e')
    (hr : ∀ w ∈ words, ∃ v, e.embedding w = .ok (some v)) (query : List K) (hq : query.length = e.storage.nCols) (k : Nat)
    (skips : List PyStr) (h0 : words ≠ []) (hk : k + knownSkips words skips ≤ words.length)
    (hc : ∀ w v, w ∈ words → w ∉ skips → e.embedding w = .ok (some v) → Score.nan (NumOps.dot v query) = false) :
    ∃ res, e'.similarity S query k skips = .ok res ∧ NearestAmong e words query skips k res := by
  obtain ⟨_, rows, _, hb, hv, _, hs, _⟩ := selectEmbeddings_ok he h
  have hw : e'.vocab.words = words := by rw [hv]
  have hsel : ∀ w row, HasVector e' w row ↔ w ∈ words ∧ e.embedding w = .ok (some row) :=
    fun w row => selected_vector he h hr
  obtain ⟨res, h1, t⟩ := C31_top_k S hS e' hb _ hs query hq k skips (by rw [hw]; exact h0) (by rw [hw]; exact hk) (by
    intro i w row hi hg hsk
    obtain ⟨h1, h2⟩ := (hsel w row).mp ⟨i, hi, hg⟩
    exact hc w row h1 hsk h2)
  refine ⟨res, h1, t.length, t.nodup, t.sorted, fun w x hx => ?_, fun w v hw' hv' hsk hn r hr' => ?_⟩
  · obtain ⟨h2, i, row, h3, h4, h5⟩ := t.scores w x hx
    obtain ⟨h6, h7⟩ := (hsel w row).mp ⟨i, h3, h4⟩
    exact ⟨h6, h2, row, h7, h5⟩
  · obtain ⟨i, h3, h4⟩ := (hsel w v).mpr ⟨hw', hv'⟩
    exact t.best i w v h3 h4 hsk hn r hr'

/-- For embeddings with some of the words of others, each with its vector: the answers are the first ones of the complete
ranking of the others that are among the words. -/
theorem C94_ranking {S S' : Sel K} (hS : S.Admissible) (hS' : S'.Admissible) (e e' : Embeddings K) (he : BuiltEmb e)
    (he' : BuiltEmb e') (hsub : ∀ w row, HasVector e' w row → HasVector e w row) (m m' : Mat K) (hm : e.storage = .nd m)
    (hm' : e'.storage = .nd m') (query : List K) (hq : query.length = m.cols) (hq' : query.length = m'.cols) (n k : Nat)
    (skips : List PyStr) (h0 : e'.vocab.words ≠ []) (hn : n + knownSkips e.vocab.words skips = e.vocab.words.length)
    (hk : k + knownSkips e'.vocab.words skips ≤ e'.vocab.words.length) (hc : Comparable e query skips) :
    ∃ all res, e.similarity S query n skips = .ok all ∧ e'.similarity S' query k skips = .ok res ∧
      SameAnswers (firstAmong k e'.vocab.words all) res := by
  have hrow : ∀ w ∈ e'.vocab.words, ∃ row, HasVector e' w row := fun w hw => by
    obtain ⟨row, hr, _⟩ := word_row he' hm' hw
    exact ⟨row, hr⟩
  have hc' : Comparable e' query skips := by
    intro i w row hi hg hsk
    obtain ⟨j, hj, hgj⟩ := hsub w row ⟨i, hi, hg⟩
    exact hc j w row hj hgj hsk
  have h0' : e.vocab.words ≠ [] := by
    intro hx
    obtain ⟨w, ws, hws⟩ := List.exists_cons_of_ne_nil h0
    obtain ⟨row, hr⟩ := hrow w (by rw [hws]; simp)
    obtain ⟨i, hi, _⟩ := hsub w row hr
    rw [hx] at hi
    cases hi
  obtain ⟨all, h1, t1⟩ := C31_top_k S hS e he m hm query hq n skips h0' (by omega) hc
  obtain ⟨res, h2, t2⟩ := C31_top_k S' hS' e' he' m' hm' query hq' k skips h0 hk hc'
  exact ⟨all, res, h1, h2, topK_same he' he' (fun _ _ => Iff.rfl) (topK_restrict he he' hsub hrow t1 hn hk) t2 hc'⟩

theorem selected_ranking {S S' : Sel K} (hS : S.Admissible) (hS' : S'.Admissible) {e e' : Embeddings K} (he : BuiltEmb e)
    {m : Mat K} (hm : e.storage = .nd m) {ign : Bool} {input : PyStr} {words : List PyStr}
    (h : selectEmbeddings e ign input words = .ok e') (hknown : ∀ w ∈ words, w ∈ e.vocab.words) (h0 : words ≠ [])
    {query : List K} (hq : query.length = m.cols) {n k : Nat} {skips : List PyStr}
    (hn : n + knownSkips e.vocab.words skips = e.vocab.words.length) (hk : k + knownSkips words skips ≤ words.length)
    (hc : Comparable e query skips) :
    ∃ all res, e.similarity S query n skips = .ok all ∧ e'.similarity S' query k skips = .ok res ∧
      SameAnswers (firstAmong k words all) res := by
  obtain ⟨_, rows, _, hb, hv, _, hs, _⟩ := selectEmbeddings_ok he h
  have hw : e'.vocab.words = words := by rw [hv]
  have hr : ∀ w ∈ words, ∃ v, e.embedding w = .ok (some v) := fun w hw => by
    obtain ⟨row, _, hr⟩ := word_row he hm (hknown w hw)
    exact ⟨row, hr⟩
  have := C94_ranking hS hS' e e' he hb (fun w row hx => by
    obtain ⟨h1, h2⟩ := (selected_vector he h hr).mp hx
    obtain ⟨row', h3, h4⟩ := word_row he hm (hknown w h1)
    rw [h2] at h4
    cases h4
    exact h3) m _ hm hs query hq (by rw [hq, hm]; rfl) n k skips (by rw [hw]; exact h0) hn (by rw [hw]; exact hk) hc
  rwa [hw] at this

/-- `word_similarity` for a selected word: the first answers of the complete ranking by the source that are selected. -/
theorem C94_word_similarity {S S' : Sel K} (hS : S.Admissible) (hS' : S'.Admissible) (e e' : Embeddings K) (he : BuiltEmb e)
    (m : Mat K) (hm : e.storage = .nd m) (ign : Bool) (input : PyStr) (words : List PyStr)
    (h : selectEmbeddings e ign input words = .ok e') (hknown : ∀ w ∈ words, w ∈ e.vocab.words) (w : PyStr) (hw : w ∈ words)
    (n k : Nat) (hn : n + 1 = e.vocab.words.length) (hk : k + 1 ≤ words.length)
    (hc : ∀ v, e.embedding w = .ok (some v) → Comparable e v [w]) :
    ∃ all res, e.wordSimilarity S w n = .ok (some all) ∧ e'.wordSimilarity S' w k = .ok (some res) ∧
      SameAnswers (firstAmong k words all) res := by
  obtain ⟨v, _, hv⟩ := word_row he hm (hknown w hw)
  have hone : ∀ ws : List PyStr, ws.Nodup → w ∈ ws → knownSkips ws [w] = 1 := by
    intro ws hnd hmem
    unfold knownSkips
    have : (ws.filter fun x => decide (x ∈ [w])).Perm [w] := by
      refine (List.perm_ext_iff_of_nodup (hnd.filter _) (by simp)).mpr fun x => ?_
      simp only [List.mem_filter, List.mem_singleton, decide_eq_true_eq]
      exact ⟨fun h => h.2, fun h => ⟨h ▸ hmem, h⟩⟩
    rw [this.length_eq]
    rfl
  have hnd := (selectEmbeddings_ok he h).1
  have hq : v.length = m.cols := by
    have := embedding_length he.storage hv
    rwa [hm] at this
  obtain ⟨all, res, h1, h2, h3⟩ := selected_ranking hS hS' he hm h hknown (List.ne_nil_of_mem hw) hq (n := n) (k := k)
    (skips := [w]) (by rw [hone _ he.vocab.nodup (hknown w hw)]; exact hn) (by rw [hone _ hnd hw]; exact hk) (hc v hv)
  refine ⟨all, res, ?_, ?_, h3⟩
  · rw [wordSimilarity_eq hv, h1]; rfl
  · rw [wordSimilarity_eq (selected_embedding he h hw hv), h2]; rfl

/-- `analogy` for selected words. -/
theorem C94_analogy {S S' : Sel K} (hS : S.Admissible) (hS' : S'.Admissible) (e e' : Embeddings K) (he : BuiltEmb e)
    (m : Mat K) (hm : e.storage = .nd m) (ign : Bool) (input : PyStr) (words : List PyStr)
    (h : selectEmbeddings e ign input words = .ok e') (hknown : ∀ w ∈ words, w ∈ e.vocab.words) (w1 w2 w3 : PyStr)
    (hw1 : w1 ∈ words) (hw2 : w2 ∈ words) (hw3 : w3 ∈ words) (skip : Option (List PyStr)) (n k : Nat)
    (hn : n + knownSkips e.vocab.words (skip.getD [w1, w2, w3]) = e.vocab.words.length)
    (hk : k + knownSkips words (skip.getD [w1, w2, w3]) ≤ words.length)
    (hc : ∀ a b c, e.embedding w1 = .ok (some a) → e.embedding w2 = .ok (some b) → e.embedding w3 = .ok (some c) →
      Comparable e (analogyVec a b c) (skip.getD [w1, w2, w3])) :
    ∃ all res, e.analogy S w1 w2 w3 n skip = .ok (some all) ∧ e'.analogy S' w1 w2 w3 k skip = .ok (some res) ∧
      SameAnswers (firstAmong k words all) res := by
  obtain ⟨a, _, ha⟩ := word_row he hm (hknown w1 hw1)
  obtain ⟨b, _, hb⟩ := word_row he hm (hknown w2 hw2)
  obtain ⟨c, _, hc3⟩ := word_row he hm (hknown w3 hw3)
  have hlen : ∀ w v, e.embedding w = .ok (some v) → v.length = m.cols := by
    intro w v hv
    have := embedding_length he.storage hv
    rwa [hm] at this
  obtain ⟨all, res, h1, h2, h3⟩ := selected_ranking hS hS' he hm h hknown (List.ne_nil_of_mem hw1)
    (analogyVec_length (hlen _ _ ha) (hlen _ _ hb) (hlen _ _ hc3)) hn hk (hc a b c ha hb hc3)
  refine ⟨all, res, ?_, ?_, h3⟩
  · rw [analogy_eq ha hb hc3, h1]; rfl
  · rw [analogy_eq (selected_embedding he h hw1 ha) (selected_embedding he h hw2 hb) (selected_embedding he h hw3 hc3), h2]
    rfl

end

section
variable [NumOps F32] [NumText F32] [Score F32]

/-- From file to file, for word lists without unknown words: after a successful run, the words of the list are answered
from the output as from the input among the words of the list. -/
theorem C94_files [TextIO] {S S' : Sel F32} (hS : S.Admissible) (hS' : S'.Admissible) (T : Toml)
    (enum : List PyStr → List PyStr) (hen : SetEnum enum) (f : Format) (input output wordList : PyStr)
    (ign lossy mmap : Bool) (fs fs' : FS) (hT : ∀ m, TomlOk T (some ((ascii "source_embeddings".toList, .str input) :: m)))
    (h : selectMain T enum f input output wordList ign lossy mmap fs = (.ok (), fs'))
    (e : Embeddings F32) (hload : readFile input (f.load T lossy mmap) fs = .ok e) (m : Mat F32) (hm : e.storage = .nd m)
    (ws : Bytes) (hws : fs wordList = some ws) (lines : List PyStr) (hy : Yields lossy ws lines none)
    (hknown : ∀ line ∈ lines, strip line ∈ e.vocab.words) (line : PyStr) (hline : line ∈ lines) (n k : Nat)
    (hn : n + 1 = e.vocab.words.length) (hk : k + 1 ≤ (lines.map strip).dedup.length)
    (hc : ∀ v, e.embedding (strip line) = .ok (some v) → Comparable e v [strip line]) :
    ∃ e' all res, readFile output (Rd.run (loadFinalfusion T false)) fs' = .ok e' ∧
      e.wordSimilarity S (strip line) n = .ok (some all) ∧ e'.wordSimilarity S' (strip line) k = .ok (some res) ∧
      SameAnswers (firstAmong k (lines.map strip) all) res := by
  unfold selectMain at h
  rw [hload] at h
  simp only [res_bind_ok] at h
  unfold readFile at h
  rw [hws] at h
  obtain ⟨lines', hl', he'⟩ := textLines_yields hy
  simp only [hl', Lines.all, res_bind_ok, ended_strip he'] at h
  cases h3 : selectEmbeddings e ign input (enum (lines.map strip)) with
  | error x => rw [h3] at h; cases h
  | ok e' =>
  rw [h3] at h
  simp only at h
  obtain ⟨bs, hbs, rfl⟩ := writeFile_ok h
  have he : BuiltEmb e := by
    unfold readFile at hload
    split at hload
    · cases hload
    · exact formatLoad_built hload
  obtain ⟨_, rows, _, hb, hv, _, _, hmeta⟩ := selectEmbeddings_ok he h3
  obtain ⟨hnd, hmem⟩ := hen (lines.map strip)
  have hkn : ∀ w ∈ enum (lines.map strip), w ∈ e.vocab.words := by
    intro w hw
    obtain ⟨l, hl, rfl⟩ := List.mem_map.mp ((hmem w).mp hw)
    exact hknown l hl
  have hlen : (enum (lines.map strip)).length = (lines.map strip).dedup.length :=
    ((List.perm_ext_iff_of_nodup hnd (List.nodup_dedup _)).mpr fun w => by rw [hmem, List.mem_dedup]).length_eq
  obtain ⟨all, res, r1, r2, r3⟩ := C94_word_similarity hS hS' e e' he m hm ign input _ h3 hkn (strip line)
    ((hmem _).mpr (List.mem_map_of_mem hline)) n k hn (by rw [hlen]; exact hk) hc
  refine ⟨e', all, res, ?_, r1, r2, ?_⟩
  · unfold readFile
    simp only [if_true]
    refine C01_roundtrip_eq T e' bs hb ?_ hbs (fun ix h => by rw [hv] at h; cases h)
    rw [hmeta]
    exact hT _
  · have : firstAmong k (enum (lines.map strip)) all = firstAmong k (lines.map strip) all := by
      unfold firstAmong
      congr 2
      funext r
      simp only [hmem]
    rwa [this] at r3

end

/-- The norm of a word is lost: the source has the norm 7 for `b`, its selection raises `TypeError`. -/
theorem C94_norms_refuted : ∃ (e e' : Embeddings Int) (w : PyStr) (v : List Int) (n : Int), BuiltEmb e ∧ w ∈ e.vocab.words ∧
    selectEmbeddings e false [102] [w] = .ok e' ∧ e.embeddingWithNorm w = .ok (some (v, some n)) ∧
    e'.embeddingWithNorm w = .error .typeError := by
  have hb := (Sample.builtTwoWords 0 (.inl rfl)).1
  obtain ⟨e', h⟩ : ∃ e', selectEmbeddings (Sample.twoWords 0) false [102] [[98]] = .ok e' :=
    Sample.ok_of_errOf (by decide +kernel)
  exact ⟨Sample.twoWords 0, e', [98], [-9, 0], 7, hb, by decide, h, by decide +kernel, (C94_no_norms _ _ hb _ _ _ h).2 _⟩

/-! ### Cases that meet the hypotheses -/

/-- The ranking of the words around `a`, and a selection of three words. -/
example : ∃ e', selectEmbeddings Sample.embSim false [102] [[99], [97], [101]] = .ok e' ∧
    Sample.embSim.wordSimilarity (Sel.sorting Int) [97] (4 : Nat) =
      .ok (some [([100], 6), ([101], 3), ([98], 3), ([99], 0)]) ∧
    firstAmong 2 [[99], [97], [101]] [([100], (6 : Int)), ([101], 3), ([98], 3), ([99], 0)] = [([101], 3), ([99], 0)] ∧
    ∃ all res, Sample.embSim.wordSimilarity (Sel.sorting Int) [97] (4 : Nat) = .ok (some all) ∧
      e'.wordSimilarity (Sel.sorting Int) [97] (2 : Nat) = .ok (some res) ∧
      SameAnswers (firstAmong 2 [[99], [97], [101]] all) res := by
  obtain ⟨e', h⟩ : ∃ e', selectEmbeddings Sample.embSim false [102] [[99], [97], [101]] = .ok e' :=
    Sample.ok_of_errOf (by decide +kernel)
  exact ⟨e', h, by decide +kernel, by decide +kernel, C94_word_similarity (sorting_admissible Int) (sorting_admissible Int) _ _
    Sample.builtEmbSim _ rfl _ _ _ h (by decide) [97] (by decide) 4 2 rfl (by decide) (fun _ _ _ _ _ _ _ _ => rfl)⟩

/-- `a` is not a word of the source, its n-grams are. -/
example : ∃ e', selectEmbeddings (Sample.twoWords 0) false [102] [[98], [97]] = .ok e' ∧
    (Sample.twoWords 0).embedding [97] = .ok (some [0, 1]) ∧
    ∃ res, e'.similarity (Sel.sorting Int) [1, 1] (1 : Nat) [[98]] = .ok res ∧
      NearestAmong (Sample.twoWords 0) [[98], [97]] [1, 1] [[98]] 1 res := by
  obtain ⟨e', h⟩ : ∃ e', selectEmbeddings (Sample.twoWords 0) false [102] [[98], [97]] = .ok e' :=
    Sample.ok_of_errOf (by decide +kernel)
  refine ⟨e', h, by decide +kernel, C94_nearest (sorting_admissible Int) _ _ (Sample.builtTwoWords 0 (.inl rfl)).1 _ _ _ h ?_
    [1, 1] rfl 1 _ (by decide) (by decide) (fun _ _ _ _ _ => rfl)⟩
  intro w hw
  rcases List.mem_cons.mp hw with rfl | hw
  · exact ⟨[-9, 0], by decide +kernel⟩
  · obtain rfl := List.mem_singleton.mp hw
    exact ⟨[0, 1], by decide +kernel⟩

end FF
