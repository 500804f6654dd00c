import Verif.Model.Scripts
import Verif.Lemmas.LoadInv
import Verif.Lemmas.FastTextLoad
import Verif.Lemmas.Text
import Verif.Lemmas.Sim
/-!
# What the compat loaders return is built by the constructors
-/

namespace FF

section
variable {K : Type}

theorem assignRow_length {cols : Nat} {xs row : List K} (h : assignRow cols xs = .ok row) :
    row.length = cols := by
  unfold assignRow at h
  split at h
  · rename_i hl; cases h; exact hl
  · split at h
    · cases h; simp
    · cases h

variable [NumOps K]

omit [NumOps K] in
theorem w2vRows_lengths [Codec K] {lossy : Bool} {cols n : Nat} {s s' : RFile}
    {rows : List (PyStr × List K)} (h : w2vRows lossy cols n s = .ok (rows, s')) :
    rows.length = n ∧ ∀ p ∈ rows, p.2.length = cols := by
  induction n generalizing s rows with
  | zero => cases h; simp
  | succ n ih =>
    unfold w2vRows at h
    obtain ⟨_, _, _, h⟩ := rd_bind_inv h
    obtain ⟨_, _, _, h⟩ := rd_bind_inv h
    obtain ⟨_, _, _, h⟩ := rd_bind_inv h
    obtain ⟨row, _, h1, h⟩ := rd_bind_inv h
    obtain ⟨rest, s5, h2, h⟩ := rd_bind_inv h
    cases h
    obtain ⟨h3, h4⟩ := ih h2
    refine ⟨by simp [h3], ?_⟩
    intro p hp
    rcases List.mem_cons.mp hp with rfl | hp
    · exact assignRow_length (rd_lift_inv h1).1
    · exact h4 p hp

omit [NumOps K] in
theorem textRows_lengths [NumText K] {cols n : Nat} {stop : Option PyErr} {lines : List PyStr}
    {rows : List (PyStr × List K)} (h : textRows cols stop n lines = .ok rows) :
    rows.length = min n lines.length ∧ ∀ p ∈ rows, p.2.length = cols := by
  induction n generalizing lines rows with
  | zero => unfold textRows at h; cases h; simp
  | succ n ih =>
    cases lines with
    | nil => unfold textRows at h; split at h <;> cases h; simp
    | cons line lines =>
      unfold textRows at h
      obtain ⟨r, h1, h⟩ := res_bind_inv h
      obtain ⟨rs, h2, h⟩ := res_bind_inv h
      cases h
      obtain ⟨h3, h4⟩ := ih h2
      refine ⟨by simp [h3], ?_⟩
      intro p hp
      rcases List.mem_cons.mp hp with rfl | hp
      · unfold textRow at h1
        split at h1
        · cases h1
        · obtain ⟨_, _, h1⟩ := res_bind_inv h1
          obtain ⟨row, h5, h1⟩ := res_bind_inv h1
          cases h1
          exact assignRow_length h5
      · exact h4 p hp

theorem normalizeMatrix_wf {cols : Nat} {rows : List (List K)} (h : ∀ r ∈ rows, r.length = cols) :
    ∀ r ∈ (normalizeMatrix rows).1, r.length = cols := by
  intro r hr
  unfold normalizeMatrix at hr
  obtain ⟨r', h1, rfl⟩ := List.mem_map.mp hr
  simp [vdiv, h r' h1]

omit [NumOps K] in
/-- Embeddings returned by a loader: built, with norms. -/
theorem new_built {st : Storage K} {v : Vocab} {n : List K} {md : Option Meta} {e : Embeddings K}
    (hv : BuiltVocab v) (hs : StorageWF st) (h : Embeddings.new st v (some n) md = .ok e) :
    BuiltEmb e ∧ e.vocab = v ∧ e.metadata = md ∧ e.storage = st ∧ e.norms = some n := by
  obtain ⟨rfl, _⟩ := embNew_iff.mp h
  exact ⟨⟨hv, hs, h⟩, rfl, rfl, rfl, rfl⟩

theorem loadWord2vec_built [Codec K] {lossy : Bool} {bs : Bytes} {e : Embeddings K}
    (h : Rd.run (loadWord2vec lossy) bs = .ok e) :
    BuiltEmb e ∧ e.vocab.sub = none ∧ e.metadata = none ∧ (∃ m, e.storage = .nd m) ∧
      e.norms.isSome := by
  obtain ⟨s', h⟩ := rd_run_ok h
  unfold loadWord2vec at h
  obtain ⟨_, _, _, h⟩ := rd_bind_inv h
  obtain ⟨_, _, _, h⟩ := rd_bind_inv h
  obtain ⟨_, _, _, h⟩ := rd_bind_inv h
  obtain ⟨shape, _, h0, h⟩ := rd_bind_inv h
  obtain ⟨rows, _, h1, h⟩ := rd_bind_inv h
  obtain ⟨v, _, h2, h⟩ := rd_bind_inv h
  have h2 := (rd_lift_inv h2).1
  have h3 := (rd_lift_inv h).1
  obtain ⟨hrl, hl⟩ := w2vRows_lengths h1
  obtain ⟨hv, _, hsub⟩ := vocabNew_built h2 (fun ix h => by cases h)
  obtain ⟨hb, e1, e2, e3, e4⟩ := new_built hv (by
    refine ⟨?_, (zerosShape_iff.mp (rd_lift_inv h0).1).2.2.mono (by simp [normalizeMatrix, hrl])⟩
    intro r hr
    refine normalizeMatrix_wf (cols := shape.2) ?_ r hr
    intro r' hr'
    obtain ⟨p, hp, rfl⟩ := List.mem_map.mp hr'
    exact hl p hp) h3
  exact ⟨hb, by rw [e1, hsub], e2, ⟨_, e3⟩, by rw [e4]; rfl⟩

theorem loadTextLines_built [NumText K] {file : Lines} {r c : Int} {e : Embeddings K}
    (h : loadTextLines file r c = .ok e) :
    BuiltEmb e ∧ e.vocab.sub = none ∧ e.metadata = none ∧ (∃ m, e.storage = .nd m) ∧
      e.norms.isSome := by
  unfold loadTextLines at h
  obtain ⟨shape, h0, h⟩ := res_bind_inv h
  obtain ⟨rs, h1, h⟩ := res_bind_inv h
  obtain ⟨v, h2, h3⟩ := res_bind_inv h
  obtain ⟨hrl, hl⟩ := textRows_lengths h1
  obtain ⟨hv, _, hsub⟩ := vocabNew_built h2 (fun ix h => by cases h)
  obtain ⟨hb, e1, e2, e3, e4⟩ := new_built hv (by
    refine ⟨?_, (zerosShape_iff.mp h0).2.2.mono (by simp [normalizeMatrix, hrl])⟩
    intro r hr
    refine normalizeMatrix_wf (cols := shape.2) ?_ r hr
    intro r' hr'
    rcases List.mem_append.mp hr' with hr' | hr'
    · obtain ⟨p, hp, rfl⟩ := List.mem_map.mp hr'
      exact hl p hp
    · rw [(List.mem_replicate.mp hr').2]; simp) h3
  exact ⟨hb, by rw [e1, hsub], e2, ⟨_, e3⟩, by rw [e4]; rfl⟩

theorem loadText_built [TextIO] [NumText K] {lossy : Bool} {bs : Bytes} {e : Embeddings K}
    (h : loadText lossy bs = .ok e) :
    BuiltEmb e ∧ e.vocab.sub = none ∧ e.metadata = none ∧ (∃ m, e.storage = .nd m) ∧
      e.norms.isSome := by
  unfold loadText at h
  obtain ⟨ls, _, h⟩ := res_bind_inv h
  cases ls with
  | none => cases h
  | some q =>
    obtain ⟨_, _, h⟩ := res_bind_inv h
    exact loadTextLines_built h

theorem loadTextDims_built [TextIO] [NumText K] {lossy : Bool} {bs : Bytes} {e : Embeddings K}
    (h : loadTextDims lossy bs = .ok e) :
    BuiltEmb e ∧ e.vocab.sub = none ∧ e.metadata = none ∧ (∃ m, e.storage = .nd m) ∧
      e.norms.isSome := by
  unfold loadTextDims at h
  obtain ⟨ls, _, h⟩ := res_bind_inv h
  cases ls with
  | none => cases h
  | some q =>
    obtain ⟨_, _, h⟩ := res_bind_inv h
    exact loadTextLines_built h

omit [NumOps K] in
theorem forall₂_right {α β : Type} {R : α → β → Prop} {xs : List α} {ys : List β}
    (h : List.Forall₂ R xs ys) {y : β} (hy : y ∈ ys) : ∃ x ∈ xs, R x y := by
  induction h with
  | nil => cases hy
  | cons h1 _ ih =>
    rcases List.mem_cons.mp hy with rfl | hy
    · exact ⟨_, by simp, h1⟩
    · obtain ⟨x, hx, hr⟩ := ih hy
      exact ⟨x, List.mem_cons_of_mem _ hx, hr⟩

theorem precomputeWords_wf {v : Vocab} {ix : Indexer} {cols i : Nat} {ws : List PyStr}
    {rows rows' : List (List K)} (h : precomputeWords v ix cols i ws rows = .ok rows')
    (hl : ∀ r ∈ rows, r.length = cols) :
    rows'.length = rows.length ∧ ∀ r ∈ rows', r.length = cols := by
  induction ws generalizing i rows with
  | nil => unfold precomputeWords at h; cases h; exact ⟨rfl, hl⟩
  | cons w ws ih =>
    unfold precomputeWords at h
    obtain ⟨sub, _, h⟩ := res_bind_inv h
    obtain ⟨sel, h1, h⟩ := res_bind_inv h
    obtain ⟨rows1, h2, h⟩ := res_bind_inv h
    obtain ⟨_, rfl⟩ := npSet_ok.mp h2
    have hsel : ∀ r ∈ sel, r.length = cols := by
      intro r hr
      obtain ⟨j, _, hj⟩ := forall₂_right (mapRes_ok.mp h1) hr
      obtain ⟨t, _, ht⟩ := npGet_ok.mp hj
      exact hl r (List.mem_of_getElem? ht)
    have := ih h (by
      intro r hr
      rcases List.mem_or_eq_of_mem_set hr with hr | rfl
      · exact hl r hr
      · simp only [vdiv, List.length_map]
        exact (addReduce_isSum hsel).1)
    simpa using this

omit [NumOps K] in
theorem reshapeInt_wf {r c : Int} {xs : List K} {m : Mat K} (h : reshapeInt r c xs = .ok m) :
    StorageWF (.nd m) := by
  unfold reshapeInt at h
  split at h
  · split at h
    · cases h
    · exact reshape2_wf h
  · split at h
    · split at h
      · cases h
      · exact reshape2_wf h
    · exact reshape2_wf h

theorem readFtStorage_wf [Codec K] {v : Vocab} {ix : FtIndexer} {s s' : RFile} {m : Mat K}
    (h : readFtStorage v ix s = .ok (m, s')) : StorageWF (.nd m) := by
  unfold readFtStorage at h
  obtain ⟨q, _, _, h⟩ := rd_bind_inv h
  dsimp only at h
  by_cases hq : q ≠ 0
  · rw [if_pos hq] at h
    obtain ⟨_, _, h1, _⟩ := rd_bind_inv h
    cases h1
  rw [if_neg hq] at h
  obtain ⟨rc, _, _, h⟩ := rd_bind_inv h
  split at h
  · obtain ⟨xs, _, _, h⟩ := rd_bind_inv h
    obtain ⟨m1, _, h1, h⟩ := rd_bind_inv h
    obtain ⟨rs, _, h2, h⟩ := rd_bind_inv h
    cases h
    have hw := reshapeInt_wf (rd_lift_inv h1).1
    have hp := precomputeWords_wf (rd_lift_inv h2).1 hw.1
    exact ⟨hp.2, by rw [hp.1]; exact hw.2⟩
  · cases h

theorem readFtVocab_built {b mn mx : Int} {lossy : Bool} {s s' : RFile} {p : Vocab × FtIndexer}
    (h1 : readFtVocab b mn mx lossy s = .ok (p, s')) :
    BuiltVocab p.1 ∧ p.1.sub = some (.ft p.2) := by
  unfold readFtVocab at h1
  obtain ⟨vs, _, _, h1⟩ := rd_bind_inv h1
  split at h1
  · rename_i n _ l _
    dsimp only at h1
    by_cases hl : l ≠ 0
    · rw [if_pos hl] at h1
      obtain ⟨_, _, h1, _⟩ := rd_bind_inv h1
      cases h1
    rw [if_neg hl] at h1
    obtain ⟨_, _, _, h1⟩ := rd_bind_inv h1
    obtain ⟨prune, _, _, h1⟩ := rd_bind_inv h1
    by_cases hp : toSigned 8 prune ≥ 0
    · rw [if_pos hp] at h1
      obtain ⟨_, _, h1, _⟩ := rd_bind_inv h1
      cases h1
    rw [if_neg hp] at h1
    obtain ⟨ws, _, _, h1⟩ := rd_bind_inv h1
    obtain ⟨ix, _, h2, h1⟩ := rd_bind_inv h1
    obtain ⟨v, _, h3, h1⟩ := rd_bind_inv h1
    cases h1
    obtain ⟨hb, _, hs⟩ := vocabNew_built (rd_lift_inv h3).1 (by
      intro ix' h; cases h; exact .ft (rd_lift_inv h2).1)
    exact ⟨hb, hs⟩
  · cases h1

theorem loadFasttext_built [Codec K] {lossy : Bool} {bs : Bytes} {e : Embeddings K}
    (h : Rd.run (loadFasttext lossy) bs = .ok e) :
    BuiltEmb e ∧ (∃ ix, e.vocab.sub = some (.ft ix)) ∧ (∃ c : FtCfg, e.metadata = some c.toMeta) ∧
      (∃ m, e.storage = .nd m) ∧ e.norms.isSome := by
  obtain ⟨s', h⟩ := rd_run_ok h
  unfold loadFasttext at h
  obtain ⟨_, _, _, h⟩ := rd_bind_inv h
  obtain ⟨cfg, _, _, h⟩ := rd_bind_inv h
  obtain ⟨p, _, h1, h⟩ := rd_bind_inv h
  obtain ⟨m, _, h2, h⟩ := rd_bind_inv h
  have h3 := (rd_lift_inv h).1
  obtain ⟨hv, hsub⟩ := readFtVocab_built h1
  have hm := readFtStorage_wf h2
  obtain ⟨hb, e1, e2, e3, e4⟩ := new_built hv (by
    refine ⟨?_, ?_⟩
    · intro r hr
      rcases List.mem_append.mp hr with hr | hr
      · exact normalizeMatrix_wf (fun r' hr' => hm.1 r' (List.mem_of_mem_take hr')) r hr
      · exact hm.1 r (List.mem_of_mem_drop hr)
    · refine hm.2.mono ?_
      show List.length (_ ++ _) ≤ _
      rw [List.length_append, List.length_map, List.length_take, List.length_drop]
      omega) h3
  exact ⟨hb, ⟨_, by rw [e1, hsub]⟩, ⟨cfg, e2⟩, ⟨_, e3⟩, by rw [e4]; rfl⟩

end

/-! ### Files -/

theorem writeFile_ok {path : PyStr} {w : Wr Unit} {fs fs' : FS}
    (h : writeFile path w fs = (.ok (), fs')) :
    ∃ bs, w.file = (.ok (), bs) ∧ fs' = fun p => if p = path then some bs else fs p := by
  unfold writeFile at h
  obtain ⟨h1, h2⟩ := Prod.mk.inj h
  exact ⟨w.file.2, Prod.ext h1 rfl, h2.symm⟩

/-- `Format.load` only returns built embeddings. -/
theorem formatLoad_built [TextIO] [NumOps F32] [NumText F32] {T : Toml} {f : Format} {lossy mmap : Bool}
    {bs : Bytes} {e : Embeddings F32} (h : f.load T lossy mmap bs = .ok e) : BuiltEmb e := by
  cases f with
  | finalfusion => exact (loadFinalfusion_built h).1
  | fasttext => exact (loadFasttext_built h).1
  | word2vec => exact (loadWord2vec_built h).1
  | textdims => exact (loadTextDims_built h).1
  | text => exact (loadText_built h).1

/-- A vocabulary that was read is not an `ExplicitVocab` without n-grams. -/
theorem loadVocabPart_ngrams {c : ChunkId} {s s' : RFile} {v : Vocab}
    (h : loadVocabPart c s = .ok (v, s')) : HasNgrams v := by
  intro ix hx
  cases c with
  | simpleVocab =>
    unfold loadVocabPart readSimpleVocab at h
    obtain ⟨l, s1, h1, h⟩ := rd_bind_inv h
    obtain ⟨ws, s2, h2, h⟩ := rd_bind_inv h
    obtain ⟨h, _⟩ := rd_lift_inv h
    obtain ⟨_, _, hs⟩ := vocabNew_built h (by intro ix h; cases h)
    rw [hs] at hx
    cases hx
  | bucketVocab =>
    unfold loadVocabPart readBucketVocab at h
    simp only at h
    obtain ⟨r, s1, h1, h⟩ := rd_bind_inv h
    split at h
    · obtain ⟨ws, s2, h2, h⟩ := rd_bind_inv h
      obtain ⟨ix, s3, h3, h⟩ := rd_bind_inv h
      obtain ⟨h3, _⟩ := rd_lift_inv h3
      obtain ⟨h, _⟩ := rd_lift_inv h
      obtain ⟨_, _, hs⟩ := vocabNew_built h (by intro ix' h; cases h; exact .fifu h3)
      rw [hs] at hx
      cases hx
    · cases h
  | fastTextVocab =>
    unfold loadVocabPart readFastTextVocab at h
    simp only at h
    obtain ⟨r, s1, h1, h⟩ := rd_bind_inv h
    split at h
    · obtain ⟨ws, s2, h2, h⟩ := rd_bind_inv h
      obtain ⟨ix, s3, h3, h⟩ := rd_bind_inv h
      obtain ⟨h3, _⟩ := rd_lift_inv h3
      obtain ⟨h, _⟩ := rd_lift_inv h
      obtain ⟨_, _, hs⟩ := vocabNew_built h (by intro ix' h; cases h; exact .ft h3)
      rw [hs] at hx
      cases hx
    · cases h
  | explicitVocab =>
    unfold loadVocabPart readExplicitVocab at h
    simp only at h
    obtain ⟨r, s1, h1, h⟩ := rd_bind_inv h
    split at h
    · obtain ⟨ws, s2, h2, h⟩ := rd_bind_inv h
      obtain ⟨items, s2', h2', h⟩ := rd_bind_inv h
      obtain ⟨ix, s3, h3, h⟩ := rd_bind_inv h
      obtain ⟨h3, _⟩ := rd_lift_inv h3
      obtain ⟨h, _⟩ := rd_lift_inv h
      have hd := Dict.ofPairs_nodup (items.map fun p => (p.1, (p.2 : Int)))
      obtain ⟨_, _, hs⟩ := vocabNew_built h (by intro ix' h; cases h; exact .explIdx hd h3)
      rw [hs] at hx
      cases hx
      obtain ⟨_, hg, _, _, _, hne⟩ := (explNew_some hd).mp h3
      rw [hg]
      exact hne
    · cases h
  | _ => cases h

/-- Neither are the embeddings `Format.load` returns. -/
theorem formatLoad_ngrams [TextIO] [NumOps F32] [NumText F32] {T : Toml} {f : Format} {lossy mmap : Bool}
    {bs : Bytes} {e : Embeddings F32} (h : f.load T lossy mmap bs = .ok e) : HasNgrams e.vocab := by
  have hn : e.vocab.sub = none → HasNgrams e.vocab := by
    intro h0 ix hx
    rw [h0] at hx
    cases hx
  cases f with
  | finalfusion =>
    obtain ⟨s', h⟩ := rd_run_ok h
    unfold loadFinalfusion at h
    obtain ⟨_, s1, h1, h⟩ := rd_bind_inv h
    obtain ⟨⟨c, md⟩, s2, h2, h⟩ := rd_bind_inv h
    obtain ⟨v, s3, h3, h⟩ := rd_bind_inv h
    obtain ⟨st, s4, h4, h⟩ := rd_bind_inv h
    obtain ⟨n, s5, h5, h⟩ := rd_bind_inv h
    obtain ⟨h, _⟩ := rd_lift_inv h
    obtain ⟨rfl, _⟩ := embNew_iff.mp h
    exact loadVocabPart_ngrams h3
  | fasttext =>
    obtain ⟨_, ⟨ix', hs⟩, _⟩ := loadFasttext_built h
    intro ix hx
    rw [hs] at hx
    cases hx
  | word2vec => exact hn (loadWord2vec_built h).2.1
  | textdims => exact hn (loadTextDims_built h).2.1
  | text => exact hn (loadText_built h).2.1

end FF
