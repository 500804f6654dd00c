import Verif.Lemmas.Direction
/-! C99: answers depend on the directions of the vectors only. -/

namespace FF

/-! ### Lengths do not matter -/

/-- word2vec files: multiplying the vector of every word `w` by a positive number `c w` changes nothing but the norms. -/
theorem C99_word2vec [Codec ℝ] (lossy : Bool) (cols : Nat) (rows rows' : List (PyStr × List F32))
    (hw : ∀ p ∈ rows, W2vWord p.1) (hl : ∀ p ∈ rows, p.2.length = cols) (hn : (rows.map Prod.fst).Nodup)
    (hs : ShapeOk rows.length cols) (c : PyStr → ℝ) (hc : ∀ p ∈ rows, 0 < c p.1)
    (h : List.Forall₂ (fun p p' => p'.1 = p.1 ∧
      (p'.2.map Codec.ofBits : List ℝ) = times (c p.1) (p.2.map Codec.ofBits)) rows rows') :
    ∃ e e' : Embeddings ℝ, Rd.run (loadWord2vec lossy) (w2vFile cols rows) = .ok e ∧
      Rd.run (loadWord2vec lossy) (w2vFile cols rows') = .ok e' ∧ SameBearing c e e' := by
  have hf : rows'.map Prod.fst = rows.map Prod.fst := by
    clear hw hl hn hs hc
    induction h with
    | nil => rfl
    | cons h _ ih => rw [List.map_cons, List.map_cons, ih, h.1]
  have hlen := h.length_eq
  have hw' : ∀ p ∈ rows', W2vWord p.1 := by
    intro p hp
    have : p.1 ∈ rows.map Prod.fst := hf ▸ List.mem_map_of_mem hp
    obtain ⟨q, hq, hqe⟩ := List.mem_map.mp this
    exact hqe ▸ hw q hq
  have hl' : ∀ p ∈ rows', p.2.length = cols := by
    intro p hp
    obtain ⟨i, hi, rfl⟩ := List.getElem_of_mem hp
    have := ((List.forall₂_iff_get.mp h).2 i (by omega) hi).2
    have hx := congrArg List.length this
    simp only [times, List.length_map, List.get_eq_getElem] at hx
    rw [hx]
    exact hl _ (List.getElem_mem _)
  obtain ⟨e, h1, h2⟩ := C38_load (K := ℝ) lossy cols rows hw hl hn hs
  obtain ⟨e', h1', h2'⟩ := C38_load (K := ℝ) lossy cols rows' hw' hl' (hf ▸ hn) (hlen ▸ hs)
  refine ⟨e, e', h1, h1', ?_⟩
  have hv : (rows'.map fun p => (p.2.map Codec.ofBits : List ℝ)) =
      rows.map fun p => times (c p.1) (p.2.map Codec.ofBits) := by
    clear hw hl hn hs hc hf hlen hw' hl' h1 h2 h1' h2'
    induction h with
    | nil => rfl
    | cons h _ ih => rw [List.map_cons, List.map_cons, ih, h.2]
  rw [hf, hv] at h2'
  refine normalized_bearing c (cols := cols) (rows.map fun p => (p.1, p.2.map Codec.ofBits)) ?_ ?_ ?_
  · intro p hp
    obtain ⟨q, hq, rfl⟩ := List.mem_map.mp hp
    exact hc q hq
  · simpa only [List.map_map, Function.comp_def] using h2
  · simpa only [List.map_map, Function.comp_def] using h2'

/-- Text files, with and without dimensions. -/
theorem C99_text [TextIO] [NumText ℝ] (dims lossy : Bool) (sep : PyStr) (hs : TextSep sep) (cols : Nat)
    (rows : List (PyStr × List ℝ)) (hne : dims = false → rows ≠ []) (c : PyStr → ℝ) (hc : ∀ p ∈ rows, 0 < c p.1)
    (h : TextRows cols rows) (h' : TextRows cols (rows.map fun p => (p.1, times (c p.1) p.2))) :
    ∃ e e' : Embeddings ℝ,
      (if dims then loadTextDims lossy else loadText lossy) (utf8 (textFile dims sep cols (strRows rows))) = .ok e ∧
      (if dims then loadTextDims lossy else loadText lossy) (utf8 (textFile dims sep cols
        (strRows (rows.map fun p => (p.1, times (c p.1) p.2))))) = .ok e' ∧
      SameBearing c e e' := by
  have key : ∀ e e', Normalized cols (rows.map Prod.fst) (rows.map Prod.snd) e →
      Normalized cols ((rows.map fun p => (p.1, times (c p.1) p.2)).map Prod.fst)
        ((rows.map fun p => (p.1, times (c p.1) p.2)).map Prod.snd) e' → SameBearing c e e' := by
    intro e e' g g'
    refine normalized_bearing c rows hc g ?_
    simpa only [List.map_map, Function.comp_def] using g'
  cases dims with
  | true =>
    obtain ⟨e, h1, hN⟩ := C40_load_dims lossy sep hs cols rows h
    obtain ⟨e', h1', hN'⟩ := C40_load_dims lossy sep hs cols _ h'
    exact ⟨e, e', h1, h1', key e e' hN hN'⟩
  | false =>
    obtain ⟨e, h1, hN⟩ := C40_load lossy sep hs cols rows h (hne rfl)
    obtain ⟨e', h1', hN'⟩ := C40_load lossy sep hs cols _ h' (by simpa using hne rfl)
    exact ⟨e, e', h1, h1', key e e' hN hN'⟩

/-- fastText files: multiplying all rows by the same positive number changes nothing but the norms, not even the
vectors of unknown words. -/
theorem C99_fasttext [Codec ℝ] (lossy : Bool) (f : FtFile) (hf : f.OK) (rows' : List (List F32)) (c : ℝ) (hc : 0 < c)
    (h : List.Forall₂ (fun r r' => (r'.map Codec.ofBits : List ℝ) = times c (r.map Codec.ofBits)) f.rows rows') :
    ∃ e e' : Embeddings ℝ, Rd.run (loadFasttext lossy) f.bytes = .ok e ∧
      Rd.run (loadFasttext lossy) { f with rows := rows' }.bytes = .ok e' ∧ SameBearing (fun _ => c) e e' := by
  have hlen := h.length_eq
  have hok : FtFile.OK { f with rows := rows' } := by
    refine ⟨hf.ints, hf.buckets, hf.range, hf.prune, hf.count, hf.nul, hf.text, hf.nodup, ?_, ?_, ?_⟩
    · show rows'.length = _
      rw [← hlen]; exact hf.shape
    · intro r hr
      obtain ⟨i, hi, rfl⟩ := List.getElem_of_mem (show r ∈ rows' from hr)
      have := (List.forall₂_iff_get.mp h).2 i (by omega) hi
      have hx := congrArg List.length this
      simp only [times, List.length_map, List.get_eq_getElem] at hx
      rw [hx]
      exact hf.cols _ (List.getElem_mem _)
    · show ShapeOk rows'.length f.cols
      rw [← hlen]; exact hf.size
  obtain ⟨e, h1, h2⟩ := C42_load (K := ℝ) f hf lossy
  obtain ⟨e', h1', h2'⟩ := C42_load (K := ℝ) _ hok lossy
  have hv : (rows'.map fun r => (r.map Codec.ofBits : List ℝ)) = (f.rows.map fun r => r.map Codec.ofBits).map (times c) := by
    rw [List.map_map]
    clear hlen hok h1 h2 h1' h2'
    generalize f.rows = rows at h
    induction h with
    | nil => rfl
    | cons h _ ih => rw [List.map_cons, List.map_cons, ih, h]; rfl
  refine ⟨e, e', h1, h1', ?_⟩
  simp only [hv] at h2'
  exact ftLoaded_bearing hc (f := f) (f' := { f with rows := rows' }) rfl rfl rfl rfl rfl hf.count h2 h2'

/-! ### Answers are the best by cosine -/

/-- `res` are `k` of the words outside `skips`, best first, each with the cosine of the angle between its vector and
`q`, and no other word outside `skips` has a larger one.  Vectors are those of the file. -/
structure BestByCosine (words : List PyStr) (vs : List (List ℝ)) (q : List ℝ) (skips : List PyStr) (k : Nat)
    (res : List (PyStr × ℝ)) : Prop where
  length : res.length = k
  nodup : (res.map Prod.fst).Nodup
  sorted : res.Pairwise fun a b => b.2 ≤ a.2
  scores : ∀ w x, (w, x) ∈ res → w ∉ skips ∧ -1 ≤ x ∧ x ≤ 1 ∧
    ∃ (i : Nat) (v : List ℝ), words[i]? = some w ∧ vs[i]? = some v ∧ x = exactCos v q
  best : ∀ (i : Nat) w v, words[i]? = some w → vs[i]? = some v → w ∉ skips → w ∉ res.map Prod.fst →
    ∀ r ∈ res, exactCos v q ≤ r.2

section
variable [Score ℝ]

theorem bestByCosine_of (hsc : ∀ a b : ℝ, Score.nan a = false ∧ (Score.lt a b = true ↔ a < b)) {cols : Nat}
    {words : List PyStr} {vs : List (List ℝ)} {e : Embeddings ℝ} (hl : vs.length = words.length)
    (hN : Normalized cols words vs e) {q : List ℝ} {skips : List PyStr} {k : Nat} {res : List (PyStr × ℝ)}
    (h : IsTopK e (vdiv q (NumOps.normAxis q)) skips k res) : BestByCosine words vs q skips k res := by
  rw [normalized_iff] at hN
  obtain ⟨a1, _, _, _, _, a6⟩ := hN
  have hlt : ∀ a b : ℝ, Score.lt a b = false → b ≤ a := by
    intro a b hab
    by_contra hc
    have := ((hsc a b).2).mpr (lt_of_not_ge hc)
    rw [hab] at this
    cases this
  have hrow : ∀ {i : Nat} {v}, vs[i]? = some v → e.storage.getOne i = .ok (vdiv v (NumOps.normAxis v)) := by
    intro i v hv
    rw [a6]
    refine npGet_nat.mpr ?_
    rw [List.getElem?_map, hv]; rfl
  refine ⟨h.length, h.nodup, h.sorted.imp fun hab => hlt _ _ hab, ?_, ?_⟩
  · intro w x hx
    obtain ⟨h1, i, row, h2, h3, rfl⟩ := h.scores w x hx
    rw [a1] at h2
    have hi := (List.getElem?_eq_some_iff.mp h2).1
    have hv : vs[i]? = some vs[i] := List.getElem?_eq_getElem (by omega)
    rw [hrow hv] at h3
    cases h3
    rw [dot_units]
    have := abs_le.mp (exactCos_le vs[i] q)
    exact ⟨h1, this.1, this.2, i, _, h2, hv, rfl⟩
  · intro i w v h1 h2 h3 h4 r hr
    have := h.best i w _ (a1 ▸ h1) (hrow h2) h3 h4 r hr
    rw [dot_units] at this
    exact hlt _ _ this

/-- `word_similarity` on loaded embeddings.  (With a zero vector there is no angle; see C68.) -/
theorem C99_word_similarity (hsc : ∀ a b : ℝ, Score.nan a = false ∧ (Score.lt a b = true ↔ a < b)) (S : Sel ℝ)
    (hS : S.Admissible) (e : Embeddings ℝ) (he : BuiltEmb e) (cols : Nat) (words : List PyStr) (vs : List (List ℝ))
    (hl : vs.length = words.length) (hN : Normalized cols words vs e) (j : Nat) (w : PyStr) (v : List ℝ)
    (hw : words[j]? = some w) (hv : vs[j]? = some v) (_h0 : ∀ v ∈ vs, NonZero v) (k : Nat)
    (hk : k + knownSkips words [w] ≤ words.length) :
    ∃ res, e.wordSimilarity S w k = .ok (some res) ∧ BestByCosine words vs v [w] k res := by
  have hN' := normalized_iff.mp hN
  obtain ⟨a1, _, _, _, _, a6⟩ := hN'
  have hrow : e.storage.getOne j = .ok (vdiv v (NumOps.normAxis v)) := by
    rw [a6]
    refine npGet_nat.mpr ?_
    rw [List.getElem?_map, hv]; rfl
  obtain ⟨_, hemb, _⟩ := C28_known e he j w _ (a1 ▸ hw) hrow
  obtain ⟨res, h1, h2⟩ := C31_word_similarity S hS e he _ a6 w _ hemb k
    (by rw [a1]; rintro h; rw [h] at hw; simp at hw) (a1 ▸ hk) (fun _ _ _ _ _ _ => (hsc _ 0).1)
  exact ⟨res, h1, bestByCosine_of hsc hl hN h2⟩

/-- `analogy` on loaded embeddings: `d` is `c + (b - a)` for the directions of the three vectors.  (With a zero vector
there is no angle; see C68.) -/
theorem C99_analogy (hsc : ∀ a b : ℝ, Score.nan a = false ∧ (Score.lt a b = true ↔ a < b)) (S : Sel ℝ)
    (hS : S.Admissible) (e : Embeddings ℝ) (he : BuiltEmb e) (cols : Nat) (words : List PyStr) (vs : List (List ℝ))
    (hl : vs.length = words.length) (hN : Normalized cols words vs e) (j1 j2 j3 : Nat) (w1 w2 w3 : PyStr)
    (a b c d : List ℝ) (hw1 : words[j1]? = some w1) (hw2 : words[j2]? = some w2) (hw3 : words[j3]? = some w3)
    (ha : vs[j1]? = some a) (hb : vs[j2]? = some b) (hc : vs[j3]? = some c) (hdl : d.length = cols)
    (hd : ∀ (t : Nat) x y z, a[t]? = some x → b[t]? = some y → c[t]? = some z →
      d[t]? = some (z / exactLen c + (y / exactLen b - x / exactLen a)))
    (_h0 : ∀ v ∈ vs, NonZero v) (_hd0 : NonZero d) (k : Nat) (skip : Option (List PyStr)) (skips : List PyStr)
    (hskip : skip = some skips ∨ skip = none ∧ skips = [w1, w2, w3])
    (hk : k + knownSkips words skips ≤ words.length) :
    ∃ res, e.analogy S w1 w2 w3 k skip = .ok (some res) ∧ BestByCosine words vs d skips k res := by
  have hN' := normalized_iff.mp hN
  obtain ⟨a1, _, _, _, _, a6⟩ := hN'
  have hlen : ∀ {i : Nat} {v}, vs[i]? = some v → v.length = cols := by
    intro i v hv
    have := he.storage
    rw [a6] at this
    have := this.1 (vdiv v (NumOps.normAxis v)) (List.mem_map.mpr ⟨v, List.mem_of_getElem? hv, rfl⟩)
    simpa [vdiv] using this
  have hemb : ∀ {i : Nat} {w v}, words[i]? = some w → vs[i]? = some v →
      e.embedding w = .ok (some (vdiv v (NumOps.normAxis v))) := by
    intro i w v hw hv
    refine (C28_known e he i w _ (a1 ▸ hw) ?_).2.1
    rw [a6]
    refine npGet_nat.mpr ?_
    rw [List.getElem?_map, hv]; rfl
  obtain ⟨d', q, g1, g2, g3, g4⟩ := C31_analogy S hS e he _ a6 w1 w2 w3 _ _ _ (hemb hw1 ha) (hemb hw2 hb) (hemb hw3 hc) k
    skip skips hskip (by rw [a1]; rintro h; rw [h] at hw1; simp at hw1) (a1 ▸ hk)
  replace g1 : d'.length = cols := g1
  replace g2 : q.length = cols := g2
  have hla := hlen ha
  have hlb := hlen hb
  have hlc := hlen hc
  have hn : ∀ v : List ℝ, (NumOps.normAxis v : ℝ) = exactLen v := by
    intro v
    show Real.sqrt (sumProd v v) = Real.sqrt (exactDot v v)
    rw [sumProd_exact]
  have hcomp : ∀ t (ht : t < cols), d'[t]? = d[t]? ∧ q[t]? = (d[t]?).map fun x => x / NumOps.norm d' := by
    intro t ht
    have x1 : a[t]? = some a[t] := List.getElem?_eq_getElem (by omega)
    have x2 : b[t]? = some b[t] := List.getElem?_eq_getElem (by omega)
    have x3 : c[t]? = some c[t] := List.getElem?_eq_getElem (by omega)
    have y : ∀ {v : List ℝ} {x}, v[t]? = some x → (vdiv v (NumOps.normAxis v))[t]? = some (x / exactLen v) := by
      intro v x h
      unfold vdiv
      rw [List.getElem?_map, h, ← hn]; rfl
    obtain ⟨z1, z2⟩ := g3 t _ _ _ (y x1) (y x2) (y x3)
    rw [hd t _ _ _ x1 x2 x3, z1, z2]
    exact ⟨rfl, rfl⟩
  have hdd : d' = d := by
    refine List.ext_getElem? fun t => ?_
    by_cases ht : t < cols
    · exact (hcomp t ht).1
    · rw [List.getElem?_eq_none (by omega), List.getElem?_eq_none (by omega)]
  subst hdd
  have hq : q = vdiv d' (NumOps.normAxis d') := by
    refine List.ext_getElem? fun t => ?_
    unfold vdiv
    rw [List.getElem?_map]
    by_cases ht : t < cols
    · exact (hcomp t ht).2
    · rw [List.getElem?_eq_none (by omega), List.getElem?_eq_none (by omega)]; rfl
  subst hq
  obtain ⟨res, h1, h2⟩ := g4 (fun _ _ _ _ _ _ => (hsc _ 0).1)
  exact ⟨res, h1, bestByCosine_of hsc hl hN h2⟩

end

/-! ### Cases -/

namespace Sample

/-- The vector of `a` is doubled, that of `b` tripled. -/
example : ∃ e e' : Embeddings ℝ,
    Rd.run (@loadWord2vec ℝ _ natCodec false) (w2vFile 2 [([97], [3, 4]), ([98], [1, 0])]) = .ok e ∧
    Rd.run (@loadWord2vec ℝ _ natCodec false) (w2vFile 2 [([97], [6, 8]), ([98], [3, 0])]) = .ok e' ∧
    SameBearing (fun w => if w = [97] then 2 else 3) e e' := by
  refine @C99_word2vec natCodec false 2 _ _ ?_ (by decide) (by decide) (by unfold ShapeOk; decide) _ ?_ ?_
  · intro p hp
    simp only [List.mem_cons, List.not_mem_nil, or_false] at hp
    rcases hp with rfl | rfl
    · exact w2vWords [97] (by decide)
    · refine ⟨?_, ?_, ?_, ?_⟩ <;> intro c hc <;> simp at hc <;> subst hc <;> decide
  · intro p _
    show (0 : ℝ) < if p.1 = [97] then 2 else 3
    split <;> norm_num
  · refine .cons ⟨rfl, ?_⟩ (.cons ⟨rfl, ?_⟩ .nil)
    · show [((6 : Nat) : ℝ), ((8 : Nat) : ℝ)] = [(if ([97] : PyStr) = [97] then (2 : ℝ) else 3) * ((3 : Nat) : ℝ),
        (if ([97] : PyStr) = [97] then (2 : ℝ) else 3) * ((4 : Nat) : ℝ)]
      norm_num
    · show [((3 : Nat) : ℝ), ((0 : Nat) : ℝ)] = [(if ([98] : PyStr) = [97] then (2 : ℝ) else 3) * ((1 : Nat) : ℝ),
        (if ([98] : PyStr) = [97] then (2 : ℝ) else 3) * ((0 : Nat) : ℝ)]
      rw [if_neg (by decide)]
      norm_num

/-- All rows are doubled. -/
example : ∃ e e' : Embeddings ℝ, Rd.run (@loadFasttext ℝ _ natCodec false) ftFile1.bytes = .ok e ∧
    Rd.run (@loadFasttext ℝ _ natCodec false) { ftFile1 with rows := [[2, 4], [10, 12]] }.bytes = .ok e' ∧
    SameBearing (fun _ => 2) e e' := by
  refine @C99_fasttext natCodec false ftFile1 ftFile1_ok _ 2 (by norm_num) (.cons ?_ (.cons ?_ .nil))
  · show [((2 : Nat) : ℝ), ((4 : Nat) : ℝ)] = [(2 : ℝ) * ((1 : Nat) : ℝ), (2 : ℝ) * ((2 : Nat) : ℝ)]
    norm_num
  · show [((10 : Nat) : ℝ), ((12 : Nat) : ℝ)] = [(2 : ℝ) * ((5 : Nat) : ℝ), (2 : ℝ) * ((6 : Nat) : ℝ)]
    norm_num

theorem textRows68 : @TextRows ℝ realText 2 ([([97], [3, 4])].map fun p => (p.1, times 2 p.2)) := by
  have e : ([(([97] : PyStr), ([3, 4] : List ℝ))].map fun p => (p.1, times 2 p.2)) = [([97], [6, 8])] := by
    show [(([97] : PyStr), [(2 : ℝ) * 3, (2 : ℝ) * 4])] = _
    norm_num
  rw [e]
  refine @TextRows.mk ℝ realText 2 [([97], [6, 8])] ?_ (by decide) ?_ ?_ (by simp) (by unfold ShapeOk; decide)
  · intro p hp
    rw [List.mem_singleton] at hp
    subst hp
    exact textWords [97] (by decide)
  · intro p hp x hx
    rw [List.mem_singleton] at hp
    subst hp
    simp only [List.mem_cons, List.not_mem_nil, or_false] at hx
    rcases hx with rfl | rfl
    · exact_mod_cast realText_printable 6
    · exact_mod_cast realText_printable 8
  · intro p hp
    rw [List.mem_singleton] at hp
    subst hp
    rfl

example : ∃ e e' : Embeddings ℝ, @loadText ℝ _ realText Sample.textIO false
      (utf8 (textFile false [32] 2 (@strRows ℝ realText [([97], [3, 4])]))) = .ok e ∧
    @loadText ℝ _ realText Sample.textIO false
      (utf8 (textFile false [32] 2 (@strRows ℝ realText ([([97], [3, 4])].map fun p => (p.1, times 2 p.2))))) = .ok e' ∧
    SameBearing (fun _ => 2) e e' :=
  @C99_text Sample.textIO realText false false [32] ⟨by decide, by
    intro c hc; rw [List.mem_singleton] at hc; subst hc; decide⟩ 2 _ (by simp) (fun _ => 2) (fun _ _ => by norm_num)
    textRows34 textRows68

/-- Four words, the analogy of the first three, and the neighbours of the last. -/
example : ∃ (e : Embeddings ℝ) (res res' : List (PyStr × ℝ)),
    Rd.run (@loadWord2vec ℝ _ natCodec false)
      (w2vFile 2 [([97], [3, 4]), ([98], [1, 0]), ([99], [0, 2]), ([100], [1, 1])]) = .ok e ∧
    e.wordSimilarity (@Sel.sorting ℝ (Score.ofOrder ℝ) ⟨0⟩) [100] (3 : Nat) = .ok (some res) ∧
    BestByCosine [[97], [98], [99], [100]] [[3, 4], [1, 0], [0, 2], [1, 1]] [1, 1] [[100]] 3 res ∧
    e.analogy (@Sel.sorting ℝ (Score.ofOrder ℝ) ⟨0⟩) [97] [98] [99] (1 : Nat) none = .ok (some res') ∧
    BestByCosine [[97], [98], [99], [100]] [[3, 4], [1, 0], [0, 2], [1, 1]] [2 / 5, 1 / 5] [[97], [98], [99]] 1 res' := by
  have hw : ∀ p ∈ [(([97] : PyStr), ([3, 4] : List F32)), ([98], [1, 0]), ([99], [0, 2]), ([100], [1, 1])],
      W2vWord p.1 := by
    intro p hp
    simp only [List.mem_cons, List.not_mem_nil, or_false] at hp
    rcases hp with rfl | rfl | rfl | rfl <;>
    · refine ⟨?_, ?_, ?_, ?_⟩ <;> intro c hc <;> simp at hc <;> subst hc <;> decide
  obtain ⟨e, h1, hN⟩ := @C38_load ℝ _ natCodec false 2 _ hw (by decide) (by decide) (by unfold ShapeOk; decide)
  have hvs : ([(([97] : PyStr), ([3, 4] : List F32)), ([98], [1, 0]), ([99], [0, 2]), ([100], [1, 1])].map
      fun p => p.2.map natCodec.ofBits) = [[3, 4], [1, 0], [0, 2], [1, 1]] := by
    show [[((3 : Nat) : ℝ), ((4 : Nat) : ℝ)], [((1 : Nat) : ℝ), ((0 : Nat) : ℝ)], [((0 : Nat) : ℝ), ((2 : Nat) : ℝ)],
      [((1 : Nat) : ℝ), ((1 : Nat) : ℝ)]] = _
    norm_num
  rw [hvs] at hN
  have he := (@loadWord2vec_built ℝ _ natCodec _ _ _ h1).1
  have h0 : ∀ v ∈ ([[3, 4], [1, 0], [0, 2], [1, 1]] : List (List ℝ)), NonZero v := by
    intro v hv
    simp only [List.mem_cons, List.not_mem_nil, or_false] at hv
    rcases hv with rfl | rfl | rfl | rfl
    · exact ⟨3, by simp, by norm_num⟩
    · exact ⟨1, by simp, by norm_num⟩
    · exact ⟨2, by simp, by norm_num⟩
    · exact ⟨1, by simp, by norm_num⟩
  have hsc : ∀ a b : ℝ, (Score.ofOrder ℝ).nan a = false ∧ ((Score.ofOrder ℝ).lt a b = true ↔ a < b) :=
    fun a b => ⟨rfl, decide_eq_true_iff⟩
  have hl : ∀ v : List ℝ, ∀ n : ℝ, 0 ≤ n → exactDot v v = n ^ 2 → exactLen v = n := by
    intro v n hn h
    unfold exactLen
    rw [h, Real.sqrt_sq hn]
  have l1 := hl [3, 4] 5 (by norm_num) (by norm_num [exactDot])
  have l2 := hl [1, 0] 1 (by norm_num) (by norm_num [exactDot])
  have l3 := hl [0, 2] 2 (by norm_num) (by norm_num [exactDot])
  obtain ⟨res, g1, g2⟩ := @C99_word_similarity (Score.ofOrder ℝ) hsc _ (@sorting_admissible ℝ (Score.ofOrder ℝ) ⟨0⟩) e he 2 _ _
    rfl hN 3 [100] [1, 1] rfl rfl h0 3 (by decide)
  obtain ⟨res', g3, g4⟩ := @C99_analogy (Score.ofOrder ℝ) hsc _ (@sorting_admissible ℝ (Score.ofOrder ℝ) ⟨0⟩) e he 2 _ _
    rfl hN 0 1 2 [97] [98] [99] [3, 4] [1, 0] [0, 2] [2 / 5, 1 / 5] rfl rfl rfl rfl rfl rfl rfl (by
      intro t x y z hx hy hz
      rw [l1, l2, l3]
      match t with
      | 0 => cases hx; cases hy; cases hz; exact congrArg some (by norm_num)
      | 1 => cases hx; cases hy; cases hz; exact congrArg some (by norm_num)
      | t + 2 => cases hx) h0 ⟨2 / 5, by simp, by norm_num⟩ 1 none _ (.inr ⟨rfl, rfl⟩) (by decide)
  exact ⟨e, res, res', h1, g1, g2, g3, g4⟩

end Sample

end FF
