import Verif.Lemmas.Exported
/-! C100: exported embeddings answer as the original. -/

namespace FF

/-- word2vec, if the exported numbers are exactly representable. -/
theorem C100_word2vec [Codec ℝ] (lossy : Bool) (e : Embeddings ℝ) (he : BuiltEmb e) (hu : UnitWords e)
    (hw : ∀ w ∈ e.vocab.words, W2vWord w) (hs : ShapeOk e.vocab.words.length e.storage.nCols)
    (hsz : (w2vFile e.storage.nCols
      (e.vocab.words.map fun w => (w, List.replicate e.storage.nCols 0))).length < 2 ^ 63)
    (hex : ∀ i v, i < e.vocab.words.length → Exported e i v → ∀ x ∈ v, CodecExact x) :
    ∃ bs e', (writeWord2vec e).file = (.ok (), bs) ∧ Rd.run (loadWord2vec lossy) bs = .ok e' ∧ SameForWords e e' := by
  obtain ⟨m, hm, _⟩ := hu
  obtain ⟨vs, bs, e', h1, h2, h3, h4⟩ := C38_round_trip lossy e he (by rw [hm]; trivial) hw hs hsz
  refine ⟨bs, e', h2, h3, sameForWords_of he (loadWord2vec_built h3).1 ⟨m, hm, ‹_›⟩ h1 ?_⟩
  have : (vs.map fun v => v.map fun x => (Codec.ofBits (Codec.bits x) : ℝ)) = vs := by
    conv_rhs => rw [← List.map_id vs]
    refine List.map_congr_left fun v hv => ?_
    obtain ⟨i, hi, rfl⟩ := List.getElem_of_mem hv
    have hx := hex i _ (by rw [← h1.1]; exact hi) (h1.2 i _ (List.getElem?_eq_getElem hi))
    show _ = vs[i]
    conv_rhs => rw [← List.map_id vs[i]]
    exact List.map_congr_left fun x hx' => hx x hx'
  rwa [this] at h4

/-- Text, with and without dimensions, if the exported numbers survive printing. -/
theorem C100_text [TextIO] [NumText ℝ] (dims lossy : Bool) (sep : PyStr) (hs : TextSep sep) (e : Embeddings ℝ)
    (he : BuiltEmb e) (hu : UnitWords e) (hr : TextReady e) (hne : dims = false → e.vocab.words ≠ [])
    (hsz : ∀ vs, ExportedAll e vs →
      (utf8 (textFile dims sep e.storage.nCols (strRows (e.vocab.words.zip vs)))).length < 2 ^ 63) :
    ∃ bs e', (writeText dims e sep).file = (.ok (), bs) ∧
      (if dims then loadTextDims lossy else loadText lossy) bs = .ok e' ∧ SameForWords e e' := by
  cases dims with
  | true =>
    obtain ⟨vs, bs, e', h1, h2, h3, h4⟩ := C40_round_trip_dims lossy sep hs e he hr hsz
    exact ⟨bs, e', h2, h3, sameForWords_of he (loadTextDims_built h3).1 hu h1 h4⟩
  | false =>
    obtain ⟨vs, bs, e', h1, h2, h3, h4⟩ := C40_round_trip lossy sep hs e he hr (hne rfl) hsz
    exact ⟨bs, e', h2, h3, sameForWords_of he (loadText_built h3).1 hu h1 h4⟩

/-- fastText keeps the n-grams: no query can tell the loaded embeddings from the written ones, whatever the word. -/
theorem C100_fasttext [Codec ℝ] (lossy : Bool) (e : Embeddings ℝ) (he : BuiltEmb e) (hu : UnitWords e) (ix : FtIndexer)
    (m : Mat ℝ) (hsub : e.vocab.sub = some (.ft ix)) (hst : e.storage = .nd m) (hns : e.norms ≠ none)
    (hn : e.vocab.words.length < 2 ^ 63) (hnul : ∀ w ∈ e.vocab.words, ∀ c ∈ w, c.val ≠ 0)
    (hex : ∀ (i : Nat) w v, e.vocab.words[i]? = some w →
      FtRaw ix e.vocab.words.length m e.norms i w v → ∀ x ∈ v, CodecExact x)
    (hex' : ∀ r ∈ m.rows.drop e.vocab.words.length, ∀ x ∈ r, CodecExact x)
    (bs : Bytes) (hw : (writeFasttext e).file = (.ok (), bs)) :
    ∃ e', Rd.run (loadFasttext lossy) bs = .ok e' ∧ Alike e e' := by
  obtain ⟨ns, hns⟩ := Option.ne_none_iff_exists'.mp hns
  obtain ⟨m', hm, hu1, hu2⟩ := hu
  rw [hst] at hm
  cases hm
  obtain ⟨e', h1, h2, h3, h4⟩ := C42_same e he ix m ns hsub hst hns hn hnul hex hex' (by
    intro i row hi hr
    have := hu1 i row hi hr
    rw [sumProd_self] at this
    have hl : row.length = m.cols := by
      have hwf := he.storage
      rw [hst] at hwf
      exact hwf.1 _ (List.mem_of_getElem? hr)
    rwa [hl] at this) (hu2 ns hns) bs hw lossy
  refine ⟨e', h1, ?_⟩
  obtain ⟨s, v, n, md⟩ := e
  obtain ⟨s', v', n', md'⟩ := e'
  simp only at h2 h3 h4
  subst h2 h3 h4
  exact ⟨rfl, rfl, rfl, fun _ => rfl, fun _ _ => rfl, fun _ => rfl, fun _ => rfl, fun _ => rfl, fun _ => rfl,
    fun _ _ _ _ => rfl, fun _ _ _ => rfl, fun _ _ _ _ _ _ => rfl⟩

/-- What the loaders of unnormalised formats return can be exported, unless a vector is zero. -/
theorem C100_loaded [TextIO] [Codec ℝ] [NumText ℝ] (lossy : Bool) (bs : Bytes) (e : Embeddings ℝ)
    (h : Rd.run (loadWord2vec lossy) bs = .ok e ∨ Rd.run (loadFasttext lossy) bs = .ok e ∨
      loadText lossy bs = .ok e ∨ loadTextDims lossy bs = .ok e) (hz : ∀ ns, e.norms = some ns → ∀ n ∈ ns, n ≠ 0) :
    UnitWords e := by
  obtain ⟨m, ns, h1, h2, h3, h4⟩ := C43_any lossy bs e h
  have hm : e.vocab.words.length ≤ m.rows.length := by
    have he : BuiltEmb e := by
      rcases h with h | h | h | h
      · exact (loadWord2vec_built h).1
      · exact (loadFasttext_built h).1
      · exact (loadText_built h).1
      · exact (loadTextDims_built h).1
    have := he.words_le
    rw [h1] at this
    exact this
  refine ⟨m, h1, ?_, ?_⟩
  · intro i row hi hr
    have hn : ns[i]? = some ns[i] := List.getElem?_eq_getElem (by omega)
    rw [sumProd_self]
    exact (h4 i row _ hr hn).2 (hz ns h2 _ (List.getElem_mem _))
  · intro ns' hns n hn
    rw [h2] at hns
    cases hns
    obtain ⟨i, hi, rfl⟩ := List.getElem_of_mem hn
    have hr : m.rows[i]? = some m.rows[i] := List.getElem?_eq_getElem (by omega)
    exact lt_of_le_of_ne (h4 i _ _ hr (List.getElem?_eq_getElem hi)).1 (hz ns h2 _ (List.getElem_mem _)).symm

/-! ### Cases -/

namespace Sample

theorem unitFtEmb1 : UnitWords ftEmb1 := by
  refine ⟨ftMat1, rfl, ?_, ?_⟩
  · intro i row hi hr
    have : i = 0 := by
      have : i < 1 := hi
      omega
    subst this
    cases hr
    show (3 / 5 : ℝ) * (3 / 5) + (4 / 5 * (4 / 5) + 0) = 1
    norm_num
  · intro ns h n hn
    cases h
    rw [List.mem_singleton] at hn
    subst hn
    norm_num

theorem exportedFtEmb1 {i : Nat} {v : List ℝ} (hi : i < ftEmb1.vocab.words.length) (h : Exported ftEmb1 i v) : v = [3, 4] := by
  have : i = 0 := by
    have : i < 1 := hi
    omega
  subst this
  refine exported_unique builtFtEmb1 h ⟨[3 / 5, 4 / 5], rfl, 5, rfl, rfl, ?_⟩
  intro t x hx
  match t with
  | 0 => cases hx; exact congrArg some (show (3 : ℝ) = 3 / 5 * 5 by norm_num)
  | 1 => cases hx; exact congrArg some (show (4 : ℝ) = 4 / 5 * 5 by norm_num)
  | t + 2 => cases hx

/-- What is loaded from a file with the vector (3, 4). -/
example : ∃ e : Embeddings ℝ, Rd.run (@loadWord2vec ℝ _ natCodec false) (w2vFile 2 [([97], [3, 4])]) = .ok e ∧ UnitWords e := by
  obtain ⟨e, h1, hN⟩ := @C38_load ℝ _ natCodec false 2 [([97], [3, 4])] (by
    intro p hp
    rw [List.mem_singleton] at hp
    subst hp
    exact w2vWords [97] (by decide)) (by decide) (by decide) (by unfold ShapeOk; decide)
  refine ⟨e, h1, @C100_loaded Sample.textIO natCodec realText false _ e (.inl h1) ?_⟩
  intro ns hns n hn
  rw [hN.2.2.2.2.1] at hns
  cases hns
  have hn : n ∈ [(NumOps.normAxis (([3, 4] : List F32).map natCodec.ofBits) : ℝ)] := hn
  rw [List.mem_singleton, nat34] at hn
  subst hn
  have := sumSq_pos nonZero34
  rw [normAxis_real]
  exact (Real.sqrt_pos.mpr this).ne'

/-- The word `a` with the vector (3, 4), without its n-gram. -/
example : ∃ bs e', (@writeWord2vec ℝ _ natCodec ftEmb1).file = (.ok (), bs) ∧
    Rd.run (@loadWord2vec ℝ _ natCodec false) bs = .ok e' ∧ SameForWords ftEmb1 e' :=
  @C100_word2vec natCodec false ftEmb1 builtFtEmb1 unitFtEmb1 (by
    intro w hw
    have hw : w ∈ ([[97]] : List PyStr) := hw
    rw [List.mem_singleton] at hw
    subst hw
    exact w2vWords [97] (by decide)) (by unfold ShapeOk; decide) (by decide +kernel) (by
    intro i v hi hv x hx
    rw [exportedFtEmb1 hi hv] at hx
    simp only [List.mem_cons, List.not_mem_nil, or_false] at hx
    rcases hx with rfl | rfl
    · exact_mod_cast natCodec_exact (n := 3) (by decide)
    · exact_mod_cast natCodec_exact (n := 4) (by decide))

example : ∃ bs e', (@writeFasttext ℝ _ natCodec ftEmb1).file = (.ok (), bs) ∧
    Rd.run (@loadFasttext ℝ _ natCodec false) bs = .ok e' ∧ Alike ftEmb1 e' := by
  have ht : ∀ w ∈ ftEmb1.vocab.words, w = [97] := fun w hw => by
    have hw : w ∈ ([[97]] : List PyStr) := hw
    rwa [List.mem_singleton] at hw
  obtain ⟨vs, h1, h2, h3⟩ := @C42_write_succeeds ℝ _ natCodec ftEmb1 builtFtEmb1 ⟨1, 3, 3⟩ ftMat1 rfl rfl (by decide)
    (by decide) (by decide) (by decide) (by
      intro w hw c hc
      rw [ht w hw, List.mem_singleton] at hc
      subst hc
      decide)
  have hvs : vs = [[5, 6]] := by
    obtain ⟨v, rfl⟩ := List.length_eq_one_iff.mp h1
    rw [ftRaw_unique ftMat1_wf (h2 0 [97] v rfl rfl) ftRaw1]
  subst hvs
  have h3 := h3 (by
    rw [ftBytes_length]
    decide)
  obtain ⟨e', h4, h5⟩ := @C100_fasttext natCodec false ftEmb1 builtFtEmb1 unitFtEmb1 ⟨1, 3, 3⟩ ftMat1 rfl rfl
    (fun h => nomatch h) (by decide) (by
      intro w hw c hc
      rw [ht w hw, List.mem_singleton] at hc
      subst hc
      decide) ftExact1 ftExact1' _ h3
  exact ⟨_, e', h3, h4, h5⟩

/-- The same as text. -/
example : ∃ bs e', (@writeText ℝ _ realText false ftEmb1 [32]).file = (.ok (), bs) ∧
    @loadText ℝ _ realText Sample.textIO false bs = .ok e' ∧ SameForWords ftEmb1 e' := by
  have hr : @TextReady ℝ _ realText ftEmb1 := by
    refine @TextReady.mk ℝ _ realText ftEmb1 trivial ?_ (fun h => nomatch h) ?_ (by unfold ShapeOk; decide)
    · intro w hw
      have hw : w ∈ ([[97]] : List PyStr) := hw
      rw [List.mem_singleton] at hw
      subst hw
      exact textWords [97] (by decide)
    · intro i v hi hv x hx
      rw [exportedFtEmb1 hi hv] at hx
      simp only [List.mem_cons, List.not_mem_nil, or_false] at hx
      rcases hx with rfl | rfl
      · exact_mod_cast realText_printable 3
      · exact_mod_cast realText_printable 4
  refine @C100_text Sample.textIO realText false false [32] ⟨by decide, by
    intro c hc; rw [List.mem_singleton] at hc; subst hc; decide⟩ ftEmb1 builtFtEmb1 unitFtEmb1 hr (fun _ h => nomatch h) ?_
  intro vs hvs
  obtain ⟨v, rfl⟩ := List.length_eq_one_iff.mp (hvs.1.trans (rfl : ftEmb1.vocab.words.length = 1))
  rw [exportedFtEmb1 (by decide) (hvs.2 0 v rfl)]
  have e3 : ⌊(3 : ℝ)⌋₊ = 3 := by norm_num
  have e4 : ⌊(4 : ℝ)⌋₊ = 4 := by norm_num
  show (utf8 (textFile false [32] 2 [([97], [decimal ⌊(3 : ℝ)⌋₊, decimal ⌊(4 : ℝ)⌋₊])])).length < 2 ^ 63
  rw [e3, e4]
  decide +kernel

end Sample

end FF
