import Verif.Spec.Documented
import Verif.Lemmas.Arguments
import Verif.Lemmas.FastTextRefVec
import Mathlib.Tactic.IntervalCases
import Verif.Props.C14
import Verif.Props.C16
import Verif.Props.C27
import Verif.Props.C31
import Verif.Props.C63
import Verif.Props.C71
/-! C87: the documented exceptions. -/

namespace FF

open Fifu (HasAt)

section
variable {K : Type}

/-- `Embeddings.__init__` with any arguments: it raises nothing but `AssertionError`, and it does not raise exactly if
storage and vocabulary have their types and the same number of rows, and norms and metadata are missing or have their
types, with one norm per word. -/
theorem C87_embeddings (storage : Arg (Storage K)) (vocab : Arg Vocab) (norms : NormsArg K) (metadata : MetaArg)
    (hv : ∀ v, vocab = .val v → BuiltVocab v) :
    (∀ x, Embeddings.init storage vocab norms metadata = .error x → x = .assertionError) ∧
    (∀ e, Embeddings.init storage vocab norms metadata = .ok e ↔
      storage = .val e.storage ∧ vocab = .val e.vocab ∧ (e.storage.nRows : Int) = e.vocab.upperBound ∧
      (match (generalizing := false) norms with
        | .none => e.norms = none
        | .norms n => e.norms = some n ∧ n.length = e.vocab.words.length
        | .other => False) ∧
      (match (generalizing := false) metadata with
        | .none => e.metadata = none
        | .metadata m => e.metadata = some m
        | .other => False)) := by
  cases storage with
  | none => exact ⟨fun x h => (by cases h; rfl), fun e => ⟨fun h => (by cases h), fun h => (by cases h.1)⟩⟩
  | other => exact ⟨fun x h => (by cases h; rfl), fun e => ⟨fun h => (by cases h), fun h => (by cases h.1)⟩⟩
  | val st =>
    cases vocab with
    | none => exact ⟨fun x h => (by cases h; rfl), fun e => ⟨fun h => (by cases h), fun h => (by cases h.2.1)⟩⟩
    | other => exact ⟨fun x h => (by cases h; rfl), fun e => ⟨fun h => (by cases h), fun h => (by cases h.2.1)⟩⟩
    | val v =>
      have hb := hv v rfl
      have hub := upperBound_ge hb
      by_cases h1 : (st.nRows : Int) = v.upperBound
      · have e1 : pyAssert ((st.nRows : Int) = v.upperBound) = .ok () := pyAssert_true (by simpa using h1)
        have e0 : Embeddings.init (.val st) (.val v) norms metadata = (do
            pyAssert ((st.nRows : Int) = v.upperBound)
            match norms with
            | .none => pure ()
            | n => normsCompatArg st v n
            match metadata with
            | .other => pyAssert false
            | _ => pure ()) >>= fun _ => (.ok ⟨st, v, (match norms with | .norms n => some n | _ => none),
              (match metadata with | .metadata m => some m | _ => none)⟩ : Res (Embeddings K)) := rfl
        rw [e0, e1]
        simp only [res_bind_ok]
        cases norms with
        | other => exact ⟨fun x h => (by cases h; rfl), fun e => ⟨fun h => (by cases h), fun h => h.2.2.2.1.elim⟩⟩
        | none =>
          cases metadata with
          | other => exact ⟨fun x h => (by cases h; rfl), fun e => ⟨fun h => (by cases h), fun h => h.2.2.2.2.elim⟩⟩
          | none =>
            refine ⟨fun x h => (by cases h), fun e => ⟨fun h => (by cases h; exact ⟨rfl, rfl, h1, rfl, rfl⟩), ?_⟩⟩
            obtain ⟨a, b, c, d⟩ := e
            rintro ⟨h2, h3, _, h5, h6⟩
            cases h2; cases h3; cases h5; cases h6; rfl
          | metadata m =>
            refine ⟨fun x h => (by cases h), fun e => ⟨fun h => (by cases h; exact ⟨rfl, rfl, h1, rfl, rfl⟩), ?_⟩⟩
            obtain ⟨a, b, c, d⟩ := e
            rintro ⟨h2, h3, _, h5, h6⟩
            cases h2; cases h3; cases h5; cases h6; rfl
        | norms n =>
          have e2 : normsCompatArg st v (.norms n) = normsCompat st v n := rfl
          simp only [e2]
          rcases normsCompat_cases st v n with ⟨h2, h3, h4⟩ | ⟨h2, h3⟩
          · rw [hb.len] at h4
            rw [h2]
            cases metadata with
            | other => exact ⟨fun x h => (by cases h; rfl), fun e => ⟨fun h => (by cases h), fun h => h.2.2.2.2.elim⟩⟩
            | none =>
              refine ⟨fun x h => (by cases h), fun e => ⟨fun h => (by
                cases h; exact ⟨rfl, rfl, h1, ⟨rfl, h4.symm⟩, rfl⟩), ?_⟩⟩
              obtain ⟨a, b, c, d⟩ := e
              rintro ⟨g2, g3, _, h5, h6⟩
              cases g2; cases g3; obtain ⟨h5, _⟩ := h5; cases h5; cases h6; rfl
            | metadata m =>
              refine ⟨fun x h => (by cases h), fun e => ⟨fun h => (by
                cases h; exact ⟨rfl, rfl, h1, ⟨rfl, h4.symm⟩, rfl⟩), ?_⟩⟩
              obtain ⟨a, b, c, d⟩ := e
              rintro ⟨g2, g3, _, h5, h6⟩
              cases g2; cases g3; obtain ⟨h5, _⟩ := h5; cases h5; cases h6; rfl
          · rw [h2]
            refine ⟨fun x h => (by cases h; rfl), fun e => ⟨fun h => (by cases h), ?_⟩⟩
            obtain ⟨a, b, c, d⟩ := e
            rintro ⟨h5, h6, _, h7, _⟩
            cases h5; cases h6
            exact (h3 ⟨by have := h7.2; omega, by rw [hb.len]; exact h7.2.symm⟩).elim
      · have e1 : pyAssert ((st.nRows : Int) = v.upperBound) = .error .assertionError :=
          pyAssert_false (by simpa using h1)
        have e0 : Embeddings.init (.val st) (.val v) norms metadata = .error .assertionError := by
          unfold Embeddings.init checkArgs
          simp only
          rw [e1]
          rfl
        rw [e0]
        refine ⟨fun x h => (by cases h; rfl), fun e => ⟨fun h => (by cases h), ?_⟩⟩
        obtain ⟨a, b, c, d⟩ := e
        rintro ⟨h2, h3, h4, _⟩
        cases h2; cases h3
        exact (h1 h4).elim

-- accepted with norms and n-gram rows; one norm too many, another object as metadata and swapped arguments are not
example : (Embeddings.init (K := Rat) (.val Sample.embRat.storage) (.val Sample.embRat.vocab) (.norms [5, 2]) .none).toOption.map
      (fun e => (e.norms, e.metadata.isNone, e.vocab.words.length)) = some (some [5, 2], true, 2) ∧
    Raised (Embeddings.init (K := Rat) (.val Sample.embRat.storage) (.val Sample.embRat.vocab) (.norms [5, 2, 1]) .none) =
      some .assertionError ∧
    Raised (Embeddings.init (K := Rat) (.val Sample.embRat.storage) (.val Sample.embRat.vocab) .none .other) =
      some .assertionError ∧
    Raised (Embeddings.init (K := Rat) .other .other .none .none) = some .assertionError := by
  decide +kernel

/-- The conditions that are listed in the documentation are not those: with norms, they only hold if the vocabulary has no
rows for n-grams. -/
theorem C87_conditions (e : Embeddings K) (he : BuiltEmb e) (n : List K) (hn : e.norms = some n) :
    DocConditions e.storage e.vocab e.norms ↔ e.vocab.upperBound = e.vocab.words.length := by
  obtain ⟨_, h1, h2⟩ := embNew_iff.mp he.new
  obtain ⟨_, h3⟩ := h2 n hn
  rw [he.vocab.len] at h3
  have h4 := upperBound_ge he.vocab
  constructor
  · rintro ⟨_, h⟩
    obtain ⟨_, _, h5⟩ := h n hn
    omega
  · intro h
    refine ⟨h1, fun m hm => ?_⟩
    rw [hn] at hm
    cases hm
    refine ⟨h3, h3.symm, ?_⟩
    omega

/-- Embeddings that `Embeddings.__init__` accepts although its documentation rules them out. -/
theorem C87_conditions_refuted : ∃ e : Embeddings Rat, BuiltEmb e ∧ e.norms ≠ none ∧
    ¬ DocConditions e.storage e.vocab e.norms :=
  ⟨Sample.embRat, Sample.builtEmbRat, (by decide), fun h => absurd
    ((C87_conditions Sample.embRat Sample.builtEmbRat [5, 2] rfl).mp h) (by decide)⟩

/-- `embeds[w]` raises `KeyError` if and only if `w` is neither a known word nor has a known n-gram (and, with a fastText
vocabulary, can be encoded). -/
theorem C87_getitem [NumOps K] (e : Embeddings K) (he : BuiltEmb e) (w : PyStr) :
    e.getItem w = .error .keyError ↔
      w ∉ e.vocab.words ∧ (∀ ix, e.vocab.sub = some ix → ¬ KnowsNgram ix w) ∧
        ((∃ f, e.vocab.sub = some (.ft f)) → w.any isSurrogate = false) := by
  rw [(C27_agree e w).1]
  have hidx : e.embedding w = .ok none ↔ e.vocab.idx w = .ok none := by
    unfold Embeddings.embedding
    cases hi : e.vocab.idx w with
    | error x => exact ⟨fun h => (by cases h), fun h => (by cases h)⟩
    | ok r =>
      rw [res_bind_ok]
      cases r with
      | none => exact ⟨fun _ => rfl, fun _ => rfl⟩
      | some i =>
        refine ⟨fun h => ?_, fun h => (by cases h)⟩
        simp only at h
        obtain ⟨r, _, h⟩ := res_bind_inv h
        cases h
  rw [hidx]
  have hlen : (bracketed true w).length = w.length + 2 := bracketed_length w
  by_cases hw : w ∈ e.vocab.words
  · obtain ⟨i, hi⟩ := List.getElem?_of_mem hw
    have h1 := (C16_known e.vocab he.vocab i w hi).2 none
    rw [h1]
    exact ⟨fun h => (by cases h), fun h => (h.1 hw).elim⟩
  · have hg := he.vocab.get_none.mpr hw
    unfold Vocab.idx
    rw [hg]
    cases hs : e.vocab.sub with
    | none => exact ⟨fun _ => ⟨hw, by simp, by simp⟩, fun _ => rfl⟩
    | some ix =>
      have hix := he.vocab.1 ix hs
      obtain ⟨h0, h1⟩ := hix.range
      simp only
      have key : (do
          let subwords ← e.vocab.subwordIndices ix w
          if subwords ≠ [] then return some (.many subwords)
          return none : Res (Option Idx)) = .ok none ↔ e.vocab.subwordIndices ix w = .ok [] := by
        cases hsub : e.vocab.subwordIndices ix w with
        | error x => exact ⟨fun h => (by cases h), fun h => (by cases h)⟩
        | ok is =>
          rw [res_bind_ok]
          by_cases hn : is = []
          · subst hn; exact ⟨fun _ => rfl, fun _ => rfl⟩
          · rw [if_pos hn]
            exact ⟨fun h => (by cases h), fun h => (by cases h; exact absurd rfl hn)⟩
      refine key.trans ?_
      have hash : (∀ x, ix ≠ .expl x) → ((∀ jx, some ix = some jx → ¬ KnowsNgram jx w) ↔ w.length + 2 < ix.minN) := by
        intro hh
        constructor
        · intro h
          by_contra hc
          exact h ix rfl ⟨0, ix.minN, le_refl _, h1, by omega, fun x hx => absurd hx (hh x)⟩
        · rintro h jx hj ⟨s, l, h2, _, h3, _⟩
          cases hj
          omega
      cases ix with
      | fifu ix =>
        rw [hash (by simp)]
        show (Except.ok ((ix.indices w (UInt64.ofNat e.vocab.words.length) true).map Int.ofNat) = Except.ok []) ↔ _
        unfold FifuIndexer.indices
        rw [fifuSub_eq, hlen]
        constructor
        · intro h
          injection h with h
          rw [List.map_map, List.map_eq_nil_iff] at h
          exact ⟨hw, (occs_nil h0 h1).mp h, by rintro ⟨f, hf⟩; cases hf⟩
        · rintro ⟨_, h, _⟩
          have : occs (w.length + 2) ix.minN ix.maxN = [] := (occs_nil h0 h1).mpr h
          rw [this]; rfl
      | ft ix =>
        rw [hash (by simp)]
        have hu : e.vocab.subwordIndices (.ft ix) w =
            (ix.indices w (UInt64.ofNat e.vocab.words.length) true) >>= fun l => .ok (l.map Int.ofNat) := rfl
        rw [hu]
        unfold FtIndexer.indices
        rw [ftSub_eq, hlen]
        have hb : (bracketed true w).any isSurrogate = w.any isSurrogate := by
          unfold bracketed
          rw [if_pos rfl, List.any_cons, List.any_append]
          simp [isSurrogate, langle, rangle]
        by_cases hsur : w.any isSurrogate = false
        · rw [encode_eq (hb.trans hsur)]
          constructor
          · intro h
            have h' := Except.ok.inj h
            rw [List.map_map, List.map_eq_nil_iff] at h'
            exact ⟨hw, (occs_nil h0 h1).mp h', fun _ => hsur⟩
          · rintro ⟨_, h, _⟩
            have : occs (w.length + 2) ix.minN ix.maxN = [] := (occs_nil h0 h1).mpr h
            rw [this]; rfl
        · rw [encode_err (hb.trans (by simpa using hsur))]
          exact ⟨fun h => (by cases h), fun h => absurd (h.2.2 ⟨ix, rfl⟩) hsur⟩
      | expl ix =>
        have hval : ExplValid ix := builtIndexer_wf hix
        have hmem : ∀ g, Dict.get? ix.index g = none ↔ g ∉ ix.ngrams := by
          intro g
          rw [← hval.keys.mem_iff, ← not_iff_not, not_not, ← Dict.get?_isSome]
          cases Dict.get? ix.index g <;> simp
        show (Except.ok (ix.indices w _ true) = Except.ok []) ↔ _
        unfold ExplIndexer.indices
        rw [explSub_eq, hlen]
        constructor
        · intro h
          injection h with h
          rw [List.filterMap_eq_nil_iff] at h
          refine ⟨hw, ?_, by rintro ⟨f, hf⟩; cases hf⟩
          rintro jx hj ⟨s, l, h2, h3, h4, h5⟩
          cases hj
          have := h _ (List.mem_map.mpr ⟨(s, l), (mem_occs h0).mpr ⟨h2, h3, h4⟩, rfl⟩)
          have h6 := h5 ix rfl
          rw [wrap_eq] at h6
          cases hg : Dict.get? ix.index (((bracketed true w).drop s).take l) with
          | none => exact (hmem _).mp hg h6
          | some k => rw [hg] at this; cases this
        · rintro ⟨_, h, _⟩
          congr 1
          rw [List.filterMap_eq_nil_iff]
          intro g hg
          obtain ⟨⟨s, l⟩, hp, rfl⟩ := List.mem_map.mp hg
          obtain ⟨h2, h3, h4⟩ := (mem_occs h0).mp hp
          have : ((bracketed true w).drop s).take l ∉ ix.ngrams := by
            intro hc
            refine h _ rfl ⟨s, l, h2, h3, h4, ?_⟩
            intro x hx
            cases hx
            rw [wrap_eq]; exact hc
          rw [(hmem _).mpr this]; rfl

-- `"cd"` has known n-grams; the empty word in brackets is `<>`, also an n-gram of two characters
example : ¬ Sample.embRat.getItem [99, 100] = .error .keyError :=
  fun h => ((C87_getitem _ Sample.builtEmbRat _).mp h).2.1 (.ft ⟨3, 2, 2⟩) rfl ⟨0, 2, by decide, by decide, by decide,
    (by intro e he; cases he)⟩

-- without n-grams, unknown words raise
example : Sample.embSim.getItem [99, 100] = .error .keyError :=
  (C87_getitem _ Sample.builtEmbSim _).mpr ⟨by decide, (by intro ix h; cases h), (by rintro ⟨f, h⟩; cases h)⟩

/-- The setter of `metadata` raises `TypeError` exactly for other objects than `Metadata` and `None`. -/
theorem C87_metadata (e : Embeddings K) (m : MetaArg) :
    (∀ x, (e.setMetadata m).1 = .error x → x = .typeError) ∧ ((e.setMetadata m).1 = .error .typeError ↔ m = .other) := by
  cases m <;> simp [Embeddings.setMetadata]

/-- The setter of `norms` raises `AssertionError` if the number of norms is not the number of words or larger than the
number of rows, as documented, and accepts all others. -/
theorem C87_norms_lengths_partial (e : Embeddings K) (he : BuiltEmb e) (n : List K) :
    (e.setNorms (.norms n)).1 = (if e.storage.nRows < n.length ∨ n.length ≠ e.vocab.words.length
      then .error .assertionError else .ok ()) := by
  unfold Embeddings.setNorms normsCompatArg
  simp only
  rcases normsCompat_cases e.storage e.vocab n with ⟨h1, h2, h3⟩ | ⟨h1, h2⟩
  · rw [h1, if_neg]
    rw [he.vocab.len] at h3
    omega
  · rw [h1, if_pos]
    rw [he.vocab.len] at h2
    omega

-- two words in five rows: two norms are right, three and six are not
example : (Sample.embRat.setNorms (.norms [1, 2])).1 = .ok () ∧
    (Sample.embRat.setNorms (.norms [1, 2, 3])).1 = .error .assertionError ∧
    (Sample.embRat.setNorms (.norms [1, 2, 3, 4, 5, 6])).1 = .error .assertionError :=
  ⟨C87_norms_lengths_partial _ Sample.builtEmbRat _, C87_norms_lengths_partial _ Sample.builtEmbRat _,
    C87_norms_lengths_partial _ Sample.builtEmbRat _⟩

/-- An object that is not `Norms` is documented as `TypeError` and raises `AssertionError`. -/
theorem C87_norms_type_refuted (e : Embeddings K) : (e.setNorms .other).1 = .error .assertionError := rfl

/-- `bucket_to_explicit` raises `TypeError` if and only if the vocabulary is not hash based. -/
theorem C87_explicit [NumOps K] (e : Embeddings K) :
    e.bucketToExplicit = .error .typeError ↔
      (∀ f, e.vocab.sub ≠ some (.fifu f)) ∧ ∀ f, e.vocab.sub ≠ some (.ft f) := by
  cases hs : e.vocab.sub with
  | none =>
    refine ⟨fun _ => ⟨by simp, by simp⟩, fun _ => ?_⟩
    unfold Embeddings.bucketToExplicit; rw [hs]
  | some ix =>
    cases ix with
    | fifu ix => exact ⟨fun h => absurd rfl (embToExplicit_errs e hs (by simp) _ h), fun h => absurd rfl (h.1 ix)⟩
    | ft ix => exact ⟨fun h => absurd rfl (embToExplicit_errs e hs (by simp) _ h), fun h => absurd rfl (h.2 ix)⟩
    | expl ix =>
      refine ⟨fun _ => ⟨by simp, by simp⟩, fun _ => ?_⟩
      unfold Embeddings.bucketToExplicit; rw [hs]

example : Sample.embSim.bucketToExplicit = .error .typeError ∧ ¬ Sample.embRat.bucketToExplicit = .error .typeError :=
  ⟨(C87_explicit _).mpr ⟨by simp [Sample.embSim], by simp [Sample.embSim]⟩,
    fun h => ((C87_explicit _).mp h).2 ⟨3, 2, 2⟩ rfl⟩

end

/-- `_read_binary` raises `FinalfusionFormatError` if and only if there are some bytes left, but fewer than needed; it
returns `None` if and only if there are none (or none are needed). -/
theorem C87_read_binary (ws : List Nat) (s : RFile) (h : calcsize ws < 2 ^ 63) :
    (∀ x, readBinary ws s = .error x → x = .formatError) ∧
    (readBinary ws s = .error .formatError ↔ 0 < s.left ∧ s.left < calcsize ws) ∧
    ((∃ s', readBinary ws s = .ok (none, s')) ↔ s.left = 0 ∨ calcsize ws = 0) := by
  rw [readBinary_eq ws s h]
  have hl : ((s.data.drop s.pos).take (calcsize ws)).length = min (calcsize ws) s.left := by
    rw [List.length_take, List.length_drop]; rfl
  simp only [hl]
  by_cases h0 : min (calcsize ws) s.left = 0
  · rw [if_pos h0]
    refine ⟨fun x hx => (by cases hx), ⟨fun hx => (by cases hx), fun hx => ?_⟩, ⟨fun _ => ?_, fun _ => ⟨_, rfl⟩⟩⟩
    · omega
    · omega
  · rw [if_neg h0]
    by_cases h1 : min (calcsize ws) s.left ≠ calcsize ws
    · rw [if_pos h1]
      refine ⟨fun x hx => (by cases hx; rfl), ⟨fun _ => ?_, fun _ => rfl⟩, ⟨fun hx => ?_, fun hx => ?_⟩⟩
      · omega
      · obtain ⟨_, hx⟩ := hx; cases hx
      · omega
    · rw [if_neg h1]
      refine ⟨fun x hx => (by cases hx), ⟨fun hx => (by cases hx), fun hx => ?_⟩, ⟨fun hx => ?_, fun hx => ?_⟩⟩
      · omega
      · obtain ⟨_, hx⟩ := hx; cases hx
      · omega

-- three of four bytes, none, and all
example : readBinary [4] ⟨[9, 1, 2, 3], 1⟩ = .error .formatError ∧ (∃ s, readBinary [4] ⟨[9], 1⟩ = .ok (none, s)) ∧
    ¬ readBinary [4] ⟨[9, 1, 2, 3, 4], 1⟩ = .error .formatError :=
  ⟨(C87_read_binary [4] _ (by decide)).2.1.mpr (by decide), (C87_read_binary [4] _ (by decide)).2.2.mpr (by decide),
    fun h => absurd ((C87_read_binary [4] _ (by decide)).2.1.mp h) (by decide)⟩

/-- `_read_chunk_header` raises `FinalfusionFormatError` exactly if only a part of the twelve bytes is there, and returns
`None` exactly at the end.  It also raises `ValueError`, which is not documented, if the number is not that of a chunk. -/
theorem C87_chunk_header (bs : Bytes) (p : Nat) :
    (readChunkHeader ⟨bs, p⟩ = .error .formatError ↔ p < bs.length ∧ bs.length < p + 12) ∧
    ((∃ s', readChunkHeader ⟨bs, p⟩ = .ok (none, s')) ↔ bs.length ≤ p) ∧
    (readChunkHeader ⟨bs, p⟩ = .error .valueError ↔ ∃ id, 9 ≤ id ∧ id < 2 ^ 32 ∧ Fifu.Head bs p id) ∧
    ∀ x, readChunkHeader ⟨bs, p⟩ = .error x → x = .formatError ∨ x = .valueError := by
  have hnone : (∃ s', readChunkHeader ⟨bs, p⟩ = .ok (none, s')) ↔ bs.length ≤ p := by
    constructor
    · rintro ⟨s', h⟩; exact (readChunkHeader_none.mp h).1
    · intro h; exact ⟨_, readChunkHeader_none.mpr ⟨h, rfl⟩⟩
  have hcs : calcsize [4, 8] = 12 := rfl
  obtain ⟨hb1, hb2, hb3⟩ := C87_read_binary [4, 8] ⟨bs, p⟩ (by decide)
  rw [hcs] at hb2 hb3
  have hleft : RFile.left ⟨bs, p⟩ = bs.length - p := rfl
  rw [hleft] at hb2 hb3
  have noHead : bs.length < p + 12 → ∀ id, ¬ Fifu.Head bs p id := by
    rintro h id ⟨len, _, hh⟩
    have := hasAt_le hh (by intro hc; have := congrArg List.length hc; simp [Fifu.uint] at this)
    simp [Fifu.uint] at this
    omega
  by_cases hp : bs.length ≤ p
  · obtain ⟨s', h⟩ := hnone.mpr hp
    refine ⟨⟨fun hx => (by rw [h] at hx; cases hx), fun hx => by omega⟩, hnone,
      ⟨fun hx => (by rw [h] at hx; cases hx), ?_⟩, fun x hx => (by rw [h] at hx; cases hx)⟩
    rintro ⟨id, _, _, hh⟩
    exact absurd hh (noHead (by omega) id)
  · by_cases hq : bs.length < p + 12
    · have h1 : readBinary [4, 8] ⟨bs, p⟩ = .error .formatError := hb2.mpr (by omega)
      have h : readChunkHeader ⟨bs, p⟩ = .error .formatError := by
        unfold readChunkHeader
        exact rd_bind_error h1
      refine ⟨⟨fun _ => by omega, fun _ => h⟩, hnone, ⟨fun hx => (by rw [h] at hx; cases hx), ?_⟩,
        fun x hx => (by rw [h] at hx; cases hx; exact Or.inl rfl)⟩
      rintro ⟨id, _, _, hh⟩
      exact absurd hh (noHead hq id)
    · have hr := readBinary_eq [4, 8] ⟨bs, p⟩ (by decide)
      simp only [hcs] at hr
      have hl : ((bs.drop p).take 12).length = 12 := by rw [List.length_take, List.length_drop]; omega
      rw [hl, if_neg (by decide), if_neg (by decide)] at hr
      have h4 : ((bs.drop p).take 12).take 4 = (bs.drop p).take 4 := by rw [List.take_take]; rfl
      have hi : unle ((bs.drop p).take 4) < 256 ^ 4 := by
        have := unle_lt ((bs.drop p).take 4)
        rwa [show ((bs.drop p).take 4).length = 4 by rw [List.length_take, List.length_drop]; omega] at this
      have hl8 : ((((bs.drop p).take 12).drop 4).take 8).length = 8 := by
        simp only [List.length_take, List.length_drop]; omega
      have hn : unle ((((bs.drop p).take 12).drop 4).take 8) < 256 ^ 8 := by
        have := unle_lt ((((bs.drop p).take 12).drop 4).take 8)
        rwa [hl8] at this
      have hat : HasAt bs p (le 4 (unle ((bs.drop p).take 4)) ++ le 8 (unle ((((bs.drop p).take 12).drop 4).take 8))) := by
        have e1 : le 4 (unle ((bs.drop p).take 4)) = (bs.drop p).take 4 := by
          have := le_unle ((bs.drop p).take 4)
          rwa [show ((bs.drop p).take 4).length = 4 by rw [List.length_take, List.length_drop]; omega] at this
        have e2 := le_unle ((((bs.drop p).take 12).drop 4).take 8)
        rw [hl8] at e2
        rw [e1, e2, ← h4]
        have e3 : (((bs.drop p).take 12).drop 4).take 8 = ((bs.drop p).take 12).drop 4 := by
          rw [List.take_of_length_le]
          simp only [List.length_take, List.length_drop]; omega
        rw [e3, List.take_append_drop]
        exact hasAt_of_take
      have hrun : readChunkHeader ⟨bs, p⟩ =
          (Rd.lift (ChunkId.fromNat (unle ((bs.drop p).take 4))) >>= fun c =>
            pure (some (c, unle ((((bs.drop p).take 12).drop 4).take 8))) : Rd (Option (ChunkId × Nat))) ⟨bs, p + 12⟩ := by
        unfold readChunkHeader
        rw [rd_bind_ok hr]
        simp only [unpack, h4]
      have huniq : ∀ id, id < 2 ^ 32 → Fifu.Head bs p id → id = unle ((bs.drop p).take 4) := by
        rintro id hid ⟨len, _, hh⟩
        rw [uint_eq, hasAt_append] at hh
        exact hasAt_le_unique (w := 4) (by simpa using hid) hi hh.1 (hasAt_append.mp hat).1
      generalize hid : unle ((bs.drop p).take 4) = id at *
      by_cases h9 : id < 9
      · have hok : ∃ c, ChunkId.fromNat id = .ok c := by
          interval_cases id <;> exact ⟨_, rfl⟩
        obtain ⟨c, hc⟩ := hok
        rw [hc] at hrun
        have hrun' : readChunkHeader ⟨bs, p⟩ = .ok (some (c, _), ⟨bs, p + 12⟩) := hrun
        refine ⟨⟨fun hx => (by rw [hrun'] at hx; cases hx), fun hx => by omega⟩, hnone,
          ⟨fun hx => (by rw [hrun'] at hx; cases hx), ?_⟩, fun x hx => (by rw [hrun'] at hx; cases hx)⟩
        rintro ⟨jd, h1, h2, h3⟩
        have := huniq jd h2 h3
        omega
      · have herr : ChunkId.fromNat id = .error .valueError := by
          unfold ChunkId.fromNat
          split <;> first | omega | rfl
        rw [herr] at hrun
        have hrun' : readChunkHeader ⟨bs, p⟩ = .error .valueError := hrun
        refine ⟨⟨fun hx => (by rw [hrun'] at hx; cases hx), fun hx => by omega⟩, hnone,
          ⟨fun _ => ?_, fun _ => hrun'⟩, fun x hx => (by rw [hrun'] at hx; cases hx; exact Or.inr rfl)⟩
        refine ⟨id, by omega, by simpa using hi, _, lt_of_lt_of_eq hn (by norm_num), ?_⟩
        rw [uint_eq]; exact hat

-- half a header, and one with the unknown number 9
example : readChunkHeader ⟨[1, 0, 0, 0, 8, 0], 0⟩ = .error .formatError ∧
    readChunkHeader ⟨[9, 0, 0, 0, 8, 0, 0, 0, 0, 0, 0, 0], 0⟩ = .error .valueError ∧
    ∃ s, readChunkHeader ⟨[1, 0, 0], 3⟩ = .ok (none, s) := by
  refine ⟨(C87_chunk_header _ 0).1.mpr (by decide), ?_, (C87_chunk_header _ 3).2.1.mpr (by decide)⟩
  decide +kernel

/-- `_read_array_header`: `FinalfusionFormatError` is raised for the other known type and for a file that ends early, but for
numbers that are not those of a type it is `ValueError`. -/
theorem C87_array_header (bs : Bytes) (p rows cols t : Nat) (hl : p + 24 < 2 ^ 63) (ht : t < 2 ^ 32)
    (hr : rows < 2 ^ 64) (hc : cols < 2 ^ 32)
    (h : Fifu.HasAt bs p (Fifu.uint 8 rows ++ Fifu.uint 4 cols ++ Fifu.uint 4 t)) :
    (t = 10 → ∃ s', readArrayHeader ⟨bs, p⟩ = .ok ((rows, cols), s')) ∧
    (t = 1 → readArrayHeader ⟨bs, p⟩ = .error .formatError) ∧
    (t ≠ 1 → t ≠ 10 → readArrayHeader ⟨bs, p⟩ = .error .valueError) := by
  rw [uint_eq, hasAt_append] at h
  obtain ⟨k3, k4⟩ := h
  simp only [List.length_append, length_le] at k4
  have hrun : readArrayHeader ⟨bs, p⟩ = (do
      let typeId ← Rd.lift (TypeId.fromNat t)
      if typeId ≠ .f32 then Rd.fail .formatError
      let pos ← tell
      seekCur (padFloat32 pos)
      return (rows, cols) : Rd (Nat × Nat)) ⟨bs, p + (8 + 4) + 4⟩ := by
    unfold readArrayHeader
    rw [rd_bind_ok ((readRequired2_iff (by decide) (by decide)).mpr
      ⟨⟨lt_of_lt_of_eq hr pow_64.symm, lt_of_lt_of_eq hc pow_32.symm⟩, k3, rfl⟩)]
    simp only
    rw [rd_bind_ok ((readOne_iff (by decide) (by decide)).mpr ⟨lt_of_lt_of_eq ht pow_32.symm, k4, rfl⟩)]
  rw [hrun]
  refine ⟨?_, ?_, ?_⟩
  · rintro rfl
    have hp : padFloat32 (p + (8 + 4) + 4) ≤ 4 := by unfold padFloat32; omega
    have hs : seekCur (padFloat32 (p + (8 + 4) + 4)) ⟨bs, p + (8 + 4) + 4⟩ =
        .ok ((), ⟨bs, p + (8 + 4) + 4 + padFloat32 (p + (8 + 4) + 4)⟩) := by
      unfold seekCur
      rw [if_pos (by unfold maxSize; omega), if_pos (by unfold maxSize; simp only; omega)]
    refine ⟨⟨bs, p + (8 + 4) + 4 + padFloat32 (p + (8 + 4) + 4)⟩, ?_⟩
    rw [rd_bind_ok (show Rd.lift (TypeId.fromNat 10) _ = .ok (TypeId.f32, _) from rfl)]
    simp only [ne_eq, not_true, if_false]
    rw [rd_bind_ok (show tell _ = .ok (_, _) from rfl), rd_bind_ok hs]
    rfl
  · rintro rfl; rfl
  · intro h1 h2
    have : TypeId.fromNat t = .error .valueError := by
      unfold TypeId.fromNat; rw [if_neg h1, if_neg h2]
    rw [this]; rfl

-- the type 99 does not exist
example : readArrayHeader ⟨Fifu.uint 8 2 ++ Fifu.uint 4 3 ++ Fifu.uint 4 99, 0⟩ = .error .valueError :=
  (C87_array_header _ 0 2 3 99 (by decide) (by decide) (by decide) (by decide) (by decide +kernel)).2.2 (by decide)
    (by decide)

/-- `_read_array_header` of fewer than sixteen bytes raises `FinalfusionFormatError`. -/
theorem C87_array_header_short (bs : Bytes) (p : Nat) (h : bs.length < p + 16) :
    readArrayHeader ⟨bs, p⟩ = .error .formatError := by
  have e1 := readRequired_eq [8, 4] ⟨bs, p⟩ (by decide)
  have hc : calcsize [8, 4] = 12 := rfl
  rw [hc] at e1
  unfold readArrayHeader
  by_cases h1 : p + 12 ≤ bs.length
  · rw [if_pos ⟨by decide, h1⟩] at e1
    rw [rd_bind_ok e1]
    have e2 := readOne_eq 4 ⟨bs, p + 12⟩ (by decide) (by decide)
    rw [if_neg (by simp only; omega)] at e2
    simp only [unpack]
    exact rd_bind_error e2
  · rw [if_neg (by simp only; omega)] at e1
    exact rd_bind_error e1

example : readArrayHeader ⟨[2, 0, 0, 0, 0, 0, 0, 0, 3, 0], 0⟩ = .error .formatError :=
  C87_array_header_short _ _ (by decide)

/-- Without a chunk of the kinds that it looks for, a loader raises `ValueError`. -/
theorem C87_loaders (T : Toml) (L : Loader) (bs : Bytes) (start : Nat) (hh : Fifu.HeaderAt bs start)
    (h : Fifu.Exhausted bs L.wanted start) : L.raises T bs = some .valueError := by
  cases L <;> unfold Loader.raises <;> simp only
  case vocab => rw [(C63_missing T true bs start hh).1 h]; rfl
  case simple => rw [(C63_missing T true bs start hh).2.1 h]; rfl
  case bucket => rw [(C63_missing T true bs start hh).2.2.1 h]; rfl
  case fasttext => rw [(C63_missing T true bs start hh).2.2.2.1 h]; rfl
  case explicit => rw [(C63_missing T true bs start hh).2.2.2.2.1 h]; rfl
  case storage mmap => rw [(C63_missing T mmap bs start hh).2.2.2.2.2.1 h]; rfl
  case ndarray mmap => rw [(C63_missing T mmap bs start hh).2.2.2.2.2.2.1 h]; rfl
  case quantized mmap => rw [(C63_missing T mmap bs start hh).2.2.2.2.2.2.2.1 h]; rfl
  case norms => rw [(C63_missing T true bs start hh).2.2.2.2.2.2.2.2.1 h]; rfl
  case metadata => rw [(C63_missing T true bs start hh).2.2.2.2.2.2.2.2.2 h]; rfl

/-- `Chunk.write` of a `Header` raises `TypeError`.  By then the file has been opened: what it contained is gone. -/
theorem C87_write_header (body : Wr Unit) (path : PyStr) (fs : FS) :
    (chunkWrite .header body path fs).1 = .error .typeError ∧
    (chunkWrite .header body path fs).2 path = some [] := by
  constructor
  · rfl
  · show (if path = path then some _ else _) = _
    rw [if_pos rfl]
    rfl

/-- `NdArray.__new__` raises `TypeError` if and only if the array is not a 2-d array of float32. -/
theorem C87_ndarray (a : NormArray) :
    (∀ x, ndArrayNew a = .error x → x = .typeError) ∧
    (ndArrayNew a = .error .typeError ↔ ¬ (a.ndim = 2 ∧ a.dtype = .float32)) := by
  unfold ndArrayNew issubdtypeF32
  by_cases h1 : a.ndim = 2 <;> by_cases h2 : a.dtype = .float32 <;> simp [h1, h2]

/-- `Norms.__new__` documents `AssertionError` for arrays that are not 1-d arrays of float32.  It never raises it: there is
`TypeError` for other dimensions, and other types of elements are accepted. -/
theorem C87_norms_refuted (a : NormArray) : normsNew a ≠ .error .assertionError ∧
    (a.ndim ≠ 1 → normsNew a = .error .typeError) ∧ (a.ndim = 1 → normsNew a = .ok a) := by
  unfold normsNew issubdtypeF32
  by_cases h1 : a.ndim = 1 <;> simp [h1]

example : normsNew ⟨.float64, 1, [[0, 0, 0, 0]]⟩ = .ok ⟨.float64, 1, [[0, 0, 0, 0]]⟩ ∧ normsNew ⟨.float32, 2, [[0, 0, 0, 0]]⟩ = .error .typeError :=
  ⟨(C87_norms_refuted _).2.2 rfl, (C87_norms_refuted _).2.1 (by decide)⟩

section
variable {K : Type}

/-- `PQ.__init__` raises `AssertionError` if and only if there is a projection whose shape is not
`[reconstructed_len, reconstructed_len]`. -/
theorem C87_pq (n sub : Nat) (qs : List (List (List K))) (projection : Option (Mat K)) :
    (∀ x, PQ.new n sub qs projection = .error x → x = .assertionError) ∧
    (PQ.new n sub qs projection = .error .assertionError ↔
      ∃ p, projection = some p ∧ ¬ (p.rows.length = qs.length * sub ∧ p.cols = qs.length * sub)) := by
  unfold PQ.new
  cases projection with
  | none => exact ⟨fun x h => (by cases h), ⟨fun h => (by cases h), fun ⟨p, h, _⟩ => (by cases h)⟩⟩
  | some p =>
    by_cases h : p.rows.length = qs.length * sub ∧ qs.length * sub = p.cols
    · simp only
      rw [pyAssert_true (by simpa using h)]
      refine ⟨fun x h => (by cases h), ⟨fun h => (by cases h), ?_⟩⟩
      rintro ⟨q, hq, hc⟩
      cases hq
      exact absurd ⟨h.1, h.2.symm⟩ hc
    · simp only
      rw [pyAssert_false (by simpa using h)]
      refine ⟨fun x h => (by cases h; rfl), ⟨fun _ => ⟨p, rfl, fun hc => h ⟨hc.1, hc.2.symm⟩⟩, fun _ => rfl⟩⟩

-- two quantizers of length one need a projection of two rows and columns
example : PQ.new (K := Int) 1 1 [[[1]], [[2]]] (some ⟨1, [[1]]⟩) = .error .assertionError :=
  (C87_pq _ _ _ _).2.mpr ⟨_, rfl, by decide⟩

/-- `PQ.reconstruct` with `out` raises `AssertionError` for the documented reason: `out` has dimensions, and the last is not
`reconstructed_len` or the others are not those of the codes.  An `out` without dimensions raises `IndexError` if a single
vector is reconstructed. -/
theorem C87_reconstruct [NumOps K] (pq : HPQ) (qlen : Nat) (shape : List Nat) (codes : List (List UInt8)) (o : HArr)
    (h : Heap K) (hs : o.shape ≠ shape ++ [pq.reconstructedLen]) :
    pq.reconstructAll qlen shape codes (some o) h =
      (.error (if o.shape = [] ∧ shape = [] then .indexError else .assertionError), h) := by
  unfold HPQ.reconstructAll
  simp only
  by_cases h1 : o.shape.dropLast = shape
  · rw [if_neg (by simpa using h1)]
    cases hl : o.shape.getLast? with
    | none =>
      have he : o.shape = [] := List.getLast?_eq_none_iff.mp hl
      have hsh : shape = [] := by rw [← h1, he]; rfl
      simp only
      rw [if_pos ⟨he, hsh⟩]
      rfl
    | some d =>
      obtain ⟨ini, hi⟩ := List.getLast?_eq_some_iff.mp hl
      have hne : o.shape ≠ [] := by rw [hi]; simp
      have hd : d ≠ pq.reconstructedLen := by
        rintro rfl
        apply hs
        rw [hi, List.dropLast_concat] at h1
        rw [hi, h1]
      simp only
      rw [if_pos hd, if_neg (fun hc => hne hc.1)]
      rfl
  · rw [if_pos h1, if_neg]
    · rfl
    · rintro ⟨ha, hb⟩
      rw [ha, hb] at h1
      exact h1 rfl

example (h : Heap Int) (q : HPQ) : (q.reconstructAll 2 [] [[0, 0]] (some ⟨[], ⟨0, [0]⟩⟩) h).1 = .error .indexError ∧
    (q.reconstructAll 2 [3] [[0, 0], [0, 0], [0, 0]] (some ⟨[2, q.reconstructedLen], ⟨0, [0]⟩⟩) h).1 =
      .error .assertionError := by
  rw [C87_reconstruct q 2 [] _ ⟨[], ⟨0, [0]⟩⟩ h (by simp), C87_reconstruct q 2 [3] _ ⟨[2, q.reconstructedLen], ⟨0, [0]⟩⟩ h (by simp)]
  exact ⟨rfl, rfl⟩

private theorem noAssert_bind {α β : Type} {m : HM K α} {f : α → HM K β}
    (h1 : ∀ h, (m h).1 ≠ .error .assertionError) (h2 : ∀ a h, (f a h).1 ≠ .error .assertionError) (h : Heap K) :
    ((m >>= f) h).1 ≠ .error .assertionError := by
  rw [hm_bind]
  cases hm : m h with
  | mk r h' =>
    cases r with
    | ok a => exact h2 a h'
    | error x =>
      intro hc
      simp only at hc
      exact h1 h (by rw [hm]; cases hc; rfl)

private theorem noAssert_write (v : View) (xs : List K) (h : Heap K) : (HM.write v xs h).1 ≠ .error .assertionError := by
  unfold HM.write
  cases h[v.loc]? with
  | none => simp
  | some b =>
    simp only
    split
    · cases ha : assignRow v.idxs.length xs with
      | ok ys => simp
      | error x =>
        simp only
        intro hc
        cases hc
        unfold assignRow at ha
        split at ha <;> simp at ha
        all_goals (try (split at ha <;> simp at ha))
    · simp

private theorem noAssert_gatherAll (pq : PQ K) (qlen : Nat) (codes : List (List UInt8)) :
    ErrsR (fun x => x ≠ .assertionError) (pq.gatherAll qlen codes) := by
  unfold PQ.gatherAll
  simp only
  split
  · exact ErrsR.error (by simp)
  · refine ErrsR.bind (ErrsR.mapRes (fun row => ErrsR.mapRes (fun qc => ?_) _) _) fun parts => ?_
    · intro e he
      rw [(npGet_err he).1]
      simp
    · split
      · exact ErrsR.error (by simp)
      · exact ErrsR.ok _

/-- `AssertionError` is not raised for an `out` of the right shape. -/
theorem C87_reconstruct_ok [NumOps K] (pq : HPQ) (qlen : Nat) (shape : List Nat) (codes : List (List UInt8)) (o : HArr)
    (h : Heap K) (hs : o.shape = shape ++ [pq.reconstructedLen]) :
    (pq.reconstructAll qlen shape codes (some o) h).1 ≠ .error .assertionError := by
  unfold HPQ.reconstructAll
  have e1 : o.shape.dropLast = shape := by rw [hs, List.dropLast_concat]
  have e2 : o.shape.getLast? = some pq.reconstructedLen := by rw [hs]; simp
  simp only [e1, e2, ne_eq, not_true_eq_false, if_false]
  rw [hm_look_bind]
  refine noAssert_bind (fun h' => fun hc => noAssert_gatherAll _ _ _ _ hc rfl) (fun xs => ?_) h
  refine noAssert_bind (fun h' => by simp [HM.alloc]) (fun tmp => ?_)
  refine noAssert_bind (fun h' => by simp [HM.read, HM.look]) (fun ys => ?_)
  refine noAssert_bind (fun h' => noAssert_write _ _ _) (fun _ => ?_)
  unfold HPQ.projectAll
  cases pq.projection with
  | none => intro h'; simp [pure, ExceptT.pure, ExceptT.mk, StateT.pure]
  | some p =>
    simp only
    split
    · intro h'; simp [HM.fail, hm_bind]
    · refine noAssert_bind (fun h' => by simp [HM.look]) (fun proj => ?_)
      refine noAssert_bind (fun h' => by simp [HM.read, HM.look]) (fun ys => ?_)
      refine noAssert_bind (fun h' => noAssert_write _ _ _) (fun _ => ?_)
      intro h'; simp [pure, ExceptT.pure, ExceptT.mk, StateT.pure]

end

/-- `ngrams`: `AssertionError` if and only if the range is not accepted, `TypeError` if and only if the word is not a string;
bounds that are not 32-bit numbers come first. -/
theorem C87_ngrams_partial (word : Arg PyStr) (mn mx : Int) (b : Bool) (h1 : 0 ≤ mn ∧ mn < 2 ^ 32)
    (h2 : 0 ≤ mx ∧ mx < 2 ^ 32) :
    (ngramsArg word mn mx b = .error .typeError ↔ ∀ w, word ≠ .val w) ∧
    ∀ w, word = .val w → (ngramsArg word mn mx b = .error .assertionError ↔ mx < mn ∨ mn ≤ 0) ∧
      ∀ x, ngramsArg word mn mx b = .error x → x = .assertionError := by
  obtain ⟨m, e1, rfl, _⟩ | ⟨_, hc⟩ := toU32_val mn
  swap; · exact absurd h1 hc
  obtain ⟨n, e2, rfl, _⟩ | ⟨_, hc⟩ := toU32_val mx
  swap; · exact absurd h2 hc
  have hr : ngramsArg word m n b = match word with
      | .val w => ngrams w m n b
      | _ => .error .typeError := by
    unfold ngramsArg
    rw [e1, e2]
    rfl
  rw [hr]
  cases word with
  | none => exact ⟨⟨fun _ => by simp, fun _ => rfl⟩, fun w hw => (by cases hw)⟩
  | other => exact ⟨⟨fun _ => by simp, fun _ => rfl⟩, fun w hw => (by cases hw)⟩
  | val w =>
    simp only
    rw [ngrams_eq]
    by_cases hc : n ≥ m ∧ m > 0
    · rw [if_pos hc]
      refine ⟨⟨fun h => (by cases h), fun h => absurd rfl (h w)⟩, fun w' _ => ⟨⟨fun h => (by cases h), fun h => ?_⟩,
        fun x h => (by cases h)⟩⟩
      omega
    · rw [if_neg hc]
      refine ⟨⟨fun h => (by cases h), fun h => absurd rfl (h w)⟩, fun w' _ => ⟨⟨fun h => ?_, fun h => rfl⟩,
        fun x h => (by cases h; rfl)⟩⟩
      omega

/-- A negative bound is documented as `AssertionError`.  It raises `OverflowError`, as do bounds of more than 32 bits. -/
theorem C87_ngrams_refuted (word : Arg PyStr) (mn mx : Int) (b : Bool)
    (h : ¬ (0 ≤ mn ∧ mn < 2 ^ 32) ∨ ¬ (0 ≤ mx ∧ mx < 2 ^ 32)) :
    ngramsArg word mn mx b = .error .overflowError := by
  unfold ngramsArg
  obtain ⟨m, e1, rfl, h1⟩ | ⟨e1, h1⟩ := toU32_val mn
  · obtain ⟨n, e2, rfl, h2⟩ | ⟨e2, h2⟩ := toU32_val mx
    · omega
    · rw [e1, e2]; rfl
  · rw [e1]; rfl

example : ngramsArg (.val [97]) (-1) 6 true = .error .overflowError ∧ ngramsArg (.val [97]) 0 6 true = .error .assertionError ∧
    ngramsArg .none 0 6 true = .error .typeError :=
  ⟨C87_ngrams_refuted _ _ _ _ (by decide), ((C87_ngrams_partial _ 0 6 true (by decide) (by decide)).2 _ rfl).1.mpr (by decide),
    (C87_ngrams_partial _ 0 6 true (by decide) (by decide)).1.mpr (by simp)⟩

/-- `subword_indices` raises `TypeError` if and only if the word is not a string, for offsets of 64 bits; other offsets are
an `OverflowError`. -/
theorem C87_subword_indices (ix : Indexer) (word : Arg PyStr) (off : Int) (b : Bool) :
    ((0 ≤ off ∧ off < 2 ^ 64) →
      (ix.subwordIndicesArg word off b = .error .typeError ↔ ∀ w, word ≠ .val w) ∧
      (ix.indicesArg word off b = .error .typeError ↔ ∀ w, word ≠ .val w)) ∧
    (¬ (0 ≤ off ∧ off < 2 ^ 64) →
      ix.subwordIndicesArg word off b = .error .overflowError ∧ ix.indicesArg word off b = .error .overflowError) := by
  have herr : ∀ (w : PyStr) (o : Nat), ix.subwordIndices w o b ≠ .error .typeError ∧ ix.indices w o b ≠ .error .typeError := by
    intro w o
    cases ix with
    | fifu ix => exact ⟨fun h => (by cases h), fun h => (by cases h)⟩
    | expl ix => exact ⟨fun h => (by cases h), fun h => (by cases h)⟩
    | ft ix =>
      have key : ∀ {β : Type} (emit : PyStr → Nat → β), ErrsR NoTypeErr (ix.subwordLoop emit w (UInt64.ofNat o) b) := by
        intro β emit
        rw [ftSub_eq]
        refine ErrsR.bind ?_ fun _ => ErrsR.ok _
        intro e he
        rw [(encode_err_iff.mp he).2]; simp [NoTypeErr]
      constructor
      · intro h
        have e : (Indexer.ft ix).subwordIndices w o b = ix.subwordLoop Prod.mk w (UInt64.ofNat o) b >>=
            fun l => .ok (l.map fun p => (p.1, (p.2 : Int))) := rfl
        rw [e] at h
        exact ErrsR.bind (key Prod.mk) (fun l => ErrsR.ok _) _ h rfl
      · intro h
        exact ErrsR.bind (key fun _ h => h) (fun l => ErrsR.ok (l.map Int.ofNat)) _ h rfl
  unfold Indexer.subwordIndicesArg Indexer.indicesArg
  obtain ⟨e, h1⟩ | ⟨e, h1⟩ := toU64_val off
  · refine ⟨fun _ => ?_, fun h => absurd h1 h⟩
    rw [e]
    simp only [res_bind_ok]
    cases word with
    | none => exact ⟨⟨fun _ => by simp, fun _ => rfl⟩, ⟨fun _ => by simp, fun _ => rfl⟩⟩
    | other => exact ⟨⟨fun _ => by simp, fun _ => rfl⟩, ⟨fun _ => by simp, fun _ => rfl⟩⟩
    | val w => exact ⟨⟨fun h => absurd h (herr w _).1, fun h => absurd rfl (h w)⟩,
        ⟨fun h => absurd h (herr w _).2, fun h => absurd rfl (h w)⟩⟩
  · refine ⟨fun h => absurd h h1, fun _ => ?_⟩
    rw [e]
    exact ⟨rfl, rfl⟩

example : (Indexer.ft ⟨3, 2, 2⟩).indicesArg .none 0 true = .error .typeError ∧
    (Indexer.ft ⟨3, 2, 2⟩).indicesArg .none (-1) true = .error .overflowError ∧
    (Indexer.ft ⟨3, 2, 2⟩).indicesArg (.val [97]) 2 true ≠ .error .typeError :=
  ⟨((C87_subword_indices _ .none 0 true).1 (by decide)).2.mpr (by simp), ((C87_subword_indices _ .none (-1) true).2 (by decide)).2,
    fun h => ((C87_subword_indices _ (.val [97]) 2 true).1 (by decide)).2.mp h [97] rfl⟩

/-- The vocabulary constructors with an indexer of any type: they raise nothing but `AssertionError`, and it exactly if a
word occurs twice or the indexer is of another class; without indexer, `FinalfusionBucketVocab` has 2^21 and
`FastTextVocab` 2,000,000 buckets, both with n-grams of three to six characters, and `ExplicitVocab` raises. -/
theorem C87_vocabs (cls : IndexerClass) (words : List PyStr) (indexer : Arg Indexer) :
    (∀ x, subwordVocabNew cls words indexer = .error x → x = .assertionError) ∧
    (∀ v, subwordVocabNew cls words indexer = .ok v ↔ words.Nodup ∧ ∃ ix, v = ⟨words, words.zipIdx, some ix⟩ ∧
      match (generalizing := false) indexer with
      | .val jx => ix = jx ∧ (match (generalizing := false) cls with
        | .fifu => ∃ f, jx = .fifu f
        | .ft => ∃ f, jx = .ft f
        | .expl => ∃ f, jx = .expl f)
      | .none => (cls = .fifu ∧ ix = .fifu ⟨21, 3, 6⟩) ∨ (cls = .ft ∧ ix = .ft ⟨2000000, 3, 6⟩)
      | .other => False) := by
  have hv : ∀ ix x, Vocab.new words ix = .error x → x = .assertionError := by
    intro ix x h
    by_cases hn : words.Nodup
    · rw [Vocab.new_ok.mpr ⟨hn, rfl⟩] at h
      cases h
    · unfold Vocab.new at h
      rw [validateItems_error hn] at h
      cases h
      rfl
  have hd1 : indexerOr .fifu .none = .ok (.val (.fifu ⟨21, 3, 6⟩)) := by rfl
  have hd2 : indexerOr .ft .none = .ok (.val (.ft ⟨2000000, 3, 6⟩)) := by rfl
  have hbind : ∀ (ix : Indexer), indexerOr cls indexer = .ok (.val ix) →
      subwordVocabNew cls words indexer = if ix.cls = cls then Vocab.new words (some ix) else .error .assertionError := by
    intro ix e
    unfold subwordVocabNew
    rw [e]
    show (pyAssert (ix.cls = cls) >>= fun _ => Vocab.new words (some ix)) = _
    by_cases hc : ix.cls = cls
    · rw [pyAssert_true (by simpa using hc), if_pos hc]; rfl
    · rw [pyAssert_false (by simpa using hc), if_neg hc]; rfl
  have hval : ∀ (ix : Indexer) (v : Vocab), (if ix.cls = cls then Vocab.new words (some ix) else .error .assertionError) = .ok v ↔
      words.Nodup ∧ v = ⟨words, words.zipIdx, some ix⟩ ∧ ix.cls = cls := by
    intro ix v
    by_cases hc : ix.cls = cls
    · rw [if_pos hc, Vocab.new_ok, enumItems_zipIdx]
      exact ⟨fun h => ⟨h.1, h.2, hc⟩, fun h => ⟨h.1, h.2.1⟩⟩
    · rw [if_neg hc]
      exact ⟨fun h => (by cases h), fun h => absurd h.2.2 hc⟩
  have hvx : ∀ (ix : Indexer) x, (if ix.cls = cls then Vocab.new words (some ix) else .error .assertionError) = .error x →
      x = .assertionError := by
    intro ix x h
    by_cases hc : ix.cls = cls
    · rw [if_pos hc] at h; exact hv _ _ h
    · rw [if_neg hc] at h; cases h; rfl
  cases indexer with
  | other =>
    have e : subwordVocabNew cls words .other = .error .assertionError := by cases cls <;> rfl
    rw [e]
    exact ⟨fun x h => (by cases h; rfl), fun v => ⟨fun h => (by cases h), fun ⟨_, _, _, h⟩ => h.elim⟩⟩
  | val jx =>
    rw [hbind jx (by cases cls <;> rfl)]
    refine ⟨hvx jx, fun v => ?_⟩
    rw [hval]
    simp only
    constructor
    · rintro ⟨h1, h2, h3⟩
      refine ⟨h1, jx, h2, rfl, ?_⟩
      subst h3
      cases jx <;> exact ⟨_, rfl⟩
    · rintro ⟨h1, ix, h2, rfl, h3⟩
      refine ⟨h1, h2, ?_⟩
      cases cls <;> obtain ⟨f, rfl⟩ := h3 <;> rfl
  | none =>
    cases cls with
    | expl =>
      have e : subwordVocabNew .expl words .none = .error .assertionError := by rfl
      rw [e]
      refine ⟨fun x h => (by cases h; rfl), fun v => ⟨fun h => (by cases h), ?_⟩⟩
      rintro ⟨_, _, _, ⟨h, _⟩ | ⟨h, _⟩⟩ <;> cases h
    | fifu =>
      rw [hbind _ hd1]
      refine ⟨hvx _, fun v => ?_⟩
      rw [hval]
      constructor
      · rintro ⟨h1, h2, _⟩
        exact ⟨h1, _, h2, .inl ⟨rfl, rfl⟩⟩
      · rintro ⟨h1, ix, h2, ⟨_, rfl⟩ | ⟨h, _⟩⟩
        · exact ⟨h1, h2, rfl⟩
        · cases h
    | ft =>
      rw [hbind _ hd2]
      refine ⟨hvx _, fun v => ?_⟩
      rw [hval]
      constructor
      · rintro ⟨h1, h2, _⟩
        exact ⟨h1, _, h2, .inr ⟨rfl, rfl⟩⟩
      · rintro ⟨h1, ix, h2, ⟨h, _⟩ | ⟨_, rfl⟩⟩
        · cases h
        · exact ⟨h1, h2, rfl⟩

-- the default for fastText, an indexer of another class, and a repeated word
example : subwordVocabNew .ft [[97], [98]] .none = .ok ⟨[[97], [98]], [([97], 0), ([98], 1)], some (.ft ⟨2000000, 3, 6⟩)⟩ ∧
    Raised (subwordVocabNew .ft [[97]] (.val (.fifu ⟨21, 3, 6⟩))) = some .assertionError ∧
    Raised (subwordVocabNew .fifu [[97], [97]] .none) = some .assertionError :=
  ⟨((C87_vocabs _ _ _).2 _).mpr ⟨by decide, _, rfl, .inr ⟨rfl, rfl⟩⟩, by decide +kernel, by decide +kernel⟩

end FF
