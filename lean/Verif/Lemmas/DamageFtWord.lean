import Verif.Lemmas.DamageFt
import Verif.Lemmas.DamageWord
/-! Replacing bytes of a word in a fastText file. -/

namespace FF
open Fifu

/-- The reader raises `err` at these bytes. -/
def FailsWith {α : Type} (m : Rd α) (pre enc : Bytes) (err : PyErr) : Prop :=
  ∀ post, m ⟨pre ++ enc ++ post, pre.length⟩ = .error err

theorem FailsWith.bind_left {α β : Type} {m : Rd α} {f : α → Rd β} {pre e : Bytes} {err : PyErr}
    (h : FailsWith m pre e err) : FailsWith (m >>= f) pre e err := fun post => rd_bind_error (h post)

theorem FailsWith.bind {α β : Type} {m : Rd α} {f : α → Rd β} {pre e1 e2 : Bytes} {a : α} {err : PyErr}
    (h1 : Parses m pre e1 a) (h2 : FailsWith (f a) (pre ++ e1) e2 err) : FailsWith (m >>= f) pre (e1 ++ e2) err := by
  intro post
  have g1 := h1 (e2 ++ post)
  have g2 := h2 post
  simp only [List.append_assoc] at g1 g2 ⊢
  rw [rd_bind_ok g1]
  exact g2

theorem FailsWith.bind_last {α β : Type} {m : Rd α} {f : α → Rd β} {pre e : Bytes} {a : α} {err : PyErr}
    (h1 : Parses m pre e a) (h2 : FailsWith (f a) (pre ++ e) [] err) : FailsWith (m >>= f) pre e err := by
  have := FailsWith.bind h1 h2
  simpa using this

theorem FailsWith.bind_nil {α β : Type} {m : Rd α} {f : α → Rd β} {pre e : Bytes} {a : α} {err : PyErr}
    (h1 : Parses m pre [] a) (h2 : FailsWith (f a) pre e err) : FailsWith (m >>= f) pre e err := by
  have := FailsWith.bind (e1 := []) (e2 := e) h1 (by simpa using h2)
  simpa using this

theorem FailsWith.append {α : Type} {m : Rd α} {pre e : Bytes} {err : PyErr} (h : FailsWith m pre e err) (e2 : Bytes) :
    FailsWith m pre (e ++ e2) err := by
  intro post
  have := h (e2 ++ post)
  simp only [List.append_assoc] at this ⊢
  exact this

theorem FailsWith.congr {α : Type} {m : Rd α} {pre e e' : Bytes} {err : PyErr} (h : FailsWith m pre e err)
    (he : e = e') : FailsWith m pre e' err := he ▸ h

theorem FailsWith.lift {α : Type} {r : Res α} {err : PyErr} (pre : Bytes) (h : r = .error err) :
    FailsWith (Rd.lift r) pre [] err := by
  intro post; subst h; rfl

theorem decodeLossy_bad {lossy : Bool} {bs : Bytes} (h : ¬ ∃ w, DecodesTo lossy bs w) :
    decodeLossy lossy bs = .error .unicodeDecodeError := by
  cases hd : decodeLossy lossy bs with
  | ok w => exact absurd ⟨w, decodeLossy_iff.mp hd⟩ h
  | error x =>
    unfold decodeLossy at hd
    split at hd
    · cases hd
    · rw [decode_err hd]

theorem readFtWord_bad {lossy : Bool} {p : Bytes × Int} (h0 : (0 : UInt8) ∉ p.1) (hi : Int64Ok p.2)
    (hd : ¬ ∃ w, DecodesTo lossy p.1 w) (pre : Bytes) :
    FailsWith (readFtWord lossy) pre (ftEntryBytes p) .unicodeDecodeError := by
  unfold readFtWord ftEntryBytes
  have h1 := readDelim_parses h0 pre
  have h2 := readOne_parses 8 (sleNat 8 p.2) (pre ++ (p.1 ++ [0])) (by decide) (by decide)
    (sleNat_lt (by decide) (int64 hi))
  have h3 := readOne_parses 1 0 (pre ++ (p.1 ++ [0]) ++ le 8 (sleNat 8 p.2)) (by decide)
    (by decide) (by decide)
  have h4 : FailsWith (do
      if (0 : Nat) ≠ 0 then Rd.fail .valueError
      Rd.lift (decodeLossy lossy p.1))
      (pre ++ (p.1 ++ [0]) ++ le 8 (sleNat 8 p.2) ++ le 1 0) [] .unicodeDecodeError :=
    FailsWith.lift _ (decodeLossy_bad hd)
  refine (FailsWith.bind h1 (FailsWith.bind h2 (FailsWith.bind_last h3 h4))).congr ?_
  have : le 1 0 = [0] := rfl
  rw [this, sle_eq]
  simp only [List.append_assoc]

theorem readFtWords_bad {lossy : Bool} {ps : List (Bytes × Int)} (h0 : ∀ p ∈ ps, (0 : UInt8) ∉ p.1)
    (hi : ∀ p ∈ ps, Int64Ok p.2) (hd : ∃ p ∈ ps, ¬ ∃ w, DecodesTo lossy p.1 w) (pre : Bytes) :
    FailsWith (readFtWords lossy ps.length) pre (ps.flatMap ftEntryBytes) .unicodeDecodeError := by
  induction ps generalizing pre with
  | nil => obtain ⟨p, hp, _⟩ := hd; cases hp
  | cons p ps ih =>
    rw [List.length_cons, readFtWords, List.flatMap_cons]
    by_cases hp : ∃ w, DecodesTo lossy p.1 w
    · obtain ⟨w, hw⟩ := hp
      refine FailsWith.bind (readFtWord_parses_of (h0 p (by simp)) (hi p (by simp)) (decodeLossy_iff.mpr hw) pre)
        (FailsWith.bind_left (ih (fun q hq => h0 q (List.mem_cons_of_mem _ hq))
          (fun q hq => hi q (List.mem_cons_of_mem _ hq)) ?_ _))
      obtain ⟨q, hq, hbad⟩ := hd
      rcases List.mem_cons.mp hq with rfl | hq
      · exact absurd ⟨w, hw⟩ hbad
      · exact ⟨q, hq, hbad⟩
    · exact (FailsWith.bind_left (readFtWord_bad (h0 p (by simp)) (hi p (by simp)) hp pre)).append _

/-- Words that cannot be read or are not accepted. -/
theorem readFtVocab_bad {lossy : Bool} {L : FtLayout} (hL : L.Fits) (hprune : L.prune < 0) {b mn mx : Int}
    {ix : FtIndexer} (hix : FtIndexer.new b mn mx = .ok ix) {err : PyErr}
    (hd : (err = .unicodeDecodeError ∧ ∃ p ∈ L.entries, ¬ ∃ w, DecodesTo lossy p.1 w) ∨
      ∃ ws, List.Forall₂ (fun p w => decodeLossy lossy p.1 = .ok w) L.entries ws ∧
        Vocab.new ws (some (.ft ix)) = .error err) (pre : Bytes) :
    FailsWith (readFtVocab b mn mx lossy) pre (sle 4 L.nEntries ++ sle 4 L.nWords ++ sle 4 0 ++ sle 8 L.nTokens ++
      sle 8 L.prune ++ L.entries.flatMap ftEntryBytes) err := by
  have hp := readSigned_parses [4, 4, 4] [(4, L.nEntries), (4, L.nWords), (4, 0)] pre rfl
    (by decide) (by decide) (by simp)
    (by
      intro x hx
      simp only [List.mem_cons, List.not_mem_nil, or_false] at hx
      rcases hx with rfl | rfl | rfl
      · exact int32 hL.sizes.1
      · exact int32 hL.sizes.2
      · decide)
  have h2 := fun pre => readOne_parses 8 (sleNat 8 L.nTokens) pre (by decide) (by decide)
    (sleNat_lt (by decide) (int64 hL.longs.1))
  have h3 := fun pre => readOne_parses 8 (sleNat 8 L.prune) pre (by decide) (by decide)
    (sleNat_lt (by decide) (int64 hL.longs.2.1))
  have hsg := toSigned_sleNat (w := 8) (by decide) (int64 hL.longs.2.1)
  unfold readFtVocab
  refine (FailsWith.bind hp (e2 := le 8 (sleNat 8 L.nTokens) ++ (le 8 (sleNat 8 L.prune) ++
    L.entries.flatMap ftEntryBytes)) ?_).congr ?_
  · simp only [List.map_cons, List.map_nil]
    show FailsWith (readOne 8 >>= _) _ _ _
    refine FailsWith.bind (h2 _) (FailsWith.bind (h3 _) ?_)
    have hneg : ¬ (toSigned 8 (sleNat 8 L.prune) ≥ 0) := by
      rw [hsg]; omega
    simp only [hneg, if_false]
    rw [← hL.entries]
    show FailsWith (readFtWords lossy L.entries.length >>= _) _ _ _
    rcases hd with ⟨rfl, hd⟩ | ⟨ws, hws, hv⟩
    · exact FailsWith.bind_left (readFtWords_bad hL.nul hL.freqs hd _)
    · refine FailsWith.bind_last (readFtWords_parses_of hL.nul hL.freqs hws _) ?_
      exact FailsWith.bind_nil (Parses.lift _ hix) (FailsWith.bind_left (FailsWith.lift _ hv))
  · simp only [List.flatMap_cons, List.flatMap_nil, List.append_nil, List.append_assoc, sle_eq]

section
variable {K : Type} [NumOps K] [Codec K]

theorem loadFasttext_bad {lossy : Bool} {L : FtLayout} (hL : L.Fits) (hprune : L.prune < 0) {cfg : FtCfg}
    (hcfg : cfg.Of L.args L.threshold) {ix : FtIndexer} (hix : FtIndexer.new cfg.buckets cfg.minN cfg.maxN = .ok ix)
    {err : PyErr}
    (hd : (err = .unicodeDecodeError ∧ ∃ p ∈ L.entries, ¬ ∃ w, DecodesTo lossy p.1 w) ∨
      ∃ ws, List.Forall₂ (fun p w => decodeLossy lossy p.1 = .ok w) L.entries ws ∧
        Vocab.new ws (some (.ft ix)) = .error err) :
    Rd.run (loadFasttext (K := K) lossy) L.bytes = .error err := by
  have h : FailsWith (loadFasttext (K := K) lossy) [] (FtFile.headerBytes ++ ((L.args.flatMap (sle 4) ++
      le 8 L.threshold.toNat) ++ (sle 4 L.nEntries ++ sle 4 L.nWords ++ sle 4 0 ++ sle 8 L.nTokens ++ sle 8 L.prune ++
          L.entries.flatMap ftEntryBytes))) err := by
    unfold loadFasttext
    exact FailsWith.bind (readFtHeader_parses _) (FailsWith.bind (readFtCfg_parses_of hL.args hcfg _)
      (FailsWith.bind_left (readFtVocab_bad hL hprune hix hd _)))
  have hr := h ([0] ++ sle 8 L.rows ++ sle 8 L.cols ++ L.rest)
  have hbytes : L.bytes = [] ++ (FtFile.headerBytes ++ ((L.args.flatMap (sle 4) ++
      le 8 L.threshold.toNat) ++ (sle 4 L.nEntries ++ sle 4 L.nWords ++ sle 4 0 ++ sle 8 L.nTokens ++ sle 8 L.prune ++
          L.entries.flatMap ftEntryBytes))) ++ ([0] ++ sle 8 L.rows ++ sle 8 L.cols ++ L.rest) := by
    unfold FtLayout.bytes FtFile.headerBytes
    simp only [List.append_assoc, List.nil_append]
  unfold Rd.run
  rw [hbytes]
  have : ([] : Bytes).length = 0 := rfl
  rw [this] at hr
  rw [hr]

/-- The file with another word. -/
theorem ftOK_word {f : FtFile} (hf : f.OK) {i : Nat} {w w' : PyStr} {n : Int} (hi : f.words[i]? = some (w, n))
    (h0 : ∀ c ∈ w', c.val ≠ 0) (hs : w'.any isSurrogate = false) (hn : ((f.words.set i (w', n)).map Prod.fst).Nodup) :
    ({ f with words := f.words.set i (w', n) } : FtFile).OK := by
  obtain ⟨d1, d2, d3, d4, d5, d6, d7, d8, d9, d10, d11⟩ := hf.ints
  refine ⟨⟨d1, d2, d3, d4, d5, d6, d7, d8, d9, d10, ?_⟩, hf.buckets, hf.range, hf.prune, ?_, ?_, ?_, hn, ?_, hf.cols,
    hf.size⟩
  · intro p hp
    rcases List.mem_or_eq_of_mem_set hp with hp | rfl
    · exact d11 p hp
    · exact d11 (w, n) (List.mem_of_getElem? hi)
  · show (f.words.set i (w', n)).length < _
    rw [List.length_set]; exact hf.count
  · intro p hp
    rcases List.mem_or_eq_of_mem_set hp with hp | rfl
    · exact hf.nul p hp
    · exact h0
  · intro p hp
    rcases List.mem_or_eq_of_mem_set hp with hp | rfl
    · exact hf.text p hp
    · exact any_surrogate.mp hs
  · show _ = (f.words.set i (w', n)).length + _
    rw [List.length_set]; exact hf.shape

private theorem forall₂_set {α β : Type} {R : α → β → Prop} {xs : List α} {ys : List β} (h : List.Forall₂ R xs ys)
    {i : Nat} {x : α} {y : β} (hxy : R x y) : List.Forall₂ R (xs.set i x) (ys.set i y) := by
  induction h generalizing i with
  | nil => exact .nil
  | cons hd tl ih =>
    cases i with
    | zero => exact .cons hxy tl
    | succ i => exact .cons hd ih

/-- The words of a file. -/
theorem ftWord_damage {lossy : Bool} {L : FtLayout} {f : FtFile} (hL : L.Fits) (hr : L.Reads lossy f) {i : Nat}
    {w : PyStr} {n : Int} (hi : f.words[i]? = some (w, n)) :
    ∃ pos k, HasAt L.bytes pos k ∧ DecodesTo lossy k w ∧ L.entries[i]? = some (k, n) ∧
      ∀ bs' k', DiffersWithin L.bytes bs' pos (pos + k.length) → k'.length = k.length → HasAt bs' pos k' →
        (0 : UInt8) ∉ k' → ∃ L' : FtLayout, L'.Fits ∧ L'.bytes = bs' ∧ L'.entries = L.entries.set i (k', n) ∧
          L'.prune = L.prune ∧ L'.args = L.args ∧ L'.threshold = L.threshold ∧
          ∀ w', DecodesTo lossy k' w' → L'.Reads lossy { f with words := f.words.set i (w', n) } := by
  have hlen := hr.words.length_eq
  have hlt : i < L.entries.length := by rw [hlen]; exact (List.getElem?_eq_some_iff.mp hi).1
  obtain ⟨k, m, hk⟩ : ∃ k m, L.entries[i]? = some (k, m) := ⟨_, _, List.getElem?_eq_getElem hlt⟩
  have hdec : DecodesTo lossy k w ∧ m = n := by
    have := (List.forall₂_iff_get.mp hr.words).2 i hlt (by omega)
    simp only [List.get_eq_getElem] at this
    rw [(List.getElem?_eq_some_iff.mp hk).2, (List.getElem?_eq_some_iff.mp hi).2] at this
    exact this
  obtain ⟨hdec, rfl⟩ := hdec
  have hsplit : ∀ k', L.entries.set i (k', m) = L.entries.take i ++ ((k', m) :: L.entries.drop (i + 1)) := by
    intro k'
    rw [List.set_eq_take_append_cons_drop, if_pos hlt]
  have hset : L.entries.set i (k, m) = L.entries := by
    rw [← (List.getElem?_eq_some_iff.mp hk).2, List.set_getElem_self]
  obtain ⟨A, B, hAB⟩ : ∃ A B : Bytes, ∀ k', ({ L with entries := L.entries.set i (k', m) } : FtLayout).bytes =
      A ++ (k' ++ B) := by
    refine ⟨sle 4 793712314 ++ sle 4 12 ++ L.args.flatMap (sle 4) ++ le 8 L.threshold.toNat ++
      sle 4 L.nEntries ++ sle 4 L.nWords ++ sle 4 0 ++ sle 8 L.nTokens ++ sle 8 L.prune ++
      (L.entries.take i).flatMap ftEntryBytes, [0] ++ sle 8 m ++ [0] ++ (L.entries.drop (i + 1)).flatMap ftEntryBytes ++
      [0] ++ sle 8 L.rows ++ sle 8 L.cols ++ L.rest, fun k' => ?_⟩
    unfold FtLayout.bytes
    simp only [hsplit, List.flatMap_append, List.flatMap_cons, ftEntryBytes, List.append_assoc]
  have hbs : L.bytes = A ++ (k ++ B) := by rw [← hAB k, hset]
  refine ⟨A.length, k, by rw [hbs]; exact hasAt_mid, hdec, hk, fun bs' k' hd hkl hat h0 => ?_⟩
  obtain ⟨mid, hml, rfl⟩ := split_at hbs hd
  have hmk : mid = k' := by
    unfold HasAt at hat
    rw [List.drop_left] at hat
    exact (List.prefix_of_prefix_length_le (List.prefix_append _ _) hat (by omega)).eq_of_length (by omega)
  subst hmk
  have hmem : ∀ p ∈ L.entries.set i (mid, m), p ∈ L.entries ∨ p = (mid, m) := fun p hp =>
    List.mem_or_eq_of_mem_set hp
  refine ⟨{ L with entries := L.entries.set i (mid, m) }, ⟨hL.count, hL.args, hL.sizes, hL.longs, ?_, ?_, ?_⟩, hAB mid,
    rfl, rfl, rfl, rfl, fun w' hw' => ⟨hr.args, hr.threshold, hr.sizes, ?_, hr.matrix⟩⟩
  · intro p hp
    rcases hmem p hp with h | rfl
    · exact hL.freqs p h
    · exact hL.freqs (k, m) (List.mem_of_getElem? hk)
  · intro p hp
    rcases hmem p hp with h | rfl
    · exact hL.nul p h
    · exact h0
  · show (L.entries.set i (mid, m)).length = _
    rw [List.length_set]; exact hL.entries
  · exact forall₂_set hr.words ⟨hw', rfl⟩

omit [Codec K] in
/-- The other words are as before. -/
theorem ftLoaded_word {f : FtFile} (hf : f.OK) {raw : List (List K)} (hraw : raw.length = f.rows.length) {i : Nat}
    {w w' : PyStr} {n : Int} (hi : f.words[i]? = some (w, n)) {e e' : Embeddings K} (h : FtLoaded f raw e)
    (h' : FtLoaded { f with words := f.words.set i (w', n) } raw e') :
    e'.vocab.words = e.vocab.words.set i w' ∧
    ∀ u, u.any isSurrogate = false → u ≠ w → u ≠ w' →
      e'.embedding u = e.embedding u ∧ e'.embeddingWithNorm u = e.embeddingWithNorm u := by
  obtain ⟨hw, s, b, m, rows, norms, h1, h2, h3, h4, h5, h6⟩ := h
  obtain ⟨hw', s', b', m', rows', norms', h1', h2', h3', h4', h5', h6'⟩ := h'
  simp only [List.length_set, List.map_set] at hw' s' m' h1' h4' h5' h6'
  have hwords : e'.vocab.words = e.vocab.words.set i w' := by rw [hw', hw]
  have hwl : e.vocab.words.length = f.words.length := by rw [hw, List.length_map]
  have hwl' : e'.vocab.words.length = f.words.length := by rw [hwords, List.length_set, hwl]
  have hwi : e.vocab.words[i]? = some w := by rw [hw, List.getElem?_map, hi]; rfl
  refine ⟨hwords, fun u hu hne hne' => ?_⟩
  have hat : ∀ j : Nat, e'.vocab.words[j]? = some u ↔ e.vocab.words[j]? = some u := by
    intro j
    rw [hwords]
    by_cases hj : i = j
    · subst hj
      rw [List.getElem?_set_self (List.getElem?_eq_some_iff.mp hwi).1, hwi]
      simp [Ne.symm hne, Ne.symm hne']
    · rw [List.getElem?_set_ne hj]
  have hone : ∀ j : Nat, e.vocab.words[j]? = some u → rows'[j]? = rows[j]? ∧ norms'[j]? = norms[j]? := by
    intro j hj
    obtain ⟨is, sel, mean, a1, a2, ⟨t, a3, a3'⟩, a4, a5⟩ := h6 j u (by rw [← hw]; exact hj)
    obtain ⟨is', sel', mean', b1, b2, ⟨t', b3, b3'⟩, b4, b5⟩ := h6' j u (by
      have := (hat j).mpr hj
      rw [hw'] at this
      exact this)
    have := ftSubwords_unique a1 b1
    subst this
    have := forall₂_get_unique a2 b2
    subst this
    have := isSum_unique a3 b3
    subst this
    subst a3' b3'
    exact ⟨b5.trans a5.symm, b4.trans a4.symm⟩
  have hgetE : ∀ {α : Type} (xs ys : List α) (j : Nat), xs.length = ys.length → xs[j]? = ys[j]? →
      npGet xs (j : Int) = npGet ys (j : Int) := by
    intro α xs ys j hl hj
    unfold npGet
    rw [hl]
    cases hk : npIndex ys.length (j : Int) with
    | error x => rfl
    | ok k =>
      obtain ⟨hk1, hk2⟩ := npIndex_ok.mp hk
      have : k = j := by omega
      subst this
      show (match xs[k]? with | some x => _ | none => _) = (match ys[k]? with | some x => _ | none => _)
      rw [hj]
  have hrl : rows'.length = rows.length := by omega
  have hnl : norms'.length = norms.length := by omega
  have key : e'.vocab.idx u = e.vocab.idx u ∧ (e.vocab.idx u = .ok none ∨
      ∃ ix, e.vocab.idx u = .ok (some ix) ∧ e'.embed ix = e.embed ix) := by
    unfold Vocab.idx
    rw [s, s']
    simp only
    cases hd : Dict.get? e.vocab.index u with
    | some j =>
      have hj := b.vocab.get.mp hd
      rw [b'.vocab.get.mpr ((hat j).mpr hj)]
      refine ⟨rfl, Or.inr ⟨_, rfl, ?_⟩⟩
      obtain ⟨hr, hn⟩ := hone j hj
      unfold Embeddings.embed
      rw [h1, h1', h2, h2']
      simp only [Storage.getOne]
      rw [hgetE _ _ j hrl hr, hgetE _ _ j hnl hn]
    | none =>
      have hd' : Dict.get? e'.vocab.index u = none := by
        cases hx : Dict.get? e'.vocab.index u with
        | none => rfl
        | some j => rw [b.vocab.get.mpr ((hat j).mp (b'.vocab.get.mp hx))] at hd; cases hd
      rw [hd']
      have hsub : e'.vocab.subwordIndices (.ft ⟨f.buckets, f.minN, f.maxN⟩) u =
          e.vocab.subwordIndices (.ft ⟨f.buckets, f.minN, f.maxN⟩) u := by
        unfold Vocab.subwordIndices
        rw [hwl, hwl']
      obtain ⟨is, g1, g2, g3⟩ := ftSubwords_total b.vocab s (by rw [hwl]; have := hf.count; omega) hu
      rw [hsub, g2]
      simp only [bind, Except.bind]
      refine ⟨trivial, ?_⟩
      split
      · refine Or.inr ⟨_, rfl, ?_⟩
        rw [hwl] at g3
        have hlt : ∀ j ∈ is, j < rows.length := by
          intro j hj
          have := (g3 j hj).2
          rw [h3, hraw, hf.shape]; exact this
        obtain ⟨ys, y1, y2⟩ := npTake_nat hlt
        obtain ⟨ys', y1', y2'⟩ := npTake_nat (xs := rows') (is := is) (fun j hj => by rw [hrl]; exact hlt j hj)
        have : ys' = ys := by
          refine forall₂_get_unique (forall₂_rows (fun j hj => ?_) y2') y2
          rw [h5' j (g3 j hj).1, h5 j (g3 j hj).1]
        unfold Embeddings.embed
        rw [h1, h1']
        simp only [Storage.getMany]
        rw [y1, y1', this]
        rfl
      · exact Or.inl rfl
  unfold Embeddings.embedding Embeddings.embeddingWithNorm
  rw [key.1, h2, h2']
  rcases key.2 with h | ⟨ix, h, he⟩
  · rw [h]; exact ⟨rfl, rfl⟩
  · rw [h]
    simp only [bind, Except.bind]
    rw [he]
    exact ⟨rfl, rfl⟩

end

end FF
