import Verif.Lemmas.DamageNgram
import Verif.Props.C103
/-! C113: damage to an n-gram in a file changes that n-gram only. -/

namespace FF
open Fifu

/-- On any file with an explicit vocabulary that loads, take other bytes in the place of n-gram `i`.  If they are the
UTF-8 encoding of a text that is not one of the other n-grams, the file loads with this text as n-gram `i`, and
everything else is as before.  If the text is one of the other n-grams, loading fails with an `AssertionError`.  If the
bytes are not a text, loading fails with a `UnicodeDecodeError`. -/
theorem C113_ngram (T : Toml) (mmap : Bool) (bs : Bytes) (e : Embeddings F32)
    (hbs : bs.length + 4 < 2 ^ 63) (h : Rd.run (loadFinalfusion T mmap) bs = .ok e)
    (ix : ExplIndexer) (hix : e.vocab.sub = some (.expl ix)) (i : Nat) (g : PyStr) (hi : ix.ngrams[i]? = some g) :
    ∃ pos, HasAt bs pos (utf8 g) ∧ ∀ bs', DiffersWithin bs bs' pos (pos + (utf8 g).length) →
      (∀ g', ReadsWord bs' pos (utf8 g).length g' → (∀ j, j ≠ i → ix.ngrams[j]? ≠ some g') →
        Rd.run (loadFinalfusion T mmap) bs' =
          .ok { e with vocab := { e.vocab with sub := some (.expl (ix.withNgram i g')) } }) ∧
      (∀ g' j, ReadsWord bs' pos (utf8 g).length g' → j ≠ i → ix.ngrams[j]? = some g' →
        Rd.run (loadFinalfusion T mmap) bs' = .error .assertionError) ∧
      ((¬ ∃ g', ReadsWord bs' pos (utf8 g).length g') →
        Rd.run (loadFinalfusion T mmap) bs' = .error .unicodeDecodeError) := by
  obtain ⟨p1, p2, p3, p4, a1, a2, a3, a4, a5, a6⟩ := (loadFinalfusion_iff T mmap bs e hbs).mp h
  have hlt := (List.getElem?_eq_some_iff.mp hi).1
  obtain ⟨hnd, pos, v1, v2, v3, v4⟩ := vocab_ngram a3 hix hi
  refine ⟨pos, v3, fun bs' hd => ?_⟩
  obtain ⟨hb, hf, k1, c, k2, k3, k4, k5⟩ := v4 bs' hd
  have hbs' : bs'.length + 4 < 2 ^ 63 := by rw [hd.1]; exact hbs
  have b1 := hb.header a1 (metaAt_le a2)
  have b2 := hb.meta a2 (Nat.le_refl _)
  refine ⟨?_, ?_, ?_⟩
  · intro g' hg' hne
    refine (loadFinalfusion_iff T mmap bs' _ hbs').mpr ⟨p1, p2, p3, p4, b1, b2,
      k1 g' hg' ((set_nodup_iff hnd hlt g').mpr hne), hf.storage a4 (Nat.le_refl _),
      hf.norms a5 (storageAt_le a4), ?_⟩
    intro hm h0
    rw [hf.1]
    exact a6 hm h0
  · intro g' j hg' hj he
    exact load_vocab_error hbs' b1 b2 k2 k3 (k4 g' hg' fun hn => (set_nodup_iff hnd hlt g').mp hn j hj he)
  · intro hno
    exact load_vocab_error hbs' b1 b2 k2 k3 (k5 hno)

/-- The index of a loaded vocabulary lists the n-grams in order, without repetition. -/
theorem C113_ordered (T : Toml) (mmap : Bool) (bs : Bytes) (e : Embeddings F32)
    (hbs : bs.length + 4 < 2 ^ 63) (h : Rd.run (loadFinalfusion T mmap) bs = .ok e)
    (ix : ExplIndexer) (hix : e.vocab.sub = some (.expl ix)) :
    ix.index.map Prod.fst = ix.ngrams ∧ ix.ngrams.Nodup := by
  obtain ⟨p1, p2, p3, p4, a1, a2, a3, a4, a5, a6⟩ := (loadFinalfusion_iff T mmap bs e hbs).mp h
  generalize e.vocab = v at a3 hix
  generalize e.storage.nRows = rows at a3
  cases a3 with
  | simple => cases hix
  | bucket => cases hix
  | fastText => cases hix
  | explicit _ _ _ _ _ _ _ nodup =>
    cases hix
    refine ⟨?_, nodup⟩
    rw [List.map_map]
    rfl

/-- The new n-gram has the index of the one it replaces, which has none any more, and any other text has the index that
it had. -/
theorem C113_call (ix : ExplIndexer) (hord : ix.index.map Prod.fst = ix.ngrams) (hnd : ix.ngrams.Nodup)
    (i : Nat) (g g' : PyStr) (hi : ix.ngrams[i]? = some g) (hne : ∀ j, j ≠ i → ix.ngrams[j]? ≠ some g') :
    (ix.withNgram i g').call g' = ix.call g ∧ (ix.call g).isSome ∧
    (g ≠ g' → (ix.withNgram i g').call g = none) ∧
    ∀ u, u ≠ g → u ≠ g' → (ix.withNgram i g').call u = ix.call u := by
  have hlt := (List.getElem?_eq_some_iff.mp hi).1
  obtain ⟨k, hk⟩ : ∃ k, ix.index[i]? = some (g, k) := by
    rw [← hord, List.getElem?_map] at hi
    obtain ⟨⟨g0, k⟩, h1, h2⟩ := Option.map_eq_some_iff.mp hi
    cases h2
    exact ⟨k, h1⟩
  have hk1 : ix.call g = some k := Dict.get?_of_mem (by show (ix.index.map Prod.fst).Nodup; rw [hord]; exact hnd)
    (List.mem_of_getElem? hk)
  have hkeys : Dict.keys (ix.withNgram i g').index = ix.ngrams.set i g' := by
    show (ix.index.modify i fun p => (g', p.2)).map Prod.fst = _
    rw [keys_modify, hord]
  refine ⟨?_, by rw [hk1]; rfl, fun hgg => ?_, fun u hu hu' => get?_modify_key hu hu' hk⟩
  · rw [hk1]
    refine Dict.get?_of_mem (by rw [hkeys]; exact (set_nodup_iff hnd hlt g').mpr hne) ?_
    refine List.mem_of_getElem? (i := i) ?_
    show (ix.index.modify i fun p => (g', p.2))[i]? = _
    rw [List.getElem?_modify, hk]
    simp
  · refine Dict.get?_eq_none.mpr ?_
    rw [hkeys]
    intro hm
    obtain ⟨j, hj⟩ := List.mem_iff_getElem?.mp hm
    by_cases hji : j = i
    · subst hji
      rw [List.getElem?_set_self hlt] at hj
      exact hgg (Option.some.inj hj).symm
    · rw [List.getElem?_set_ne (Ne.symm hji)] at hj
      exact hji ((List.getElem?_inj (List.getElem?_eq_some_iff.mp hj).1 hnd).mp (by rw [hj, hi]))

/-- The words of the vocabulary keep their vectors and norms. -/
theorem C113_words {K : Type} [NumOps K] (e : Embeddings K) (he : BuiltEmb e) (ix : ExplIndexer)
    (hix : e.vocab.sub = some (.expl ix)) (i : Nat) (g' w : PyStr) (hw : w ∈ e.vocab.words) :
    ({ e with vocab := { e.vocab with sub := some (.expl (ix.withNgram i g')) } } : Embeddings K).embedding w =
      e.embedding w ∧
    ({ e with vocab := { e.vocab with sub := some (.expl (ix.withNgram i g')) } } : Embeddings K).embeddingWithNorm w =
      e.embeddingWithNorm w := by
  obtain ⟨hnd, hv⟩ := Vocab.new_ok.mp he.vocab.2
  obtain ⟨j, hj⟩ := List.mem_iff_getElem?.mp hw
  have hget : Dict.get? e.vocab.index w = some j := by
    rw [show e.vocab.index = enumItems e.vocab.words by rw [hv]]
    exact (get?_enumItems hnd).mpr hj
  have h1 : ({ e.vocab with sub := some (.expl (ix.withNgram i g')) } : Vocab).idx w = e.vocab.idx w := by
    unfold Vocab.idx
    simp only [hget, hix]
  constructor
  · unfold Embeddings.embedding
    show (({ e.vocab with sub := some (.expl (ix.withNgram i g')) } : Vocab).idx w >>= _) = _
    rw [h1]
    rfl
  · unfold Embeddings.embeddingWithNorm
    show (match e.norms with
      | none => _
      | some _ => ({ e.vocab with sub := some (.expl (ix.withNgram i g')) } : Vocab).idx w >>= _) = _
    rw [h1]
    rfl

/-! ### The hypotheses can be met -/

/-- The word `w`, the n-grams `a` and `b`, and a matrix with three rows. -/
def C113_file : Bytes :=
  header [8, 2] ++ chunk 8 0 (uint 8 1 ++ uint 8 2 ++ uint 4 1 ++ uint 4 1 ++ str [119] ++ str [97] ++ uint 8 0 ++
    str [98] ++ uint 8 1) ++ chunk 2 0 (uint 8 3 ++ uint 4 1 ++ uint 4 10 ++ zero 1 ++ floats [1, 2, 3])

/-- The n-grams of explicit vocabularies. -/
def C113_ngrams (e : Embeddings F32) : List PyStr :=
  match e.vocab.sub with
  | some (.expl ix) => ix.ngrams
  | _ => []

/-- The n-gram `a` with another byte: a `c`, a second `b`, no text. -/
example : ∃ pos e e', C113_file[pos]? = some 97 ∧
    Rd.run (loadFinalfusion Sample.toml false) C113_file = .ok e ∧ C113_ngrams e = [[97], [98]] ∧
    Rd.run (loadFinalfusion Sample.toml false) (C113_file.set pos 99) = .ok e' ∧ C113_ngrams e' = [[99], [98]] ∧
    Rd.run (loadFinalfusion Sample.toml false) (C113_file.set pos 98) = .error .assertionError ∧
    Rd.run (loadFinalfusion Sample.toml false) (C113_file.set pos 255) = .error .unicodeDecodeError := by
  have key : ∀ (r : Res (Embeddings F32)),
      (match r with | .ok e => decide (C113_ngrams e = [[97], [98]]) | .error _ => false) = true →
      ∃ e, r = .ok e ∧ C113_ngrams e = [[97], [98]] := by
    intro r h
    cases r with
    | error x => simp at h
    | ok e => exact ⟨e, rfl, by simpa using h⟩
  obtain ⟨e, hl, hg⟩ := key (Rd.run (loadFinalfusion Sample.toml false) C113_file) (by decide +kernel)
  have hbs : C113_file.length + 4 < 2 ^ 63 := by decide +kernel
  generalize C113_file = bs at hl hbs
  have hix : ∃ ix, e.vocab.sub = some (.expl ix) ∧ ix.ngrams = [[97], [98]] := by
    unfold C113_ngrams at hg
    split at hg
    · rename_i ix h
      exact ⟨ix, h, hg⟩
    · cases hg
  obtain ⟨ix, hix, hgs⟩ := hix
  obtain ⟨pos, hat, hall⟩ := C113_ngram Sample.toml false bs _ hbs hl ix hix 0 [97] (by rw [hgs]; rfl)
  have hlen : (utf8 [97]).length = 1 := by decide
  rw [hlen] at hall
  have h0 : bs[pos]? = some 97 := hasAt_iff_get.mp hat 0 (by decide)
  have hlt := (List.getElem?_eq_some_iff.mp h0).1
  have hdiff : ∀ b : UInt8, DiffersWithin bs (bs.set pos b) pos (pos + 1) := fun b =>
    ⟨by simp, fun i hi => List.getElem?_set_ne (by omega)⟩
  have hone : ∀ b : UInt8, (bs.set pos b)[pos]? = some b := fun b => List.getElem?_set_self hlt
  refine ⟨pos, e, _, h0, hl, hg, (hall _ (hdiff 99)).1 [99] ⟨?_, by decide, hasAt_iff_get.mpr ?_⟩ ?_, ?_,
    (hall _ (hdiff 98)).2.1 [98] 1 ⟨?_, by decide, hasAt_iff_get.mpr ?_⟩ (by decide) (by rw [hgs]; rfl),
    (hall _ (hdiff 255)).2.2 ?_⟩
  · intro c hc; rw [List.mem_singleton] at hc; subst hc; exact Or.inl (by decide)
  · intro i hi
    have : i = 0 := by have : (utf8 [99]).length = 1 := by decide
                       omega
    subst this
    exact hone 99
  · intro j hj
    rw [hgs]
    match j with
    | 0 => exact absurd rfl hj
    | 1 => decide
    | j + 2 => intro h; cases h
  · show ix.ngrams.set 0 [99] = _
    rw [hgs]
    rfl
  · intro c hc; rw [List.mem_singleton] at hc; subst hc; exact Or.inl (by decide)
  · intro i hi
    have : i = 0 := by have : (utf8 [98]).length = 1 := by decide
                       omega
    subst this
    exact hone 98
  · rintro ⟨w', c1, c2, c3⟩
    have h1 : utf8 w' = [255] := by
      obtain ⟨b, hb⟩ := List.length_eq_one_iff.mp c2
      rw [hb] at c3 ⊢
      have := hasAt_iff_get.mp c3 0 (by simp)
      rw [Nat.add_zero, hone 255] at this
      simpa using this.symm
    have h2 := decode_utf8 w' (noSurr_iff.mp c1)
    rw [h1] at h2
    have h3 : decode [255] = .error .unicodeDecodeError := by decide +kernel
    rw [h3] at h2
    cases h2

/-- The n-gram `a` becomes `c`. -/
example : let ix : ExplIndexer := ⟨[[97], [98]], 1, 1, [([97], 0), ([98], 1)], 2⟩
    ix.index.map Prod.fst = ix.ngrams ∧ ix.ngrams.Nodup ∧ ix.ngrams[0]? = some [97] ∧ [99] ∉ ix.ngrams ∧
      ix.call [97] = some 0 ∧ (ix.withNgram 0 [99]).call [99] = some 0 ∧ (ix.withNgram 0 [99]).call [98] = some 1 := by
  decide

/-- Embeddings with an explicit vocabulary -/
example : BuiltEmb Sample.embExpl ∧ Sample.embExpl.vocab.sub = some (.expl Sample.explIx) ∧
    [97] ∈ Sample.embExpl.vocab.words := ⟨Sample.builtEmbExpl, rfl, by decide⟩

end FF
