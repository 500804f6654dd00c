import Verif.Lemmas.DamageWord
import Verif.Props.C95
/-! C103: damage to a word in a file changes that word only. -/

namespace FF
open Fifu

theorem set_nodup_iff {ws : List PyStr} (hn : ws.Nodup) {i : Nat} (hi : i < ws.length) (w' : PyStr) :
    (ws.set i w').Nodup ↔ ∀ j, j ≠ i → ws[j]? ≠ some w' := by
  constructor
  · intro h j hj he
    obtain ⟨hlt, _⟩ := List.getElem?_eq_some_iff.mp he
    have h1 : (ws.set i w')[j]? = some w' := by rw [List.getElem?_set_ne (Ne.symm hj)]; exact he
    have h2 : (ws.set i w')[i]? = some w' := List.getElem?_set_self hi
    exact hj ((List.getElem?_inj (by rw [List.length_set]; exact hlt) h).mp (by rw [h1, h2]))
  · intro h
    rw [List.nodup_iff_injective_get]
    rintro ⟨a, ha⟩ ⟨b, hb⟩ hab
    simp only [List.get_eq_getElem] at hab
    rw [List.length_set] at ha hb
    have hget : ∀ j (hj : j < ws.length), j ≠ i → ws[j] ≠ w' := by
      intro j hj hne he
      exact h j hne (by rw [List.getElem?_eq_getElem hj, he])
    rw [List.getElem_set, List.getElem_set] at hab
    apply Fin.ext
    show a = b
    by_cases ha' : i = a
    · by_cases hb' : i = b
      · omega
      · rw [if_pos ha', if_neg hb'] at hab
        exact absurd hab.symm (hget b hb (Ne.symm hb'))
    · by_cases hb' : i = b
      · rw [if_neg ha', if_pos hb'] at hab
        exact absurd hab (hget a ha (Ne.symm ha'))
      · rw [if_neg ha', if_neg hb'] at hab
        exact (List.Nodup.getElem_inj_iff hn).mp hab

private theorem vocabAt_nodup {bs : Bytes} {p rows stop : Nat} {v : Vocab} (h : VocabAt bs p v rows stop) :
    v.words.Nodup := by
  cases h with
  | simple _ _ wat => exact wat.1
  | bucket _ _ wat => exact wat.1
  | fastText _ _ wat => exact wat.1
  | explicit _ _ wat => exact wat.1

/-- On any file that loads, take other bytes in the place of word `i`.  If they are the UTF-8 encoding of a text that
is not one of the other words, the file loads with this text as word `i`, and everything else is as before.  If the
text is one of the other words, loading fails with an `AssertionError`.  If the bytes are not a text, loading fails
with a `UnicodeDecodeError`. -/
theorem C103_word (T : Toml) (mmap : Bool) (bs : Bytes) (e : Embeddings F32)
    (hbs : bs.length + 4 < 2 ^ 63) (h : Rd.run (loadFinalfusion T mmap) bs = .ok e)
    (i : Nat) (w : PyStr) (hi : e.vocab.words[i]? = some w) :
    ∃ pos, HasAt bs pos (utf8 w) ∧ ∀ bs', DiffersWithin bs bs' pos (pos + (utf8 w).length) →
      (∀ w', ReadsWord bs' pos (utf8 w).length w' → (∀ j, j ≠ i → e.vocab.words[j]? ≠ some w') →
        Rd.run (loadFinalfusion T mmap) bs' = .ok { e with vocab := e.vocab.withWord i w' }) ∧
      (∀ w' j, ReadsWord bs' pos (utf8 w).length w' → j ≠ i → e.vocab.words[j]? = some w' →
        Rd.run (loadFinalfusion T mmap) bs' = .error .assertionError) ∧
      ((¬ ∃ w', ReadsWord bs' pos (utf8 w).length w') →
        Rd.run (loadFinalfusion T mmap) bs' = .error .unicodeDecodeError) := by
  obtain ⟨p1, p2, p3, p4, a1, a2, a3, a4, a5, a6⟩ := (loadFinalfusion_iff T mmap bs e hbs).mp h
  have hnd := vocabAt_nodup a3
  have hlt := (List.getElem?_eq_some_iff.mp hi).1
  obtain ⟨pos, v1, v2, v3, v4⟩ := vocab_damage a3 hi
  refine ⟨pos, v3, fun bs' hd => ?_⟩
  obtain ⟨hb, hf, k1, c, k2, k3, k4, k5⟩ := v4 bs' hd
  have hbs' : bs'.length + 4 < 2 ^ 63 := by rw [hd.1]; exact hbs
  have b1 := hb.header a1 (metaAt_le a2)
  have b2 := hb.meta a2 (Nat.le_refl _)
  refine ⟨?_, ?_, ?_⟩
  · intro w' hw' hne
    refine (loadFinalfusion_iff T mmap bs' _ hbs').mpr ⟨p1, p2, p3, p4, b1, b2,
      k1 w' hw' ((set_nodup_iff hnd hlt w').mpr hne), hf.storage a4 (Nat.le_refl _), ?_, ?_⟩
    · show NormsAt bs' p4 (e.vocab.words.set i w').length e.norms
      rw [List.length_set]
      exact hf.norms a5 (storageAt_le a4)
    · intro hm h0
      rw [hf.1]
      exact a6 hm h0
  · intro w' j hw' hj he
    exact load_vocab_error hbs' b1 b2 k2 k3 (k4 w' hw' fun hn => (set_nodup_iff hnd hlt w').mp hn j hj he)
  · intro hno
    exact load_vocab_error hbs' b1 b2 k2 k3 (k5 hno)

/-- The words of the loaded embeddings: the new text has the vector of the word it replaces, and any other text, known
or not, is answered as before. -/
theorem C103_lookup {K : Type} [NumOps K] (e : Embeddings K) (he : BuiltEmb e) (i : Nat) (w w' : PyStr)
    (hi : e.vocab.words[i]? = some w) (hne : ∀ j, j ≠ i → e.vocab.words[j]? ≠ some w') :
    ({ e with vocab := e.vocab.withWord i w' } : Embeddings K).embedding w' = e.embedding w ∧
    (∀ u, u ≠ w → u ≠ w' →
      ({ e with vocab := e.vocab.withWord i w' } : Embeddings K).embedding u = e.embedding u) ∧
    (w ≠ w' → w ∉ (e.vocab.withWord i w').words ∧ (e.vocab.sub = none →
      ({ e with vocab := e.vocab.withWord i w' } : Embeddings K).embedding w = .ok none)) := by
  obtain ⟨hnd, hv⟩ := Vocab.new_ok.mp he.vocab.2
  have hlt := (List.getElem?_eq_some_iff.mp hi).1
  have hnd' := (set_nodup_iff hnd hlt w').mpr hne
  have hidx : e.vocab.index = enumItems e.vocab.words := by rw [hv]
  have hidx' : (e.vocab.withWord i w').index = enumItems (e.vocab.words.set i w') := (enumItems_zipIdx _).symm
  have hemb : ∀ idx, ({ e with vocab := e.vocab.withWord i w' } : Embeddings K).embed idx = e.embed idx :=
    fun _ => rfl
  have hw : Dict.get? e.vocab.index w = some i := by
    rw [hidx]; exact (get?_enumItems hnd).mpr hi
  have hw' : Dict.get? (e.vocab.withWord i w').index w' = some i := by
    rw [hidx']; exact (get?_enumItems hnd').mpr (List.getElem?_set_self hlt)
  have hsub : (e.vocab.withWord i w').sub = e.vocab.sub := rfl
  have hsi : ∀ ix u, (e.vocab.withWord i w').subwordIndices ix u = e.vocab.subwordIndices ix u := by
    intro ix u
    unfold Vocab.subwordIndices
    show ix.indices u ((e.vocab.words.set i w').length) true = _
    rw [List.length_set]
  have hfree : w ≠ w' → w ∉ e.vocab.words.set i w' := by
    intro hww hm
    obtain ⟨j, hj⟩ := List.mem_iff_getElem?.mp hm
    by_cases hji : j = i
    · subst hji
      rw [List.getElem?_set_self hlt] at hj
      exact hww (Option.some.inj hj).symm
    · rw [List.getElem?_set_ne (Ne.symm hji)] at hj
      exact hji ((List.getElem?_inj (List.getElem?_eq_some_iff.mp hj).1 hnd).mp (by rw [hj, hi]))
  refine ⟨?_, ?_, ?_⟩
  · have h1 : (e.vocab.withWord i w').idx w' = .ok (some (.one i)) := by
      unfold Vocab.idx; rw [hw']; cases (e.vocab.withWord i w').sub <;> rfl
    have h2 : e.vocab.idx w = .ok (some (.one i)) := by
      unfold Vocab.idx; rw [hw]; cases e.vocab.sub <;> rfl
    unfold Embeddings.embedding
    rw [h2]
    show ((e.vocab.withWord i w').idx w' >>= _) = _
    rw [h1]
    rfl
  · intro u hu hu'
    have hget : Dict.get? (e.vocab.withWord i w').index u = Dict.get? e.vocab.index u := by
      apply Option.ext
      intro j
      rw [hidx, hidx', get?_enumItems hnd, get?_enumItems hnd']
      by_cases hji : j = i
      · subst hji
        rw [List.getElem?_set_self hlt, hi]
        constructor <;> intro hx <;> exact absurd (Option.some.inj hx).symm (by assumption)
      · rw [List.getElem?_set_ne (Ne.symm hji)]
    have h1 : (e.vocab.withWord i w').idx u = e.vocab.idx u := by
      unfold Vocab.idx
      rw [hget, hsub]
      simp only [hsi]
    unfold Embeddings.embedding
    show ((e.vocab.withWord i w').idx u >>= _) = _
    rw [h1]
    rfl
  · intro hww
    refine ⟨hfree hww, fun hs => ?_⟩
    have h1 : (e.vocab.withWord i w').idx w = .ok none := by
      unfold Vocab.idx
      rw [hsub, hs, hidx', get?_enumItems_none.mpr (hfree hww)]
    unfold Embeddings.embedding
    show ((e.vocab.withWord i w').idx w >>= _) = _
    rw [h1]
    rfl

/-! ### The hypotheses can be met -/

/-- Words `a` and `b`. -/
def C103_sample : Embeddings F32 :=
  ⟨.nd ⟨1, [[0x3F800000], [0x40000000]]⟩, ⟨[[97], [98]], enumItems [[97], [98]], none⟩, none, none⟩

theorem C103_sample_built : BuiltEmb C103_sample :=
  ⟨⟨(by intro ix h; cases h), by decide⟩, ⟨by unfold Mat.WF; decide, by unfold ShapeOk; decide⟩,
    embNew_iff.mpr ⟨rfl, by decide, (by intro _ h; cases h)⟩⟩

/-- The first word with another byte: a `c`, a second `b`, no text. -/
example : ∃ bs pos, (C103_sample.write Sample.toml).file = (.ok (), bs) ∧ bs[pos]? = some 97 ∧
    Rd.run (loadFinalfusion Sample.toml false) (bs.set pos 99) =
      .ok { C103_sample with vocab := ⟨[[99], [98]], [([99], 0), ([98], 1)], none⟩ } ∧
    Rd.run (loadFinalfusion Sample.toml false) (bs.set pos 98) = .error .assertionError ∧
    Rd.run (loadFinalfusion Sample.toml false) (bs.set pos 255) = .error .unicodeDecodeError := by
  have hw : (C103_sample.write Sample.toml).file = (.ok (), (C103_sample.write Sample.toml).file.2) :=
    Sample.file_ok (by decide +kernel)
  have hbs : (C103_sample.write Sample.toml).file.2.length + 4 < 2 ^ 63 := by decide +kernel
  generalize (C103_sample.write Sample.toml).file.2 = bs at hw hbs
  have hl := C01_roundtrip_eq Sample.toml C103_sample bs C103_sample_built (by intro m s h; cases h) hw
    (by intro ix h; cases h)
  obtain ⟨pos, hat, hall⟩ := C103_word Sample.toml false bs _ hbs hl 0 [97] rfl
  have hlen : (utf8 [97]).length = 1 := by decide
  rw [hlen] at hall
  have h0 : bs[pos]? = some 97 := hasAt_iff_get.mp hat 0 (by decide)
  have hlt := (List.getElem?_eq_some_iff.mp h0).1
  have hdiff : ∀ b : UInt8, DiffersWithin bs (bs.set pos b) pos (pos + 1) := fun b =>
    ⟨by simp, fun i hi => List.getElem?_set_ne (by omega)⟩
  have hone : ∀ b : UInt8, (bs.set pos b)[pos]? = some b := fun b => List.getElem?_set_self hlt
  refine ⟨bs, pos, hw, h0, ?_, ?_, ?_⟩
  · refine (hall _ (hdiff 99)).1 [99] ⟨(by intro c hc; rw [List.mem_singleton] at hc; subst hc; exact Or.inl (by decide)), by decide, hasAt_iff_get.mpr ?_⟩ ?_
    · intro i hi
      have : i = 0 := by have : (utf8 [99]).length = 1 := by decide
                         omega
      subst this
      exact hone 99
    · intro j hj
      match j with
      | 0 => exact absurd rfl hj
      | 1 => decide
      | j + 2 => intro h; cases h
  · refine (hall _ (hdiff 98)).2.1 [98] 1 ⟨(by intro c hc; rw [List.mem_singleton] at hc; subst hc; exact Or.inl (by decide)), by decide, hasAt_iff_get.mpr ?_⟩ (by decide) rfl
    intro i hi
    have : i = 0 := by have : (utf8 [98]).length = 1 := by decide
                       omega
    subst this
    exact hone 98
  · refine (hall _ (hdiff 255)).2.2 ?_
    rintro ⟨w', c1, c2, c3⟩
    have h1 : utf8 w' = [255] := by
      obtain ⟨b, hb⟩ := List.length_eq_one_iff.mp c2
      rw [hb] at c3 ⊢
      have := hasAt_iff_get.mp c3 0 (by simp)
      rw [Nat.add_zero, hone 255] at this
      simpa using this.symm
    have h2 := decode_utf8 w' (noSurr_iff.mp c1)
    rw [h1] at h2
    have h3 : decode [255] = .error .unicodeDecodeError := by decide +kernel
    rw [h3] at h2
    cases h2

example : BuiltEmb C103_sample ∧ C103_sample.vocab.words[0]? = some [97] ∧
    (∀ j, j ≠ 0 → C103_sample.vocab.words[j]? ≠ some [99]) ∧
    @Embeddings.embedding F32 b32Ops C103_sample [97] = .ok (some [0x3F800000]) := by
  refine ⟨C103_sample_built, rfl, ?_, by decide +kernel⟩
  intro j hj
  match j with
  | 0 => exact absurd rfl hj
  | 1 => decide
  | j + 2 => intro h; cases h

end FF
