import Verif.Lemmas.DamageW2vWord
import Verif.Props.C103
import Verif.Props.C105
import Verif.Props.C62
import Verif.Lemmas.Word2VecRef
/-! C108: damage to a word in a word2vec file changes that word only. -/

namespace FF
open Fifu

section
variable {K : Type} [NumOps K] [Codec K]

private theorem loadWord2vec_bad {lossy : Bool} {bs body : Bytes} {rows cols : Nat} {err : PyErr}
    (hh : W2vHeader bs (rows : Int) (cols : Int) body) (hs : ShapeOk rows cols) (hne : body ≠ [])
    (hb : ∀ pre, FailsWith (w2vRows (K := K) lossy cols rows) pre body err) :
    Rd.run (loadWord2vec (K := K) lossy) bs = .error err := by
  obtain ⟨l, s1, header, h1, h2, h3, h4⟩ := w2vHeader_to hh
  have : loadWord2vec (K := K) lossy ⟨bs, 0⟩ = .error err := by
    unfold loadWord2vec
    rw [rd_bind_ok h1, rd_bind_ok (by rw [h2]; exact rd_lift_ok _ _),
      rd_bind_ok (by rw [h3]; exact rd_lift_ok _ _),
      rd_bind_ok (by rw [zerosShape_ok hs]; exact rd_lift_ok _ _), rd_bind_error (FailsWith.at hb hne h4)]
  unfold Rd.run
  rw [this]

/-- On any word2vec file that loads, take other bytes, none of them a space, in the place of word `i` and the whitespace
around it.  If they stand for a word that is not one of the other words, the file loads with this word in place `i`, and
everything else is as before.  Otherwise, it does not load: if the word is one of the other words, loading fails with an
`AssertionError`; if the bytes are not a text, loading fails with a `UnicodeDecodeError`. -/
theorem C108_word2vec (lossy : Bool) (bs : Bytes) (e : Embeddings K) (h : Rd.run (loadWord2vec lossy) bs = .ok e)
    (i : Nat) (w : PyStr) (hi : e.vocab.words[i]? = some w) :
    ∃ pos k, HasAt bs pos k ∧ W2vKey lossy k w ∧
      ∀ bs' k', DiffersWithin bs bs' pos (pos + k.length) → k'.length = k.length → HasAt bs' pos k' →
        (32 : UInt8) ∉ k' →
        (∀ e', Rd.run (loadWord2vec lossy) bs' = .ok e' ↔
          ∃ w', W2vKey lossy k' w' ∧ (∀ j, j ≠ i → e.vocab.words[j]? ≠ some w') ∧
            e' = { e with vocab := e.vocab.withWord i w' }) ∧
        (∀ w' j, W2vKey lossy k' w' → j ≠ i → e.vocab.words[j]? = some w' →
          Rd.run (loadWord2vec (K := K) lossy) bs' = .error .assertionError) ∧
        ((¬ ∃ s, DecodesTo lossy k' s) →
          Rd.run (loadWord2vec (K := K) lossy) bs' = .error .unicodeDecodeError) := by
  obtain ⟨cols, body, rs, ⟨line, hl1, hl2, hl3⟩, hbody, hnd, hsh, hno⟩ := (C60_word2vec lossy bs e).mp h
  obtain ⟨n1, n2, n3, n4, n5, n6⟩ := normalized_iff.mp hno
  obtain ⟨v, hwv⟩ : ∃ v, rs[i]? = some (w, v) := by
    rw [n1, List.getElem?_map, Option.map_eq_some_iff] at hi
    obtain ⟨⟨w0, v⟩, h1, rfl⟩ := hi
    exact ⟨v, h1⟩
  have hlt : i < rs.length := (List.getElem?_eq_some_iff.mp hwv).1
  have hbs : bs = utf8 line ++ 10 :: body := by
    rcases hl3 with h | ⟨h, rfl⟩
    · exact h
    · exfalso
      generalize hb : ([] : Bytes) = b at hbody
      cases hbody with
      | nil => simp at hlt
      | row => simp at hb
      | one => simp at hb
  obtain ⟨A, k, B, hb, hk, hall⟩ := w2vBody_word K hsh.cols hbody i w v hwv
  have hshape : ∀ x : Bytes, utf8 line ++ 10 :: (A ++ (x ++ 32 :: B)) = (utf8 line ++ 10 :: A) ++ (x ++ 32 :: B) := by
    intro x; simp
  have hbs2 : bs = (utf8 line ++ 10 :: A) ++ (k ++ 32 :: B) := by rw [hbs, hb, hshape]
  refine ⟨(utf8 line ++ 10 :: A).length, k, by rw [hbs2]; exact hasAt_mid, hk, fun bs' k' hd hkl hat h32 => ?_⟩
  obtain ⟨mid, hml, rfl⟩ := split_at hbs2 hd
  have hmk : mid = k' := by
    unfold HasAt at hat
    rw [List.drop_left] at hat
    exact (List.prefix_of_prefix_length_le (List.prefix_append _ _) hat (by omega)).eq_of_length (by omega)
  subst hmk
  have hnod := set_nodup_iff (ws := e.vocab.words) (by rw [n1]; exact hnd) (i := i) (by rw [n1]; simpa using hlt)
  have hwords : ∀ w', (rs.set i (w', v)).map Prod.fst = e.vocab.words.set i w' := by
    intro w'; rw [List.map_set, n1]
  have hvecs : ∀ w', (rs.set i (w', v)).map (fun p => p.2.map (Codec.ofBits : F32 → K)) =
      rs.map fun p => p.2.map Codec.ofBits := by
    intro w'
    rw [List.map_set]
    apply List.ext_getElem?
    intro j
    by_cases hj : i = j
    · subst hj
      rw [List.getElem?_set_self (by simpa using hlt), List.getElem?_map, hwv]; rfl
    · rw [List.getElem?_set_ne hj]
  have hbuilt : ∀ w', (e.vocab.words.set i w').Nodup → BuiltVocab (e.vocab.withWord i w') := by
    intro w' hn
    refine ⟨fun ix hx => ?_, ?_⟩
    · have : e.vocab.sub = some ix := hx
      rw [n2] at this; cases this
    · exact Vocab.new_iff.mpr ⟨hn, rfl⟩
  have hnorm : ∀ w', (e.vocab.words.set i w').Nodup →
      Normalized cols ((rs.set i (w', v)).map Prod.fst) ((rs.set i (w', v)).map fun p => p.2.map Codec.ofBits)
        { e with vocab := e.vocab.withWord i w' } := by
    intro w' hn
    rw [hvecs, hwords]
    exact normalized_iff.mpr ⟨rfl, n2, hbuilt w' hn, n4, n5, n6⟩
  have hhead : W2vHeader ((utf8 line ++ 10 :: A) ++ (mid ++ 32 :: B)) (rs.length : Int) (cols : Int)
      (A ++ (mid ++ 32 :: B)) := ⟨line, hl1, hl2, Or.inl (hshape mid).symm⟩
  refine ⟨fun e' => ?_, fun w' j hw' hj hdup => ?_, fun hd => ?_⟩
  rotate_left
  · refine loadWord2vec_dup (rs := rs.set i (w', v)) (by rw [List.length_set]; exact hhead)
      (((hall mid h32).1 _ (by simp)).mpr ⟨w', hw', rfl⟩) ?_ (by rw [List.length_set]; exact hsh)
    rw [hwords]
    exact fun hx => (hnod w').mp hx j hj hdup
  · exact loadWord2vec_bad hhead hsh (by simp) ((hall mid h32).2 hd)
  rw [C60_word2vec]
  constructor
  · rintro ⟨cols', body', rs', ⟨line', l1, l2, l3⟩, hbody', hnd', hsh', hno'⟩
    obtain ⟨hline, rfl⟩ := w2vHeader_unique hl1 l1 (hshape mid).symm l3
    have hdims : rs'.length = rs.length ∧ cols' = cols := by
      have : line' = line := by
        have hs : ∀ l : PyStr, (∀ c ∈ l, c.val < 128 ∧ c.val ≠ 10) → l.any isSurrogate = false := by
          intro l hl
          exact any_surrogate.mpr fun c hc => Or.inl (by have := (hl c hc).1; omega)
        have e1 := decode_utf8 line' (hs _ l1)
        rw [hline, decode_utf8 line (hs _ hl1)] at e1
        exact (Except.ok.inj e1).symm
      subst this
      have := (twoInts_iff.mpr l2).symm.trans (twoInts_iff.mpr hl2)
      simp only [Except.ok.injEq, Prod.mk.injEq] at this
      omega
    obtain ⟨hlen, rfl⟩ := hdims
    obtain ⟨w', q1, rfl⟩ := ((hall mid h32).1 rs' hlen).mp hbody'
    rw [hwords] at hnd'
    refine ⟨w', q1, (hnod w').mp hnd', ?_⟩
    have g := normalized_iff.mp (hnorm w' hnd')
    have g' := normalized_iff.mp hno'
    obtain ⟨g1, g2, g3, g4, g5, g6⟩ := g
    obtain ⟨g1', g2', g3', g4', g5', g6'⟩ := g'
    have hv : e'.vocab = e.vocab.withWord i w' := by
      have a := g3'.2
      have b := g3.2
      rw [g1', g2', ← g1, ← g2, b] at a
      exact (Except.ok.inj a).symm
    obtain ⟨st', v', no', md'⟩ := e'
    simp only at hv g4' g5' g6' g4 g5 g6
    simp only [Embeddings.mk.injEq]
    exact ⟨g6'.trans g6.symm, hv, g5'.trans g5.symm, g4'.trans g4.symm⟩
  · rintro ⟨w', q1, q2, rfl⟩
    have hn := (hnod w').mpr q2
    exact ⟨cols, A ++ (mid ++ 32 :: B), rs.set i (w', v), ⟨line, hl1, by rw [List.length_set]; exact hl2,
      Or.inl (hshape mid).symm⟩, ((hall mid h32).1 _ (by simp)).mpr ⟨w', q1, rfl⟩, by rw [hwords]; exact hn,
      by rw [List.length_set]; exact hsh, hnorm w' hn⟩

/-- Lookups in the damaged file: the new word has the vector of the old one, the old word is unknown, and all others are
as before. -/
theorem C108_lookup (lossy : Bool) (bs : Bytes) (e : Embeddings K) (h : Rd.run (loadWord2vec lossy) bs = .ok e)
    (i : Nat) (w w' : PyStr) (hi : e.vocab.words[i]? = some w) (hne : ∀ j, j ≠ i → e.vocab.words[j]? ≠ some w') :
    ({ e with vocab := e.vocab.withWord i w' } : Embeddings K).embedding w' = e.embedding w ∧
    (∀ u, u ≠ w → u ≠ w' →
      ({ e with vocab := e.vocab.withWord i w' } : Embeddings K).embedding u = e.embedding u) ∧
    (w ≠ w' → ({ e with vocab := e.vocab.withWord i w' } : Embeddings K).embedding w = .ok none) := by
  obtain ⟨hb, hs, _⟩ := loadWord2vec_built h
  obtain ⟨h1, h2, h3⟩ := C103_lookup e hb i w w' hi hne
  exact ⟨h1, h2, fun hww => (h3 hww).2 hs⟩

end

/-! ### The hypotheses can be met -/

/-- The file of C105 with another byte as the first word -/
def C108_with (b : UInt8) : Bytes := C105_file.set 4 b

/-- The word `c`, with the vector of `a`; a second `b`; no text -/
example : (∃ e, Rd.run (@loadWord2vec F32 b32Ops _ false) C105_file = .ok e ∧ e.vocab.words[0]? = some [97]) ∧
    (∃ e', Rd.run (@loadWord2vec F32 b32Ops _ false) (C108_with 99) = .ok e' ∧ e'.vocab.words = [[99], [98]] ∧
      e'.storage = .nd ⟨1, [[0x3F800000], [0x3F800000]]⟩ ∧ e'.norms = some [0x3F800000, 0x40000000]) ∧
    Sample.errOf (Rd.run (@loadWord2vec F32 b32Ops _ false) (C108_with 98)) = some .assertionError ∧
    Sample.errOf (Rd.run (@loadWord2vec F32 b32Ops _ false) (C108_with 255)) = some .unicodeDecodeError := by
  have key : ∀ (r : Res (Embeddings F32)) (P : Embeddings F32 → Prop) [DecidablePred P],
      (match r with | .ok e => decide (P e) | .error _ => false) = true → ∃ e, r = .ok e ∧ P e := by
    intro r P _ h
    cases r with
    | error x => simp at h
    | ok e => exact ⟨e, rfl, by simpa using h⟩
  refine ⟨key _ _ (by decide +kernel), key _ (fun e' => e'.vocab.words = [[99], [98]] ∧
      e'.storage = .nd ⟨1, [[0x3F800000], [0x3F800000]]⟩ ∧ e'.norms = some [0x3F800000, 0x40000000]) (by decide +kernel),
    by decide +kernel, by decide +kernel⟩

/-- The bytes of the words: the second one with the newline before it -/
example : W2vKey false [97] [97] ∧ W2vKey false [10, 98] [98] ∧ HasAt C105_file 4 [97] ∧ HasAt C105_file 10 [10, 98] := by
  refine ⟨⟨by decide, [97], decodeLossy_iff.mp (by decide +kernel), stripped_iff.mp (by decide +kernel)⟩,
    ⟨by decide, [10, 98], decodeLossy_iff.mp (by decide +kernel), stripped_iff.mp (by decide +kernel)⟩, ?_, ?_⟩ <;>
  · unfold HasAt; decide

end FF
