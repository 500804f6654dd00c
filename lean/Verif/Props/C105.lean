import Verif.Lemmas.DamageW2v
import Verif.Props.C60
import Verif.Props.C97
import Verif.Model.Float32
/-! C105: damage to a vector in a word2vec file changes that vector only. -/

namespace FF
open Fifu

section
variable {K : Type} [NumOps K] [Codec K]

/-- On any word2vec file that loads, other bytes in the place of the vector of word `i` are loaded as another vector of
this word, with its norm.  Words, other vectors and other norms are as before. -/
theorem C105_word2vec (lossy : Bool) (bs : Bytes) (e : Embeddings K)
    (h : Rd.run (loadWord2vec lossy) bs = .ok e) :
    ∃ cols rows ns, e.storage = .nd ⟨cols, rows⟩ ∧ e.norms = some ns ∧ rows.length = e.vocab.words.length ∧
      ns.length = e.vocab.words.length ∧
      ∀ i, i < e.vocab.words.length → ∃ pos len v, VecAt bs pos cols v len ∧
        rows[i]? = some (vdiv (v.map Codec.ofBits) (NumOps.normAxis (v.map Codec.ofBits))) ∧
        ns[i]? = some (NumOps.normAxis (v.map Codec.ofBits)) ∧
        ∀ bs', DiffersWithin bs bs' pos (pos + len) → ∃ v', VecAt bs' pos cols v' len ∧
          Rd.run (loadWord2vec lossy) bs' = .ok { e with
            storage := .nd ⟨cols, rows.set i (vdiv (v'.map Codec.ofBits) (NumOps.normAxis (v'.map Codec.ofBits)))⟩
            norms := some (ns.set i (NumOps.normAxis (v'.map Codec.ofBits))) } := by
  obtain ⟨cols, body, rs, ⟨line, hl1, hl2, hl3⟩, hbody, hnd, hsh, hno⟩ := (C60_word2vec lossy bs e).mp h
  obtain ⟨n1, n2, n3, n4, n5, n6⟩ := normalized_iff.mp hno
  have hlen : e.vocab.words.length = rs.length := by rw [n1, List.length_map]
  refine ⟨cols, _, _, n6, n5, by simp [hlen], by simp [hlen], ?_⟩
  intro i hi
  rw [hlen] at hi
  obtain ⟨⟨w, v⟩, hwv⟩ : ∃ p, rs[i]? = some p := ⟨_, List.getElem?_eq_getElem hi⟩
  have hbs : bs = utf8 line ++ 10 :: body := by
    rcases hl3 with h | ⟨h, rfl⟩
    · exact h
    · exfalso
      generalize hb : ([] : Bytes) = b at hbody
      cases hbody with
      | nil => simp at hi
      | row => simp at hb
      | one => simp at hb
  have hpre : ∀ b : Bytes, utf8 line ++ 10 :: b = (utf8 line ++ [10]) ++ b := by intro b; simp
  obtain ⟨pos, len, _, hva, hall⟩ := w2vBody_damage hbody (utf8 line ++ [10]) i w v hwv
  rw [← hpre, ← hbs] at hva hall
  refine ⟨pos, len, v, hva, ?_, ?_, ?_⟩
  · rw [List.getElem?_map, List.getElem?_map, hwv]; rfl
  · rw [List.getElem?_map, List.getElem?_map, hwv]; rfl
  · intro bs' hd
    obtain ⟨v', body', hb', hva', hbody'⟩ := hall bs' hd
    have hw : (rs.set i (w, v')).map Prod.fst = rs.map Prod.fst := by
      rw [List.map_set]
      apply List.ext_getElem?
      intro j
      by_cases hj : i = j
      · subst hj
        rw [List.getElem?_set_self (by simpa using hi), List.getElem?_map, hwv]; rfl
      · rw [List.getElem?_set_ne hj]
    refine ⟨v', hva', (C60_word2vec lossy bs' _).mpr ⟨cols, body', rs.set i (w, v'),
      ⟨line, hl1, by rw [List.length_set]; exact hl2, Or.inl (by rw [hpre]; exact hb')⟩, hbody', by rw [hw]; exact hnd,
      by rw [List.length_set]; exact hsh, ?_⟩⟩
    rw [hw]
    refine normalized_iff.mpr ⟨n1, n2, n3, n4, ?_, ?_⟩
    · show some _ = some _
      rw [List.map_set, List.map_set]
    · show Storage.nd _ = Storage.nd _
      rw [List.map_set, List.map_set]
      rfl

omit [Codec K] in
/-- The other words: their vectors and norms are as before, and unknown words stay unknown. -/
theorem C105_others (e : Embeddings K) (he : BuiltVocab e.vocab) (hs : e.vocab.sub = none) (cols : Nat)
    (rows : List (List K)) (ns : List K) (hst : e.storage = .nd ⟨cols, rows⟩) (hns : e.norms = some ns)
    (i : Nat) (r : List K) (n : K) (u : PyStr) (hu : e.vocab.words[i]? ≠ some u) :
    ({ e with storage := .nd ⟨cols, rows.set i r⟩, norms := some (ns.set i n) } : Embeddings K).embedding u =
      e.embedding u ∧
    ({ e with storage := .nd ⟨cols, rows.set i r⟩, norms := some (ns.set i n) } : Embeddings K).embeddingWithNorm u =
      e.embeddingWithNorm u := by
  have hget : ∀ {α : Type} (xs : List α) (x : α) (j : Nat), j ≠ i → npGet (xs.set i x) (j : Int) = npGet xs (j : Int) := by
    intro α xs x j hj
    cases hx : xs[j]? with
    | some y =>
      rw [npGet_nat.mpr hx]
      exact npGet_nat.mpr (by rw [List.getElem?_set_ne (Ne.symm hj)]; exact hx)
    | none =>
      unfold npGet
      rw [List.length_set]
      cases hk : npIndex xs.length (j : Int) with
      | error x => rfl
      | ok k =>
        show (match (xs.set i x)[k]? with | some x => _ | none => _) = (match xs[k]? with | some x => _ | none => _)
        have hge := List.getElem?_eq_none_iff.mp hx
        obtain ⟨hk1, hk2⟩ := npIndex_ok.mp hk
        omega
  have hemb : ∀ j : Nat, j ≠ i →
      ({ e with storage := .nd ⟨cols, rows.set i r⟩, norms := some (ns.set i n) } : Embeddings K).embed (.one j) =
        e.embed (.one j) := by
    intro j hj
    unfold Embeddings.embed
    rw [hst, hns]
    simp only [Storage.getOne]
    rw [hget rows r j hj, hget ns n j hj]
  have hidx : e.vocab.idx u = .ok none ∨ ∃ j, j ≠ i ∧ e.vocab.idx u = .ok (some (.one j)) := by
    unfold Vocab.idx
    rw [hs]
    cases hd : Dict.get? e.vocab.index u with
    | none => exact Or.inl rfl
    | some j =>
      refine Or.inr ⟨j, ?_, rfl⟩
      rintro rfl
      exact hu (he.get.mp hd)
  unfold Embeddings.embedding Embeddings.embeddingWithNorm
  rw [hns]
  rcases hidx with h | ⟨j, hj, h⟩
  · rw [h]; exact ⟨rfl, rfl⟩
  · rw [h]
    simp only [bind, Except.bind]
    rw [hemb j hj]
    exact ⟨rfl, rfl⟩

end

/-! ### The hypotheses can be met -/

/-- `a` with the vector `1.0`, `b` with the vector `2.0` -/
def C105_file : Bytes := [50, 32, 49, 10, 97, 32, 0, 0, 128, 63, 10, 98, 32, 0, 0, 0, 64, 10]

/-- The sign of the first number is flipped: the vector of `a` turns around, that of `b` does not. -/
example : ∃ e e', Rd.run (@loadWord2vec F32 b32Ops _ false) C105_file = .ok e ∧
    e.vocab.words = [[97], [98]] ∧ e.vocab.sub = none ∧
    e.storage = .nd ⟨1, [[0x3F800000], [0x3F800000]]⟩ ∧ e.norms = some [0x3F800000, 0x40000000] ∧
    Rd.run (@loadWord2vec F32 b32Ops _ false) (C105_file.set 9 191) = .ok e' ∧
    e'.vocab.words = [[97], [98]] ∧ e'.storage = .nd ⟨1, [[0xBF800000], [0x3F800000]]⟩ ∧
    e'.norms = some [0x3F800000, 0x40000000] := by
  have key : ∀ (r : Res (Embeddings F32)) (P : Embeddings F32 → Prop) [DecidablePred P],
      (match r with | .ok e => decide (P e) | .error _ => false) = true → ∃ e, r = .ok e ∧ P e := by
    intro r P _ h
    cases r with
    | error x => simp at h
    | ok e => exact ⟨e, rfl, by simpa using h⟩
  obtain ⟨e, h1, h2⟩ := key (Rd.run (@loadWord2vec F32 b32Ops _ false) C105_file)
    (fun e => e.vocab.words = [[97], [98]] ∧ e.vocab.sub = none ∧
      e.storage = .nd ⟨1, [[0x3F800000], [0x3F800000]]⟩ ∧ e.norms = some [0x3F800000, 0x40000000])
    (by decide +kernel)
  obtain ⟨e', h3, h4⟩ := key (Rd.run (@loadWord2vec F32 b32Ops _ false) (C105_file.set 9 191))
    (fun e => e.vocab.words = [[97], [98]] ∧ e.storage = .nd ⟨1, [[0xBF800000], [0x3F800000]]⟩ ∧
      e.norms = some [0x3F800000, 0x40000000]) (by decide +kernel)
  exact ⟨e, e', h1, h2.1, h2.2.1, h2.2.2.1, h2.2.2.2, h3, h4⟩

/-- A file that is cut off after the first component. -/
example : VecAt [97, 32, 0, 0, 128, 63, 7] 2 3 [0x3F800000, 0x3F800000, 0x3F800000] 4 :=
  ⟨rfl, Or.inr ⟨by decide, rfl, by decide, 0x3F800000, rfl, by unfold HasAt; decide⟩⟩

end FF
