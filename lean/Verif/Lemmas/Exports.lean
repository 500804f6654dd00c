import Verif.Lemmas.FastTextWrite
import Verif.Lemmas.Text
/-! When exports raise, and what they leave behind. -/

namespace FF

theorem wr_bind_err {α β : Type} {w : Wr α} {f : α → Wr β} {s s'' : Bytes} {x : PyErr}
    (h : (w >>= f) s = (.error x, s'')) :
    w s = (.error x, s'') ∨ ∃ a s', w s = (.ok a, s') ∧ f a s' = (.error x, s'') := by
  rw [wr_bind] at h
  cases hw : w s with
  | mk r s' =>
    rw [hw] at h
    cases r with
    | error e => cases h; exact .inl rfl
    | ok a => exact .inr ⟨a, s', rfl, h⟩

theorem wr_lift_err {α : Type} {r : Res α} {x : PyErr} {s s' : Bytes}
    (h : Wr.lift r s = (.error x, s')) : r = .error x ∧ s' = s := by
  cases h; exact ⟨rfl, rfl⟩

theorem wr_bytes_err {bs s s' : Bytes} {x : PyErr} (h : Wr.bytes bs s = (.error x, s')) :
    x = .osError := by
  unfold Wr.bytes at h
  split at h
  · cases h
  · cases h; rfl

theorem encode_err_iff {w : PyStr} {x : PyErr} :
    encode w = .error x ↔ w.any isSurrogate = true ∧ x = .unicodeEncodeError := by
  unfold encode
  split
  · rename_i h
    simp only [h, true_and]
    constructor
    · intro h; cases h; rfl
    · rintro rfl; rfl
  · rename_i h
    simp [h]

section
variable {K : Type} [NumOps K]

/-! ### Exported rows -/

theorem exportRow_err {e : Embeddings K} {s : Storage K} {i : Nat} {x : PyErr}
    (he : BuiltEmb e) (hs : s.getOne i = e.storage.getOne i)
    (h : exportRow s e.norms i = .error x) : x = .indexError ∧ ¬ ∃ v, Exported e i v := by
  refine ⟨?_, ?_⟩
  · unfold exportRow at h
    cases h1 : s.getOne (i : Int) with
    | error y => rw [h1] at h; cases h; exact getOne_err h1
    | ok r =>
      rw [h1, res_bind_ok] at h
      cases hn : e.norms with
      | none => rw [hn] at h; cases h
      | some ns =>
        rw [hn] at h
        simp only at h
        cases h2 : npGet ns (i : Int) with
        | error y => rw [h2] at h; cases h; exact (npGet_err h2).1
        | ok z => rw [h2] at h; cases h
  · rintro ⟨v, hv⟩
    rw [(exportRow_ok he hs).mpr hv] at h
    cases h

/-- Only the row can be missing. -/
theorem exported_iff_stored {e : Embeddings K} (he : BuiltEmb e) {i : Nat}
    (hi : i < e.vocab.words.length) : (∃ v, Exported e i v) ↔ ∃ r, StoredRow e.storage i r := by
  constructor
  · rintro ⟨v, row, h, _⟩
    exact ⟨row, h⟩
  · rintro ⟨row, hr⟩
    cases hn : e.norms with
    | none => exact ⟨row, row, hr, by rw [hn]⟩
    | some ns =>
      have hl := ((embNew_iff.mp he.new).2.2 ns hn).2
      rw [he.vocab.len] at hl
      refine ⟨row.map fun x => NumOps.mul x (ns[i]'(by omega)), row, hr, ?_⟩
      rw [hn]
      exact ⟨ns[i]'(by omega), List.getElem?_eq_getElem _, by simp, fun t x hx => by simp [hx]⟩

/-! ### word2vec -/

section
variable [Codec K]

theorem w2vWriteRows_length {m : Storage K} {norms : Option (List K)} {words : List PyStr} {i : Nat}
    {s s' : Bytes} {u : Unit} (hs : s.length < maxSize)
    (h : w2vWriteRows m norms i words s = (.ok u, s')) : s'.length < maxSize := by
  induction words generalizing i s with
  | nil => obtain ⟨_, rfl⟩ := wr_pure_inv h; exact hs
  | cons w ws ih =>
    rw [w2vWriteRows] at h
    obtain ⟨v, s1, h1, k1⟩ := wr_bind_inv h
    obtain ⟨b, s2, h2, k2⟩ := wr_bind_inv k1
    obtain ⟨_, s3, h3, k3⟩ := wr_bind_inv k2
    obtain ⟨_, s4, h4, k4⟩ := wr_bind_inv k3
    obtain ⟨_, s5, h5, k5⟩ := wr_bind_inv k4
    obtain ⟨_, s6, h6, k6⟩ := wr_bind_inv k5
    obtain ⟨rfl, hl⟩ := wr_bytes_inv h6
    exact ih hl k6

/-- The entries of a word2vec file. -/
def w2vEntries (ws : List PyStr) (vs : List (List K)) : Bytes :=
  (ws.zip (vs.map fun v => v.map Codec.bits)).flatMap
    fun p => utf8 p.1 ++ [32] ++ f32sLE p.2 ++ [10]

theorem w2vWriteRows_err {m : Storage K} {norms : Option (List K)} {words : List PyStr} {i : Nat}
    {s s' : Bytes} {x : PyErr} (h : w2vWriteRows m norms i words s = (.error x, s')) :
    x = .osError ∨ ∃ (k : Nat) (w : PyStr) (vs : List (List K)), words[k]? = some w ∧ vs.length = k ∧
      (∀ (j : Nat) v, vs[j]? = some v → exportRow m norms (i + j) = .ok v) ∧
      (∀ w' ∈ words.take k, w'.any isSurrogate = false) ∧
      s' = s ++ w2vEntries (words.take k) vs ∧
      (exportRow m norms (i + k) = .error x ∨ (∃ v, exportRow m norms (i + k) = .ok v) ∧
        w.any isSurrogate = true ∧ x = .unicodeEncodeError) := by
  induction words generalizing i s with
  | nil => cases h
  | cons w ws ih =>
    rw [w2vWriteRows] at h
    rcases wr_bind_err h with h1 | ⟨v, s1, h1, k1⟩
    · obtain ⟨q1, rfl⟩ := wr_lift_err h1
      exact .inr ⟨0, w, [], rfl, rfl, by simp, by simp, by simp [w2vEntries], .inl q1⟩
    obtain ⟨hv, rfl⟩ := wr_lift_inv h1
    rcases wr_bind_err k1 with h2 | ⟨b, s2, h2, k2⟩
    · obtain ⟨q2, rfl⟩ := wr_lift_err h2
      exact .inr ⟨0, w, [], rfl, rfl, by simp, by simp, by simp [w2vEntries],
        .inr ⟨⟨v, hv⟩, encode_err_iff.mp q2⟩⟩
    obtain ⟨hb, rfl⟩ := wr_lift_inv h2
    obtain ⟨rfl, hsur⟩ := encode_ok hb
    rcases wr_bind_err k2 with h3 | ⟨_, s3, h3, k3⟩
    · exact .inl (wr_bytes_err h3)
    obtain ⟨rfl, _⟩ := wr_bytes_inv h3
    rcases wr_bind_err k3 with h4 | ⟨_, s4, h4, k4⟩
    · exact .inl (wr_bytes_err h4)
    obtain ⟨rfl, _⟩ := wr_bytes_inv h4
    rcases wr_bind_err k4 with h5 | ⟨_, s5, h5, k5⟩
    · exact .inl (wr_bytes_err h5)
    obtain ⟨rfl, _⟩ := wr_bytes_inv h5
    rcases wr_bind_err k5 with h6 | ⟨_, s6, h6, k6⟩
    · exact .inl (wr_bytes_err h6)
    obtain ⟨rfl, _⟩ := wr_bytes_inv h6
    rcases ih k6 with h7 | ⟨k, w', vs, g1, g2, g3, g4, g5, g6⟩
    · exact .inl h7
    refine .inr ⟨k + 1, w', v :: vs, by simpa using g1, by simp [g2], ?_, ?_, ?_, ?_⟩
    · intro j v' hj
      cases j with
      | zero => rw [List.getElem?_cons_zero] at hj; cases hj; exact hv
      | succ j =>
        have := g3 j v' (by simpa using hj)
        rw [← this]
        congr 1
        omega
    · intro y hy
      rw [List.take_succ_cons] at hy
      rcases List.mem_cons.mp hy with rfl | hy
      · exact hsur
      · exact g4 y hy
    · rw [g5]
      unfold w2vEntries
      simp
    · have : i + (k + 1) = i + 1 + k := by omega
      rw [this]
      exact g6

theorem writeWord2vec_err {e : Embeddings K} (he : BuiltEmb e) {bs : Bytes} {x : PyErr}
    (h : (writeWord2vec e).file = (.error x, bs)) :
    x = .osError ∨ ∃ (k : Nat) (w : PyStr) (vs : List (List K)), e.vocab.words[k]? = some w ∧
      vs.length = k ∧ (∀ (j : Nat) v, vs[j]? = some v → Exported e j v) ∧
      (∀ w' ∈ e.vocab.words.take k, w'.any isSurrogate = false) ∧
      bs = utf8 (decimal e.vocab.words.length ++ [32] ++ decimal e.storage.nCols ++ [10]) ++
        w2vEntries (e.vocab.words.take k) vs ∧
      ((¬ ∃ v, Exported e k v) ∧ x = .indexError ∨
        (∃ v, Exported e k v) ∧ w.any isSurrogate = true ∧ x = .unicodeEncodeError) := by
  have hle := he.words_le
  obtain ⟨m, hm, _, hr, hc, hrow⟩ := slice_words he.storage hle
  rw [← he.vocab.len] at hm
  unfold Wr.file writeWord2vec at h
  rw [hm, wr_bind_ok (wr_lift_ok _ _)] at h
  rcases wr_bind_err h with h2 | ⟨_, s2, h2, k2⟩
  · exact .inl (wr_bytes_err h2)
  obtain ⟨rfl, _⟩ := wr_bytes_inv h2
  rcases w2vWriteRows_err k2 with h3 | ⟨k, w, vs, g1, g2, g3, g4, g5, g6⟩
  · exact .inl h3
  have hk := (List.getElem?_eq_some_iff.mp g1).1
  refine .inr ⟨k, w, vs, g1, g2, ?_, g4, ?_, ?_⟩
  · intro j v hj
    have hjl := (List.getElem?_eq_some_iff.mp hj).1
    have := g3 j v hj
    rw [Nat.zero_add] at this
    exact (exportRow_ok he (hrow j (by omega))).mp this
  · rw [g5, hr, hc]
    rfl
  · rw [Nat.zero_add] at g6
    rcases g6 with g6 | ⟨⟨v, hv⟩, g7, g8⟩
    · obtain ⟨a, b⟩ := exportRow_err he (hrow k hk) g6
      exact .inl ⟨b, a⟩
    · exact .inr ⟨⟨v, (exportRow_ok he (hrow k hk)).mp hv⟩, g7, g8⟩

end

/-! ### Text -/

section
variable [NumText K]

theorem writeStr_err {s : PyStr} {b b' : Bytes} {x : PyErr} (h : writeStr s b = (.error x, b')) :
    x = .osError ∨ s.any isSurrogate = true ∧ x = .unicodeEncodeError ∧ b' = b := by
  unfold writeStr at h
  rcases wr_bind_err h with h1 | ⟨_, s1, h1, k1⟩
  · obtain ⟨q1, rfl⟩ := wr_lift_err h1
    obtain ⟨h2, h3⟩ := encode_err_iff.mp q1
    exact .inr ⟨h2, h3, rfl⟩
  · exact .inl (wr_bytes_err k1)

theorem writeStr_length {s : PyStr} {b b' : Bytes} {u : Unit} (h : writeStr s b = (.ok u, b')) :
    b'.length < maxSize := by
  unfold writeStr at h
  obtain ⟨_, s1, h1, k1⟩ := wr_bind_inv h
  obtain ⟨rfl, hl⟩ := wr_bytes_inv k1
  exact hl

theorem textWriteRows_sep {m : Storage K} {norms : Option (List K)} {sep : PyStr}
    {words : List PyStr} {i : Nat} {s s' : Bytes} {u : Unit} (hs : s.length < maxSize)
    (h : textWriteRows m norms sep i words s = (.ok u, s')) :
    s'.length < maxSize ∧ (words ≠ [] → sep.any isSurrogate = false) := by
  induction words generalizing i s with
  | nil => obtain ⟨_, rfl⟩ := wr_pure_inv h; exact ⟨hs, fun h => absurd rfl h⟩
  | cons w ws ih =>
    rw [textWriteRows] at h
    obtain ⟨v, s1, h1, k1⟩ := wr_bind_inv h
    obtain ⟨_, s2, h2, k2⟩ := wr_bind_inv k1
    obtain ⟨_, s3, h3, k3⟩ := wr_bind_inv k2
    obtain ⟨_, s4, h4, k4⟩ := wr_bind_inv k3
    obtain ⟨_, s5, h5, k5⟩ := wr_bind_inv k4
    exact ⟨(ih (writeStr_length h5) k5).1, fun _ => (writeStr_inv h3).1⟩

/-- The lines of a text file. -/
def textEntries (sep : PyStr) (ws : List PyStr) (vs : List (List K)) : PyStr :=
  (ws.zip (vs.map fun v => v.map NumText.str)).flatMap
    fun p => p.1 ++ sep ++ List.intercalate [32] p.2 ++ [10]

theorem textWriteRows_err {m : Storage K} {norms : Option (List K)} {sep : PyStr}
    (hnum : ∀ xs : List K, (List.intercalate [32] (xs.map NumText.str)).any isSurrogate = false)
    {words : List PyStr} {i : Nat} {s s' : Bytes} {x : PyErr}
    (h : textWriteRows m norms sep i words s = (.error x, s')) :
    x = .osError ∨ ∃ (k : Nat) (w : PyStr) (vs : List (List K)), words[k]? = some w ∧ vs.length = k ∧
      (∀ (j : Nat) v, vs[j]? = some v → exportRow m norms (i + j) = .ok v) ∧
      (∀ w' ∈ words.take k, w'.any isSurrogate = false) ∧
      (exportRow m norms (i + k) = .error x ∧ s' = s ++ utf8 (textEntries sep (words.take k) vs) ∨
        (∃ v, exportRow m norms (i + k) = .ok v) ∧ w.any isSurrogate = true ∧
          x = .unicodeEncodeError ∧ s' = s ++ utf8 (textEntries sep (words.take k) vs) ∨
        k = 0 ∧ (∃ v, exportRow m norms i = .ok v) ∧ w.any isSurrogate = false ∧
          sep.any isSurrogate = true ∧ x = .unicodeEncodeError ∧ s' = s ++ utf8 w) := by
  induction words generalizing i s with
  | nil => cases h
  | cons w ws ih =>
    rw [textWriteRows] at h
    rcases wr_bind_err h with h1 | ⟨v, s1, h1, k1⟩
    · obtain ⟨q1, rfl⟩ := wr_lift_err h1
      exact .inr ⟨0, w, [], rfl, rfl, by simp, by simp, .inl ⟨q1, by simp [textEntries, utf8]⟩⟩
    obtain ⟨hv, rfl⟩ := wr_lift_inv h1
    rcases wr_bind_err k1 with h2 | ⟨_, s2, h2, k2⟩
    · rcases writeStr_err h2 with q2 | ⟨q2, q3, rfl⟩
      · exact .inl q2
      · exact .inr ⟨0, w, [], rfl, rfl, by simp, by simp,
          .inr (.inl ⟨⟨v, hv⟩, q2, q3, by simp [textEntries, utf8]⟩)⟩
    obtain ⟨hsur, rfl⟩ := writeStr_inv h2
    rcases wr_bind_err k2 with h3 | ⟨_, s3, h3, k3⟩
    · rcases writeStr_err h3 with q3 | ⟨q3, q4, rfl⟩
      · exact .inl q3
      · exact .inr ⟨0, w, [], rfl, rfl, by simp, by simp,
          .inr (.inr ⟨rfl, ⟨v, hv⟩, hsur, q3, q4, rfl⟩)⟩
    obtain ⟨hsep, rfl⟩ := writeStr_inv h3
    rcases wr_bind_err k3 with h4 | ⟨_, s4, h4, k4⟩
    · rcases writeStr_err h4 with h4 | ⟨h4, _⟩
      · exact .inl h4
      · rw [joinSp_eq, hnum] at h4
        cases h4
    obtain ⟨_, rfl⟩ := writeStr_inv h4
    rcases wr_bind_err k4 with h5 | ⟨_, s5, h5, k5⟩
    · rcases writeStr_err h5 with h5 | ⟨h5, _⟩
      · exact .inl h5
      · exact absurd h5 (by decide)
    obtain ⟨_, rfl⟩ := writeStr_inv h5
    rcases ih k5 with h7 | ⟨k, w', vs, g1, g2, g3, g4, g6⟩
    · exact .inl h7
    have hpre : s1 ++ utf8 w ++ utf8 sep ++ utf8 (joinSp (v.map NumText.str)) ++ utf8 [10] ++
        utf8 (textEntries sep (ws.take k) vs) =
        s1 ++ utf8 (textEntries sep ((w :: ws).take (k + 1)) (v :: vs)) := by
      unfold textEntries
      rw [List.take_succ_cons, List.map_cons, List.zip_cons_cons, List.flatMap_cons, joinSp_eq]
      simp only [utf8_append, List.append_assoc]
    have hik : i + (k + 1) = i + 1 + k := by omega
    refine .inr ⟨k + 1, w', v :: vs, by simpa using g1, by simp [g2], ?_, ?_, ?_⟩
    · intro j v' hj
      cases j with
      | zero => rw [List.getElem?_cons_zero] at hj; cases hj; exact hv
      | succ j =>
        have := g3 j v' (by simpa using hj)
        rw [← this]
        congr 1
        omega
    · intro y hy
      rw [List.take_succ_cons] at hy
      rcases List.mem_cons.mp hy with rfl | hy
      · exact hsur
      · exact g4 y hy
    · rw [hik]
      rcases g6 with ⟨a, b⟩ | ⟨a, b, c, d⟩ | ⟨_, _, _, d, _⟩
      · exact .inl ⟨a, by rw [b, hpre]⟩
      · exact .inr (.inl ⟨a, b, c, by rw [d, hpre]⟩)
      · rw [hsep] at d
        cases d

theorem writeText_err {dims : Bool} {e : Embeddings K} (he : BuiltEmb e) {sep : PyStr}
    (hnum : ∀ xs : List K, (List.intercalate [32] (xs.map NumText.str)).any isSurrogate = false)
    {bs : Bytes} {x : PyErr} (h : (writeText dims e sep).file = (.error x, bs)) :
    x = .osError ∨ ∃ (k : Nat) (w : PyStr) (vs : List (List K)) (left : PyStr),
      e.vocab.words[k]? = some w ∧
      vs.length = k ∧ (∀ (j : Nat) v, vs[j]? = some v → Exported e j v) ∧
      (∀ w' ∈ e.vocab.words.take k, w'.any isSurrogate = false) ∧
      bs = utf8 (if dims then decimal e.vocab.words.length ++ [32] ++ decimal e.storage.nCols ++ [10]
        else []) ++ utf8 left ∧
      ((¬ ∃ v, Exported e k v) ∧ x = .indexError ∧ left = textEntries sep (e.vocab.words.take k) vs ∨
        (∃ v, Exported e k v) ∧ w.any isSurrogate = true ∧ x = .unicodeEncodeError ∧
          left = textEntries sep (e.vocab.words.take k) vs ∨
        k = 0 ∧ (∃ v, Exported e 0 v) ∧ w.any isSurrogate = false ∧ sep.any isSurrogate = true ∧
          x = .unicodeEncodeError ∧ left = w) := by
  have hle := he.words_le
  obtain ⟨m, hm, _, hr, hc, hrow⟩ := slice_words he.storage hle
  rw [← he.vocab.len] at hm
  unfold Wr.file writeText at h
  rw [hm, wr_bind_ok (wr_lift_ok _ _)] at h
  have key : x = .osError ∨ ∃ s2, textWriteRows m e.norms sep 0 e.vocab.words s2 = (.error x, bs) ∧
      s2 = utf8 (if dims then decimal e.vocab.words.length ++ [32] ++ decimal e.storage.nCols ++ [10]
        else []) := by
    cases dims with
    | false => exact .inr ⟨[], h, rfl⟩
    | true =>
      rw [if_pos rfl] at h ⊢
      rcases wr_bind_err h with h2 | ⟨_, s2, h2, k2⟩
      · rcases writeStr_err h2 with h2 | ⟨h2, _⟩
        · exact .inl h2
        · have hd : (dimsLine m.nRows m.nCols).any isSurrogate = false :=
            any_surrogate.mpr fun c hc => by
              have := dimsLine_ascii _ _ c hc
              omega
          rw [hd] at h2
          cases h2
      · obtain ⟨_, rfl⟩ := writeStr_inv h2
        refine .inr ⟨_, k2, ?_⟩
        rw [hr, hc, List.nil_append]
        rfl
  rcases key with key | ⟨s2, k2, rfl⟩
  · exact .inl key
  rcases textWriteRows_err hnum k2 with h3 | ⟨k, w, vs, g1, g2, g3, g4, g6⟩
  · exact .inl h3
  have hk := (List.getElem?_eq_some_iff.mp g1).1
  have hex : ∀ (j : Nat) v, vs[j]? = some v → Exported e j v := by
    intro j v hj
    have hjl := (List.getElem?_eq_some_iff.mp hj).1
    have := g3 j v hj
    rw [Nat.zero_add] at this
    exact (exportRow_ok he (hrow j (by omega))).mp this
  rw [Nat.zero_add] at g6
  rcases g6 with ⟨a, b⟩ | ⟨⟨v, hv⟩, b, c, d⟩ | ⟨rfl, ⟨v, hv⟩, b, c, d, f⟩
  · obtain ⟨p, q⟩ := exportRow_err he (hrow k hk) a
    exact .inr ⟨k, w, vs, _, g1, g2, hex, g4, b, .inl ⟨q, p, rfl⟩⟩
  · exact .inr ⟨k, w, vs, _, g1, g2, hex, g4, d,
      .inr (.inl ⟨⟨v, (exportRow_ok he (hrow k hk)).mp hv⟩, b, c, rfl⟩)⟩
  · exact .inr ⟨0, w, vs, _, g1, g2, hex, g4, f,
      .inr (.inr ⟨rfl, ⟨v, (exportRow_ok he (hrow 0 hk)).mp hv⟩, b, c, d, rfl⟩)⟩

end

/-! ### fastText -/

section
variable [Codec K]

theorem packS_err {fs : List (Nat × Int)} {x : PyErr} (h : packS fs = .error x) :
    x = .structError ∧ ∃ f ∈ fs, signedOk f.1 f.2 = false := by
  unfold packS at h
  split at h
  · cases h
  · rename_i hn
    cases h
    exact ⟨rfl, by simpa using hn⟩

theorem writeSigned_err {fs : List (Nat × Int)} {rest s s' : Bytes} {x : PyErr}
    (h : writeSigned fs rest s = (.error x, s')) :
    x = .osError ∨ x = .structError ∧ ∃ f ∈ fs, signedOk f.1 f.2 = false := by
  unfold writeSigned at h
  rcases wr_bind_err h with h1 | ⟨_, s1, h1, k1⟩
  · exact .inr (packS_err (wr_lift_err h1).1)
  · exact .inl (wr_bytes_err k1)

theorem writeBinary_err {fs : List (Nat × Nat)} {s s' : Bytes} {x : PyErr}
    (hf : ∀ f ∈ fs, f.2 < 256 ^ f.1) (h : writeBinary fs s = (.error x, s')) : x = .osError := by
  unfold writeBinary at h
  rcases wr_bind_err h with h1 | ⟨_, s1, h1, k1⟩
  · have h1 := (wr_lift_err h1).1
    rw [pack_eq hf] at h1
    cases h1
  · exact wr_bytes_err k1

theorem ftWriteWord_err {w : PyStr} {s s' : Bytes} {x : PyErr} (h : ftWriteWord w s = (.error x, s')) :
    x = .osError ∨ w.any isSurrogate = true ∧ x = .unicodeEncodeError := by
  unfold ftWriteWord at h
  rcases wr_bind_err h with h1 | ⟨b, s1, h1, k1⟩
  · exact .inr (encode_err_iff.mp (wr_lift_err h1).1)
  rcases wr_bind_err k1 with h1 | ⟨_, s1, h1, k1⟩
  · exact .inl (wr_bytes_err h1)
  rcases wr_bind_err k1 with h1 | ⟨_, s1, h1, k1⟩
  · exact .inl (wr_bytes_err h1)
  rcases wr_bind_err k1 with h1 | ⟨_, s1, h1, k1⟩
  · rcases writeSigned_err h1 with h1 | ⟨_, f, hf, h1⟩
    · exact .inl h1
    · simp only [List.mem_singleton] at hf; subst hf; exact absurd h1 (by decide)
  · rcases writeSigned_err k1 with h1 | ⟨_, f, hf, h1⟩
    · exact .inl h1
    · simp only [List.mem_singleton] at hf; subst hf; exact absurd h1 (by decide)

theorem forWr_err {α : Type} {f : α → Wr Unit} {xs : List α} {s s' : Bytes} {x : PyErr}
    (h : forWr f xs s = (.error x, s')) : ∃ a ∈ xs, ∃ t t', f a t = (.error x, t') := by
  induction xs generalizing s with
  | nil => cases h
  | cons a xs ih =>
    rw [forWr] at h
    rcases wr_bind_err h with h1 | ⟨_, s1, h1, k1⟩
    · exact ⟨a, by simp, s, _, h1⟩
    · obtain ⟨b, hb, h2⟩ := ih k1
      exact ⟨b, by simp [hb], h2⟩

theorem signed4_big {n : Nat} (h : signedOk 4 (n : Int) = false) : ¬ n < 2 ^ 31 := by
  intro hn
  rw [int32_nat hn] at h
  cases h

theorem writeFtVocab_err {v : Vocab} {s s' : Bytes} {x : PyErr}
    (h : writeFtVocab v s = (.error x, s')) :
    x = .osError ∨ x = .structError ∧ ¬ v.len < 2 ^ 31 ∨
      x = .unicodeEncodeError ∧ v.len < 2 ^ 31 ∧ ∃ w ∈ v.words, w.any isSurrogate = true := by
  unfold writeFtVocab at h
  rcases wr_bind_err h with h1 | ⟨_, s1, h1, k1⟩
  · rcases writeSigned_err h1 with h1 | ⟨hx, f, hf, h1⟩
    · exact .inl h1
    · refine .inr (.inl ⟨hx, ?_⟩)
      simp only [List.mem_cons, List.not_mem_nil, or_false] at hf
      rcases hf with rfl | rfl | rfl
      · exact signed4_big h1
      · exact signed4_big h1
      · exact absurd h1 (by decide)
  have hl : v.len < 2 ^ 31 :=
    signed4_nat ((writeSigned_inv (by simp) h1).1 (4, (v.len : Int)) (by simp))
  rcases wr_bind_err k1 with h2 | ⟨_, s2, h2, k2⟩
  · rcases writeSigned_err h2 with h2 | ⟨hx, f, hf, h2⟩
    · exact .inl h2
    · simp only [List.mem_cons, List.not_mem_nil, or_false] at hf
      rcases hf with rfl | rfl <;> exact absurd h2 (by decide)
  obtain ⟨w, hw, t, t', h3⟩ := forWr_err k2
  rcases ftWriteWord_err h3 with h3 | ⟨h3, h4⟩
  · exact .inl h3
  · exact .inr (.inr ⟨h4, hl, w, hw, h3⟩)

theorem ftWriteRows_err {e : Embeddings K} {ix : Indexer} {ws : List PyStr} {i : Nat} {s s' : Bytes}
    {x : PyErr} (h : ftWriteRows e ix i ws s = (.error x, s')) :
    x = .osError ∨ ∃ (k : Nat) (w : PyStr), ws[k]? = some w ∧ ftWordRow e ix (i + k) w = .error x := by
  induction ws generalizing i s with
  | nil => cases h
  | cons w ws ih =>
    rw [ftWriteRows] at h
    rcases wr_bind_err h with h1 | ⟨v, s1, h1, k1⟩
    · exact .inr ⟨0, w, rfl, (wr_lift_err h1).1⟩
    rcases wr_bind_err k1 with h2 | ⟨_, s2, h2, k2⟩
    · exact .inl (wr_bytes_err h2)
    rcases ih k2 with h3 | ⟨k, w', h3, h4⟩
    · exact .inl h3
    · refine .inr ⟨k + 1, w', by simpa using h3, ?_⟩
      rw [← h4]
      congr 1
      omega

omit [Codec K] in
/-- With valid codes and encodable words every row can be computed. -/
theorem ftWordRow_err {e : Embeddings K} (he : BuiltEmb e) {ix : FtIndexer}
    (hsub : e.vocab.sub = some (.ft ix)) (hn : e.vocab.words.length < 2 ^ 63) {i : Nat} {w : PyStr}
    (hw : e.vocab.words[i]? = some w) (hs : w.any isSurrogate = false) {x : PyErr}
    (h : ftWordRow e (.ft ix) i w = .error x) : x = .indexError ∧ ¬ CodesOk e.storage := by
  obtain ⟨is, _, h2, h3⟩ := ftSubwords_total he.vocab hsub hn hs
  have hi := (List.getElem?_eq_some_iff.mp hw).1
  have hnr : e.storage.nRows = e.vocab.words.length + ix.nBuckets := by
    have h1 := (embNew_iff.mp he.new).2.1
    unfold Vocab.upperBound at h1
    rw [hsub, he.vocab.len] at h1
    unfold Indexer.upperBound FtIndexer.upperBound at h1
    simp only at h1
    omega
  have hone : ∀ (j : Nat) y, j < e.storage.nRows → e.storage.getOne (j : Int) = .error y →
      y = .indexError ∧ ¬ CodesOk e.storage := by
    intro j y hj hy
    refine ⟨getOne_err hy, fun hc => ?_⟩
    obtain ⟨v, hv⟩ := getOne_total he.storage hc (i := (j : Int)) (by omega)
    rw [hv] at hy
    cases hy
  unfold ftWordRow at h
  rw [h2, res_bind_ok] at h
  cases h4 : e.storage.getOne (i : Int) with
  | error y => rw [h4] at h; cases h; exact hone i _ (by omega) h4
  | ok row =>
    rw [h4, res_bind_ok] at h
    obtain ⟨emb, hemb⟩ : ∃ emb, applyNorm e.norms i
        (row.map fun x => NumOps.mul x (NumOps.ofNat ((is.map fun i : Nat => (i : Int)).length + 1))) =
          .ok emb := by
      unfold applyNorm
      cases hn : e.norms with
      | none => exact ⟨_, rfl⟩
      | some ns =>
        have hnl := ((embNew_iff.mp he.new).2.2 ns hn).2
        rw [he.vocab.len] at hnl
        have hc := List.getElem?_eq_getElem (l := ns) (i := i) (by omega)
        simp only
        rw [npGet_nat.mpr hc]
        exact ⟨_, rfl⟩
    rw [hemb, res_bind_ok] at h
    cases h5 : e.storage.getMany (is.map fun i : Nat => (i : Int)) with
    | ok sel => rw [h5] at h; cases h
    | error y =>
      rw [h5] at h
      cases h
      rw [getMany_eq] at h5
      obtain ⟨j, hj, h6⟩ := mapRes_err h5
      obtain ⟨j', hj', rfl⟩ := List.mem_map.mp hj
      have := h3 j' hj'
      exact hone j' _ (by omega) h6

omit [NumOps K] in
theorem writeRaw_err {st : Storage K} {s s' : Bytes} {x : PyErr} (h : writeRaw st s = (.error x, s')) :
    x = .osError ∨ x = .attributeError ∧ ∃ q, st = .quant q := by
  cases st with
  | nd m => exact .inl (wr_bytes_err h)
  | quant q =>
    unfold writeRaw at h
    simp only at h
    cases h
    exact .inr ⟨rfl, q, rfl⟩

omit [NumOps K] [Codec K] in
theorem slice_from (s : Storage K) (a : Int) : ∃ s', s.slice ⟨some a, none, none⟩ = .ok s' ∧
    ((∃ q, s' = .quant q) ↔ ∃ q, s = .quant q) := by
  cases s with
  | nd m =>
    show ∃ s', (npSlice m.rows _ >>= _) = _ ∧ _
    rw [npSlice_step1, res_bind_ok]
    exact ⟨_, rfl, by simp⟩
  | quant q =>
    show ∃ s', (q.slice _ >>= _) = _ ∧ _
    unfold QArr.slice
    rw [npSlice_step1, res_bind_ok]
    cases hn : q.norms with
    | none => exact ⟨_, rfl, by simp⟩
    | some ns =>
      simp only
      rw [npSlice_step1, res_bind_ok]
      exact ⟨_, rfl, by simp⟩

/-- A quantized matrix cannot be exported. -/
theorem writeFasttext_nd {e : Embeddings K} {u : Unit} {s s' : Bytes}
    (h : writeFasttext e s = (.ok u, s')) :
    ∃ ix m, e.vocab.sub = some (.ft ix) ∧ e.storage = .nd m ∧ e.vocab.len < 2 ^ 31 := by
  unfold writeFasttext at h
  rcases hs : e.vocab.sub with _ | (ix | ix | ix)
  · rw [hs] at h; cases h
  · rw [hs] at h; cases h
  · rw [hs] at h
    simp only at h
    obtain ⟨_, s1, h1, k1⟩ := wr_bind_inv h
    obtain ⟨_, s2, h2, k2⟩ := wr_bind_inv k1
    obtain ⟨_, s3, h3, k3⟩ := wr_bind_inv k2
    obtain ⟨_, s4, h4, k4⟩ := wr_bind_inv k3
    obtain ⟨_, s5, h5, k5⟩ := wr_bind_inv k4
    obtain ⟨_, s6, h6, k6⟩ := wr_bind_inv k5
    obtain ⟨_, s7, h7, k7⟩ := wr_bind_inv k6
    have hl := (writeFtVocab_inv _ _ _ _ h3).1.1
    cases hst : e.storage with
    | nd m => exact ⟨ix, m, rfl, rfl, hl⟩
    | quant q => rw [hst] at k7; cases k7
  · rw [hs] at h; cases h

theorem writeFasttext_err {e : Embeddings K} (he : BuiltEmb e) {ix : FtIndexer}
    (hsub : e.vocab.sub = some (.ft ix)) {bs : Bytes} {x : PyErr}
    (h : (writeFasttext e).file = (.error x, bs)) :
    x = .osError ∨
    x = .structError ∧ ¬ (e.storage.nCols < 2 ^ 31 ∧ ix.nBuckets < 2 ^ 31 ∧ ix.minN < 2 ^ 31 ∧
      ix.maxN < 2 ^ 31 ∧ e.vocab.words.length < 2 ^ 31) ∨
    (e.storage.nCols < 2 ^ 31 ∧ ix.nBuckets < 2 ^ 31 ∧ ix.minN < 2 ^ 31 ∧
      ix.maxN < 2 ^ 31 ∧ e.vocab.words.length < 2 ^ 31) ∧
      (x = .unicodeEncodeError ∧ (∃ w ∈ e.vocab.words, w.any isSurrogate = true) ∨
       (∀ w ∈ e.vocab.words, w.any isSurrogate = false) ∧
        (x = .indexError ∧ ¬ CodesOk e.storage ∨ x = .attributeError ∧ ∃ q, e.storage = .quant q)) := by
  unfold Wr.file writeFasttext at h
  rw [hsub] at h
  simp only at h
  rcases wr_bind_err h with h1 | ⟨_, s1, h1, k1⟩
  · rcases writeSigned_err h1 with h1 | ⟨_, f, hf, h1⟩
    · exact .inl h1
    · simp only [List.mem_cons, List.not_mem_nil, or_false] at hf
      rcases hf with rfl | rfl <;> exact absurd h1 (by decide)
  rcases wr_bind_err k1 with h2 | ⟨_, s2, h2, k2⟩
  · unfold writeFtCfg at h2
    rcases writeSigned_err h2 with h2 | ⟨hx, f, hf, h2⟩
    · exact .inl h2
    · refine .inr (.inl ⟨hx, ?_⟩)
      rintro ⟨g1, g2, g3, g4, _⟩
      simp only [List.mem_cons, List.not_mem_nil, or_false] at hf
      rcases hf with rfl | rfl | rfl | rfl | rfl | rfl | rfl | rfl | rfl | rfl | rfl | rfl
      · exact signed4_big h2 g1
      · exact absurd h2 (by decide)
      · exact absurd h2 (by decide)
      · exact absurd h2 (by decide)
      · exact absurd h2 (by decide)
      · exact absurd h2 (by decide)
      · exact absurd h2 (by decide)
      · exact absurd h2 (by decide)
      · exact signed4_big h2 g2
      · exact signed4_big h2 g3
      · exact signed4_big h2 g4
      · exact absurd h2 (by decide)
  have hc := (writeSigned_inv (by simp) h2).1
  have g1 : e.storage.nCols < 2 ^ 31 := signed4_nat (hc (4, (e.storage.nCols : Int)) (by simp))
  have g2 : ix.nBuckets < 2 ^ 31 := signed4_nat (hc (4, (ix.nBuckets : Int)) (by simp))
  have g3 : ix.minN < 2 ^ 31 := signed4_nat (hc (4, (ix.minN : Int)) (by simp))
  have g4 : ix.maxN < 2 ^ 31 := signed4_nat (hc (4, (ix.maxN : Int)) (by simp))
  rcases wr_bind_err k2 with h3 | ⟨_, s3, h3, k3⟩
  · rcases writeFtVocab_err h3 with h3 | ⟨hx, h3⟩ | ⟨hx, h3, h4⟩
    · exact .inl h3
    · rw [he.vocab.len] at h3
      exact .inr (.inl ⟨hx, fun g => h3 g.2.2.2.2⟩)
    · rw [he.vocab.len] at h3
      exact .inr (.inr ⟨⟨g1, g2, g3, g4, h3⟩, .inl ⟨hx, h4⟩⟩)
  obtain ⟨hl, ht⟩ := (writeFtVocab_inv _ _ _ _ h3).1
  rw [he.vocab.len] at hl
  have hnr : e.storage.nRows = e.vocab.words.length + ix.nBuckets := by
    have h1 := (embNew_iff.mp he.new).2.1
    unfold Vocab.upperBound at h1
    rw [hsub, he.vocab.len] at h1
    unfold Indexer.upperBound FtIndexer.upperBound at h1
    simp only at h1
    omega
  rcases wr_bind_err k3 with h4 | ⟨_, s4, h4, k4⟩
  · refine .inl (writeBinary_err ?_ h4)
    intro f hf
    simp only [List.mem_cons, List.not_mem_nil, or_false] at hf
    rcases hf with rfl | rfl | rfl
    · decide
    · show e.storage.nRows < 256 ^ 8; omega
    · show e.storage.nCols < 256 ^ 8; omega
  rcases wr_bind_err k4 with h5 | ⟨_, s5, h5, k5⟩
  · rcases ftWriteRows_err h5 with h5 | ⟨k, w, h5, h6⟩
    · exact .inl h5
    · rw [Nat.zero_add] at h6
      have := ftWordRow_err he hsub (by omega) h5 (ht w (List.mem_of_getElem? h5)) h6
      exact .inr (.inr ⟨⟨g1, g2, g3, g4, hl⟩, .inr ⟨ht, .inl this⟩⟩)
  obtain ⟨st, hst, hq⟩ := slice_from e.storage e.vocab.len
  rw [hst, wr_bind_ok (wr_lift_ok _ _)] at k5
  rcases wr_bind_err k5 with h7 | ⟨_, s7, h7, k7⟩
  · rcases writeRaw_err h7 with h7 | ⟨hx, h7⟩
    · exact .inl h7
    · exact .inr (.inr ⟨⟨g1, g2, g3, g4, hl⟩, .inr ⟨ht, .inr ⟨hx, hq.mp h7⟩⟩⟩)
  · rcases writeRaw_err k7 with h7 | ⟨hx, h7⟩
    · exact .inl h7
    · exact .inr (.inr ⟨⟨g1, g2, g3, g4, hl⟩, .inr ⟨ht, .inr ⟨hx, h7⟩⟩⟩)

end

end

end FF
