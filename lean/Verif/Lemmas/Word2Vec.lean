import Verif.Spec.Compat
import Verif.Lemmas.PyText
import Verif.Lemmas.StorageRows
import Verif.Lemmas.B2EEmb
import Verif.Lemmas.WriteOk
import Verif.Lemmas.Writable
/-! Reading and writing the word2vec format. -/

namespace FF

section
variable {K : Type} [NumOps K]

/-! ### Exported rows -/

theorem getOne_stored {s : Storage K} (hs : StorageWF s) {i : Nat} {v : List K} :
    s.getOne (i : Int) = .ok v ↔ StoredRow s i v := by
  cases s with
  | nd m => exact npGet_nat
  | quant q =>
    show q.getOne i = .ok v ↔ IsRow q i v
    rw [qGetOne_ok hs]
    constructor
    · rintro ⟨j, h1, h2⟩
      obtain ⟨_, h⟩ := npIndex_ok.mp h1
      have : i = j := by omega
      rw [this]; exact h2
    · intro h
      obtain ⟨codes, u, w, hc, _⟩ := id h
      exact ⟨i, npIndex_nat (List.getElem?_eq_some_iff.mp hc).1, h⟩

theorem pyRange_upTo (k : Nat) : (pyRange 0 k 1).map Int.toNat = List.range k := by
  unfold pyRange rangeLen
  have : (if (0 : Int) < 1 then if (0 : Int) < k then (((k : Int) - 0 - 1) / 1 + 1).toNat else 0
      else if (k : Int) < 0 then ((0 - (k : Int) - 1) / (-1) + 1).toNat else 0) = k := by
    rw [if_pos (by omega)]
    split <;> omega
  rw [this, List.map_map]
  conv => rhs; rw [← List.map_id (List.range k)]
  apply List.map_congr_left
  intro a _
  simp

theorem slicePos_upTo {n k : Nat} (h : k ≤ n) : slicePos n (.upTo k) = .ok (List.range k) := by
  have hi : (PySlice.upTo k).indices n = .ok (0, (k : Int), 1) := by
    unfold PySlice.indices PySlice.upTo
    simp only [Option.getD_none]
    rw [if_neg (by omega)]
    have h1 : ¬ ((1 : Int) < 0) := by omega
    simp only [h1, if_false]
    unfold clampBound
    rw [if_neg (by omega)]
    have : min (k : Int) (n : Int) = k := by omega
    rw [this]
  unfold slicePos
  rw [hi]
  show Except.ok _ = _
  rw [pyRange_upTo]

/-- Slicing the words off does not change their rows. -/
theorem slice_words {s : Storage K} (hs : StorageWF s) {n : Nat} (hn : n ≤ s.nRows) :
    ∃ s', s.slice (.upTo n) = .ok s' ∧ StorageWF s' ∧ s'.nRows = n ∧ s'.nCols = s.nCols ∧
      ∀ i : Nat, i < n → s'.getOne i = s.getOne i := by
  obtain ⟨s', is, h1, h2, h3, h4, h5, h6⟩ := slice_ok hs (sl := .upTo n) (by simp [PySlice.upTo])
  have his : is = List.range n := by
    have := slicePos_upTo (n := s.nRows) (k := n) hn
    rw [h2] at this
    exact Except.ok.inj this
  subst his
  refine ⟨s', h1, h3, by simpa using h4, h5, fun i hi => h6 i i ?_⟩
  simp [hi]

theorem BuiltEmb.words_le {e : Embeddings K} (he : BuiltEmb e) :
    e.vocab.words.length ≤ e.storage.nRows := by
  have h := (embNew_iff.mp he.new).2.1
  have := upperBound_ge he.vocab
  omega

theorem exportRow_ok {e : Embeddings K} {s : Storage K} {i : Nat} {v : List K}
    (he : BuiltEmb e) (hs : s.getOne i = e.storage.getOne i) :
    exportRow s e.norms i = .ok v ↔ Exported e i v := by
  unfold exportRow Exported
  rw [hs]
  constructor
  · intro h
    obtain ⟨row, h1, h⟩ := res_bind_inv h
    refine ⟨row, (getOne_stored he.storage).mp h1, ?_⟩
    cases hn : e.norms with
    | none => rw [hn] at h; cases h; rfl
    | some ns =>
      rw [hn] at h
      obtain ⟨n, h2, h⟩ := res_bind_inv h
      cases h
      refine ⟨n, npGet_nat.mp h2, by simp, fun t x hx => by simp [hx]⟩
  · rintro ⟨row, h1, h⟩
    rw [(getOne_stored he.storage).mpr h1, res_bind_ok]
    cases hn : e.norms with
    | none => rw [hn] at h; simp only at h; rw [h]; rfl
    | some ns =>
      rw [hn] at h
      obtain ⟨n, h2, h3, h4⟩ := h
      show (npGet ns (i : Int) >>= _) = _
      rw [npGet_nat.mpr h2, res_bind_ok]
      show Except.ok _ = _
      congr 1
      apply List.ext_getElem?
      intro t
      cases hx : row[t]? with
      | none =>
        rw [List.getElem?_map, hx]
        rw [List.getElem?_eq_none_iff] at hx
        symm
        rw [Option.map_none, List.getElem?_eq_none_iff]; omega
      | some x => rw [List.getElem?_map, hx, h4 t x hx]; rfl

theorem exported_length {e : Embeddings K} (he : BuiltEmb e) {i : Nat} {v : List K}
    (h : Exported e i v) : v.length = e.storage.nCols := by
  obtain ⟨row, h1, h2⟩ := h
  have hl := getOne_length he.storage ((getOne_stored he.storage).mpr h1)
  cases hn : e.norms with
  | none => rw [hn] at h2; simp only at h2; rw [h2]; exact hl
  | some ns =>
    rw [hn] at h2
    obtain ⟨n, _, h3, _⟩ := h2
    omega

theorem exported_unique {e : Embeddings K} (he : BuiltEmb e) {i : Nat} {v v' : List K}
    (h : Exported e i v) (h' : Exported e i v') : v = v' := by
  have h1 := (exportRow_ok he rfl).mpr h
  have h2 := (exportRow_ok he rfl).mpr h'
  exact Except.ok.inj (h1.symm.trans h2)

theorem exported_total {e : Embeddings K} (he : BuiltEmb e) (hc : CodesOk e.storage) {i : Nat}
    (hi : i < e.vocab.words.length) : ∃ v, Exported e i v := by
  obtain ⟨row, hr⟩ := getOne_total he.storage hc (i := (i : Int))
    ⟨by omega, by have := he.words_le; omega⟩
  cases hn : e.norms with
  | none =>
    exact ⟨row, row, (getOne_stored he.storage).mp hr, by rw [hn]⟩
  | some ns =>
    have hl := ((embNew_iff.mp he.new).2.2 ns hn).2
    rw [he.vocab.len] at hl
    refine ⟨row.map fun x => NumOps.mul x (ns[i]'(by omega)), row,
      (getOne_stored he.storage).mp hr, ?_⟩
    rw [hn]
    exact ⟨ns[i]'(by omega), List.getElem?_eq_getElem _, by simp, fun t x hx => by simp [hx]⟩

theorem exportedAll_unique {e : Embeddings K} (he : BuiltEmb e) {vs vs' : List (List K)}
    (h : ExportedAll e vs) (h' : ExportedAll e vs') : vs = vs' := by
  refine List.ext_getElem (h.1.trans h'.1.symm) fun i hi hi' => ?_
  exact exported_unique he (h.2 i _ (List.getElem?_eq_getElem hi))
    (h'.2 i _ (List.getElem?_eq_getElem hi'))

theorem exportedAll_total {e : Embeddings K} (he : BuiltEmb e) (hc : CodesOk e.storage) :
    ∃ vs, ExportedAll e vs := by
  choose f hf using fun (i : Fin e.vocab.words.length) => exported_total he hc i.isLt
  refine ⟨List.ofFn f, by simp, ?_⟩
  intro i v hv
  obtain ⟨hi, hv⟩ := List.getElem?_eq_some_iff.mp hv
  rw [List.getElem_ofFn] at hv
  rw [← hv]
  exact hf ⟨i, by simpa using hi⟩

end

/-! ### Delimiters and lines -/

theorem takeUntil_append {d : UInt8} {bs : Bytes} (h : d ∉ bs) (post : Bytes) :
    takeUntil d (bs ++ d :: post) = some bs := by
  induction bs with
  | nil => simp [takeUntil]
  | cons b bs ih =>
    rw [List.mem_cons, not_or] at h
    rw [List.cons_append, takeUntil, if_neg (fun e => h.1 e.symm), ih h.2]
    rfl

theorem takeUntil_none {d : UInt8} {bs : Bytes} (h : d ∉ bs) : takeUntil d bs = none := by
  induction bs with
  | nil => rfl
  | cons b bs ih =>
    rw [List.mem_cons, not_or] at h
    rw [takeUntil, if_neg (fun e => h.1 e.symm), ih h.2]
    rfl

theorem readDelim_parses {d : UInt8} {bs : Bytes} (h : d ∉ bs) (pre : Bytes) :
    Parses (readDelim d) pre (bs ++ [d]) bs := by
  intro post
  unfold readDelim
  simp only
  rw [List.append_assoc, drop_pre, List.append_assoc, List.singleton_append, takeUntil_append h]
  simp only
  congr 3
  simp
  omega

theorem readDelim_short {d : UInt8} {bs : Bytes} (h : d ∉ bs) (pre : Bytes) :
    FailsShort (readDelim d) pre (bs ++ [d]) := by
  intro k hk
  refine ⟨.eofError, ?_⟩
  unfold readDelim
  simp only
  rw [drop_pre, List.take_append_of_le_length (by simp at hk; omega),
    takeUntil_none (fun hm => h (List.mem_of_mem_take hm))]

theorem readDelim_eof (d : UInt8) : FailsEof (readDelim d) := by
  intro s hs
  refine ⟨.eofError, ?_⟩
  unfold readDelim
  rw [List.drop_of_length_le hs]
  rfl

theorem takeLine_append {bs : Bytes} (h : (10 : UInt8) ∉ bs) (post : Bytes) :
    takeLine (bs ++ 10 :: post) = bs ++ [10] := by
  induction bs with
  | nil => simp [takeLine]
  | cons b bs ih =>
    rw [List.mem_cons, not_or] at h
    rw [List.cons_append, takeLine, if_neg (fun e => h.1 e.symm), ih h.2]
    rfl

theorem takeLine_none {bs : Bytes} (h : (10 : UInt8) ∉ bs) : takeLine bs = bs := by
  induction bs with
  | nil => rfl
  | cons b bs ih =>
    rw [List.mem_cons, not_or] at h
    rw [takeLine, if_neg (fun e => h.1 e.symm), ih h.2]

theorem readLine_parses {bs : Bytes} (h : (10 : UInt8) ∉ bs) (pre : Bytes) :
    Parses readLine pre (bs ++ [10]) (bs ++ [10]) := by
  intro post
  unfold readLine
  simp only
  rw [List.append_assoc, drop_pre, List.append_assoc, List.singleton_append, takeLine_append h]
  congr 3
  simp

/-! ### The dimensions line -/

theorem dimsLine_ascii (r c : Nat) : ∀ x ∈ dimsLine r c, x.val < 128 := by
  intro x hx
  unfold dimsLine at hx
  simp only [List.mem_append, List.mem_singleton] at hx
  rcases hx with ((h | rfl) | h) | rfl
  · have := decimal_digits _ x h; omega
  · decide
  · have := decimal_digits _ x h; omega
  · decide

theorem splitWs_dims (r c : Nat) : splitWs (dimsLine r c) = [decimal r, decimal c] := by
  have hd : ∀ n, ∀ x ∈ decimal n, isSpace x = false := fun n x hx =>
    digit_not_space (decimal_digits n x hx)
  unfold splitWs dimsLine
  have e : decimal r ++ [32] ++ decimal c ++ [10] = decimal r ++ 32 :: (decimal c ++ 10 :: []) := by
    simp
  rw [e, pieces_append (hd r) (by decide), pieces_append (hd c) (by decide)]
  simp [pieces, decimal_ne_nil]

theorem twoInts_dims (r c : Nat) : twoInts (dimsLine r c) = .ok ((r : Int), (c : Int)) := by
  unfold twoInts
  rw [splitWs_dims]
  simp only [pyInt_decimal]
  rfl

theorem dims_no_newline (r c : Nat) : (10 : UInt8) ∉ utf8 (decimal r ++ [32] ++ decimal c) := by
  intro h
  obtain ⟨x, hx, hv⟩ := mem_utf8 h (by decide)
  have h10 : (10 : UInt8).toNat = 10 := rfl
  rw [h10] at hv
  simp only [List.mem_append, List.mem_singleton] at hx
  rcases hx with (h | rfl) | h
  · have := decimal_digits _ x h; omega
  · revert hv; decide
  · have := decimal_digits _ x h; omega

theorem utf8_dims (r c : Nat) :
    utf8 (dimsLine r c) = utf8 (decimal r ++ [32] ++ decimal c) ++ [10] := by
  unfold dimsLine
  rw [utf8_append]
  rfl

theorem decodeLossy_utf8 (lossy : Bool) {s : PyStr} (h : s.any isSurrogate = false) :
    decodeLossy lossy (utf8 s) = .ok s := by
  have := decode_utf8 s h
  unfold decodeLossy
  cases lossy
  · simpa using this
  · simp [decodeReplace_eq this]

/-! ### Rows -/

/-- The rows as the reader sees them: the newline of a row belongs to the next word. -/
def encR : PyStr → List (PyStr × List F32) → Bytes
  | _, [] => []
  | j, p :: ps => (utf8 (j ++ p.1) ++ [32] ++ f32sLE p.2) ++ encR [10] ps

theorem w2vBody_eq (p : PyStr × List F32) (ps : List (PyStr × List F32)) (j : PyStr) :
    utf8 j ++ ((p :: ps).flatMap fun p => utf8 p.1 ++ [32] ++ f32sLE p.2 ++ [10]) =
      encR j (p :: ps) ++ [10] := by
  induction ps generalizing p j with
  | nil => simp [encR, utf8_append]
  | cons q ps ih =>
    have := ih q [10]
    have e : utf8 [10] = [10] := rfl
    rw [e] at this
    rw [List.flatMap_cons, encR, List.append_assoc _ (encR [10] (q :: ps)) [10], ← this]
    simp [utf8_append]

theorem no_space_utf8 {s : PyStr} (h : ∀ c ∈ s, c.val ≠ 32) : (32 : UInt8) ∉ utf8 s := by
  intro hm
  obtain ⟨x, hx, hv⟩ := mem_utf8 hm (by decide)
  exact h x hx hv

/-- What precedes a word: nothing or the newline of the previous row. -/
def Junk (j : PyStr) : Prop := j = [] ∨ j = [10]

theorem Junk.word {j w : PyStr} (hj : Junk j) (hw : W2vWord w) :
    (32 : UInt8) ∉ utf8 (j ++ w) ∧ (j ++ w).any isSurrogate = false ∧ strip (j ++ w) = w := by
  obtain ⟨h1, h2, h3, h4⟩ := hw
  have h4' := any_surrogate.mpr h4
  rcases hj with rfl | rfl
  · exact ⟨no_space_utf8 h1, h4', strip_append (j := []) (by simp) ⟨h2, h3⟩⟩
  · refine ⟨no_space_utf8 ?_, ?_, strip_append (j := [10]) (by
      intro c hc; rw [List.mem_singleton] at hc; rw [hc]; decide) ⟨h2, h3⟩⟩
    · intro c hc
      rcases List.mem_cons.mp hc with rfl | hc
      · decide
      · exact h1 c hc
    · rw [List.any_append, h4']; decide

section
variable {K : Type} [Codec K]

omit [Codec K] in
theorem assignRow_ok {cols : Nat} {xs : List K} (h : xs.length = cols) :
    assignRow cols xs = .ok xs := by
  unfold assignRow
  rw [if_pos h]

theorem w2vRows_parses (lossy : Bool) {cols : Nat} (hc : 4 * cols < maxSize)
    (rows : List (PyStr × List F32)) (hw : ∀ p ∈ rows, W2vWord p.1)
    (hl : ∀ p ∈ rows, p.2.length = cols) {j : PyStr} (hj : Junk j) (pre : Bytes) :
    Parses (w2vRows (K := K) lossy cols rows.length) pre (encR j rows)
      (rows.map fun p => (p.1, p.2.map Codec.ofBits)) := by
  induction rows generalizing j pre with
  | nil => exact Parses.pure _ _
  | cons p ps ih =>
    obtain ⟨h1, h2, h3⟩ := hj.word (hw p (by simp))
    have hp := hl p (by simp)
    rw [encR, List.length_cons, w2vRows, List.append_assoc]
    refine Parses.bind (readDelim_parses h1 pre) ?_
    refine Parses.bind_nil (Parses.lift _ (decodeLossy_utf8 lossy h2)) ?_
    refine Parses.bind (fromFileF32_parses p.2 _ cols hp hc) ?_
    refine Parses.bind_nil (Parses.lift _ (assignRow_ok (by simpa using hp))) ?_
    refine Parses.bind_last (ih (fun q hq => hw q (List.mem_cons_of_mem _ hq))
      (fun q hq => hl q (List.mem_cons_of_mem _ hq)) (Or.inr rfl) _) ?_
    rw [h3]
    exact Parses.pure _ _

variable [NumOps K]

/-- The embeddings `loadWord2vec` builds from these rows. -/
def w2vResult (cols : Nat) (rows : List (PyStr × List K)) : Embeddings K :=
  ⟨.nd ⟨cols, (rows.map Prod.snd).map fun r => vdiv r (NumOps.normAxis r)⟩,
    ⟨rows.map Prod.fst, enumItems (rows.map Prod.fst), none⟩,
    some ((rows.map Prod.snd).map NumOps.normAxis), none⟩

omit [Codec K] in
theorem w2vResult_normalized {cols : Nat} {rows : List (PyStr × List K)}
    (hn : (rows.map Prod.fst).Nodup) :
    Normalized cols (rows.map Prod.fst) (rows.map Prod.snd) (w2vResult cols rows) := by
  refine ⟨rfl, rfl, ⟨fun ix h => (by cases h), Vocab.new_ok.mpr ⟨hn, rfl⟩⟩, rfl, rfl, _, rfl,
    by simp, ?_⟩
  intro i v hv
  rw [List.getElem?_map, hv]
  rfl

omit [Codec K] in
theorem w2vResult_new {cols : Nat} {rows : List (PyStr × List K)} :
    Embeddings.new (.nd ⟨cols, (rows.map Prod.snd).map fun r => vdiv r (NumOps.normAxis r)⟩)
      ⟨rows.map Prod.fst, enumItems (rows.map Prod.fst), none⟩
      (some ((rows.map Prod.snd).map NumOps.normAxis)) none = .ok (w2vResult cols rows) := by
  refine embNew_iff.mpr ⟨rfl, ?_, ?_⟩
  · simp [Storage.nRows, Vocab.upperBound, Vocab.len, enumItems_length]
  · intro n h
    cases h
    simp [Storage.nRows, Vocab.len, enumItems_length]

theorem loadWord2vec_parses (lossy : Bool) {cols : Nat} (rows : List (PyStr × List F32))
    (hw : ∀ p ∈ rows, W2vWord p.1) (hl : ∀ p ∈ rows, p.2.length = cols)
    (hn : (rows.map Prod.fst).Nodup) (hs : ShapeOk rows.length cols) :
    Parses (loadWord2vec (K := K) lossy) [] (utf8 (dimsLine rows.length cols) ++ encR [] rows)
      (w2vResult cols (rows.map fun p => (p.1, p.2.map Codec.ofBits))) := by
  have hc : 4 * cols < maxSize := hs.cols
  unfold loadWord2vec
  rw [utf8_dims]
  refine Parses.bind (readLine_parses (dims_no_newline _ _) []) ?_
  rw [← utf8_dims]
  refine Parses.bind_nil (Parses.lift _ (decodeAscii_utf8 (dimsLine_ascii _ _))) ?_
  refine Parses.bind_nil (Parses.lift _ (twoInts_dims _ _)) ?_
  refine Parses.bind_nil (Parses.lift _ (zerosShape_ok hs)) ?_
  refine Parses.bind_last (w2vRows_parses lossy hc rows hw hl (Or.inl rfl) _) ?_
  have hf : (rows.map fun p => (p.1, p.2.map (Codec.ofBits (K := K)))).map Prod.fst =
      rows.map Prod.fst := by simp
  refine Parses.bind_nil (Parses.lift _ (Vocab.new_ok.mpr ⟨by rw [hf]; exact hn, rfl⟩)) ?_
  exact Parses.lift _ w2vResult_new

theorem w2vFile_eq (cols : Nat) (rows : List (PyStr × List F32)) :
    w2vFile cols rows = utf8 (dimsLine rows.length cols) ++ encR [] rows ++
      (if rows = [] then [] else [10]) := by
  unfold w2vFile dimsLine
  cases rows with
  | nil => simp [encR]
  | cons p ps =>
    have := w2vBody_eq p ps []
    simp only [utf8, List.nil_append] at this
    rw [this]
    simp

theorem loadWord2vec_ok (lossy : Bool) {cols : Nat} (rows : List (PyStr × List F32))
    (hw : ∀ p ∈ rows, W2vWord p.1) (hl : ∀ p ∈ rows, p.2.length = cols)
    (hn : (rows.map Prod.fst).Nodup) (hs : ShapeOk rows.length cols) :
    Rd.run (loadWord2vec (K := K) lossy) (w2vFile cols rows) =
      .ok (w2vResult cols (rows.map fun p => (p.1, p.2.map Codec.ofBits))) := by
  rw [w2vFile_eq]
  exact (loadWord2vec_parses lossy rows hw hl hn hs).run _

/-! ### Writing -/

theorem w2vWriteRows_inv {m : Storage K} {norms : Option (List K)} {words : List PyStr} {i : Nat}
    {s s' : Bytes} {u : Unit} (h : w2vWriteRows m norms i words s = (.ok u, s')) :
    ∃ vs : List (List K), vs.length = words.length ∧
      (∀ (k : Nat) v, vs[k]? = some v → exportRow m norms (i + k) = .ok v) ∧
      (∀ w ∈ words, w.any isSurrogate = false) ∧
      s' = s ++ (words.zip (vs.map fun v => v.map Codec.bits)).flatMap
        (fun p => utf8 p.1 ++ [32] ++ f32sLE p.2 ++ [10]) := by
  induction words generalizing i s with
  | nil =>
    obtain ⟨_, rfl⟩ := wr_pure_inv h
    exact ⟨[], rfl, by simp, by simp, by simp⟩
  | cons w ws ih =>
    rw [w2vWriteRows] at h
    obtain ⟨v, s1, h1, k1⟩ := wr_bind_inv h
    obtain ⟨hv, rfl⟩ := wr_lift_inv h1
    obtain ⟨b, s2, h2, k2⟩ := wr_bind_inv k1
    obtain ⟨hb, rfl⟩ := wr_lift_inv h2
    obtain ⟨rfl, hsur⟩ := encode_ok hb
    obtain ⟨_, s3, h3, k3⟩ := wr_bind_inv k2
    obtain ⟨rfl, _⟩ := wr_bytes_inv h3
    obtain ⟨_, s4, h4, k4⟩ := wr_bind_inv k3
    obtain ⟨rfl, _⟩ := wr_bytes_inv h4
    obtain ⟨_, s5, h5, k5⟩ := wr_bind_inv k4
    obtain ⟨rfl, _⟩ := wr_bytes_inv h5
    obtain ⟨_, s6, h6, k6⟩ := wr_bind_inv k5
    obtain ⟨rfl, _⟩ := wr_bytes_inv h6
    obtain ⟨vs, g1, g2, g3, g4⟩ := ih k6
    refine ⟨v :: vs, by simp [g1], ?_, ?_, ?_⟩
    · intro k v' hk
      cases k with
      | zero => simp at hk; subst hk; exact hv
      | succ k =>
        have := g2 k v' (by simpa using hk)
        rw [← this]
        congr 1
        omega
    · intro x hx
      rcases List.mem_cons.mp hx with rfl | hx
      · exact hsur
      · exact g3 x hx
    · rw [g4]
      simp

theorem w2vWriteRows_ok {m : Storage K} {norms : Option (List K)} {words : List PyStr} {i : Nat}
    {s : Bytes} {vs : List (List K)} (hl : vs.length = words.length)
    (hv : ∀ (k : Nat) v, vs[k]? = some v → exportRow m norms (i + k) = .ok v)
    (hw : ∀ w ∈ words, w.any isSurrogate = false)
    (hsz : (s ++ (words.zip (vs.map fun v : List K => v.map Codec.bits)).flatMap
        (fun p : PyStr × List F32 => utf8 p.1 ++ [32] ++ f32sLE p.2 ++ [10])).length < maxSize) :
    w2vWriteRows m norms i words s = (.ok (), s ++
      (words.zip (vs.map fun v => v.map Codec.bits)).flatMap
        (fun p => utf8 p.1 ++ [32] ++ f32sLE p.2 ++ [10])) := by
  induction words generalizing i s vs with
  | nil => simp [w2vWriteRows]
  | cons w ws ih =>
    cases vs with
    | nil => cases hl
    | cons v vs =>
      have h0 : exportRow m norms i = .ok v := by simpa using hv 0 v rfl
      rw [List.map_cons, List.zip_cons_cons, List.flatMap_cons, ← List.append_assoc] at hsz ⊢
      have hlen : (s ++ (utf8 w ++ [32] ++ f32sLE (v.map Codec.bits) ++ [10])).length < maxSize := by
        rw [List.length_append] at hsz
        exact lt_of_le_of_lt (Nat.le_add_right _ _) hsz
      simp only [List.length_append] at hlen
      rw [w2vWriteRows, h0, wr_bind_ok (wr_lift_ok _ _), encode_eq (hw w (by simp)),
        wr_bind_ok (wr_lift_ok _ _), wr_bind_ok (wr_bytes_ok (by simp only [List.length_append]; omega)),
        wr_bind_ok (wr_bytes_ok (by simp only [List.length_append]; omega)),
        wr_bind_ok (wr_bytes_ok (by simp only [List.length_append]; omega)),
        wr_bind_ok (wr_bytes_ok (by simp only [List.length_append]; omega))]
      have e : s ++ utf8 w ++ [32] ++ f32sLE (v.map Codec.bits) ++ [10] =
          s ++ (utf8 w ++ [32] ++ f32sLE (v.map Codec.bits) ++ [10]) := by simp
      rw [e]
      exact ih (by simpa using hl) (fun k v' hk => by
        rw [← hv (k + 1) v' (by simpa using hk)]; congr 1; omega)
        (fun x hx => hw x (List.mem_cons_of_mem _ hx)) hsz

/-- The rows of the file for these exported vectors. -/
def fileRows (words : List PyStr) (vs : List (List K)) : List (PyStr × List F32) :=
  words.zip (vs.map fun v => v.map Codec.bits)

omit [NumOps K] in
theorem fileRows_fst {words : List PyStr} {vs : List (List K)} (h : vs.length = words.length) :
    (fileRows words vs).map Prod.fst = words := by
  unfold fileRows
  rw [List.map_fst_zip]
  simp [h]

omit [NumOps K] in
theorem fileRows_snd {words : List PyStr} {vs : List (List K)} (h : vs.length = words.length) :
    (fileRows words vs).map Prod.snd = vs.map fun v => v.map Codec.bits := by
  unfold fileRows
  rw [List.map_snd_zip]
  simp [h]

omit [NumOps K] in
theorem fileRows_length {words : List PyStr} {vs : List (List K)} (h : vs.length = words.length) :
    (fileRows words vs).length = words.length := by
  rw [← List.length_map (f := Prod.fst), fileRows_fst h]

/-- The length of a file depends on the words and the number of columns only. -/
theorem w2vFile_length {cols : Nat} {rows : List (PyStr × List F32)}
    (h : ∀ p ∈ rows, p.2.length = cols) :
    (w2vFile cols rows).length =
      (w2vFile cols ((rows.map Prod.fst).map fun w => (w, List.replicate cols 0))).length := by
  unfold w2vFile
  rw [List.length_append, List.length_append, List.length_map, List.length_map]
  congr 1
  induction rows with
  | nil => rfl
  | cons p ps ih =>
    have h0 := h p (by simp)
    simp only [List.map_cons, List.flatMap_cons, List.length_append]
    rw [ih fun q hq => h q (List.mem_cons_of_mem _ hq)]
    simp [h0]

/-- A successful `write_word2vec` writes the format. -/
theorem writeWord2vec_inv {e : Embeddings K} (he : BuiltEmb e) {bs : Bytes}
    (h : (writeWord2vec e).file = (.ok (), bs)) :
    ∃ vs, ExportedAll e vs ∧ (∀ w ∈ e.vocab.words, w.any isSurrogate = false) ∧
      bs = w2vFile e.storage.nCols (fileRows e.vocab.words vs) := by
  have hle := he.words_le
  obtain ⟨m, hm, _, hr, hc, hrow⟩ := slice_words he.storage hle
  rw [← he.vocab.len] at hm
  unfold Wr.file writeWord2vec at h
  obtain ⟨m', s1, h1, k1⟩ := wr_bind_inv h
  obtain ⟨hm', rfl⟩ := wr_lift_inv h1
  rw [hm] at hm'
  cases hm'
  obtain ⟨_, s2, h2, k2⟩ := wr_bind_inv k1
  obtain ⟨rfl, _⟩ := wr_bytes_inv h2
  obtain ⟨vs, g1, g2, g3, g4⟩ := w2vWriteRows_inv k2
  refine ⟨vs, ⟨g1, fun i v hv => ?_⟩, g3, ?_⟩
  · have hi := (List.getElem?_eq_some_iff.mp hv).1
    have := g2 i v hv
    rw [Nat.zero_add] at this
    exact (exportRow_ok he (hrow i (by omega))).mp this
  · rw [g4, hr, hc]
    unfold w2vFile
    rw [fileRows_length g1]
    rfl

/-- It succeeds if the words can be encoded and the file is not too large. -/
theorem writeWord2vec_ok {e : Embeddings K} (he : BuiltEmb e) {vs : List (List K)}
    (hv : ExportedAll e vs) (hw : ∀ w ∈ e.vocab.words, w.any isSurrogate = false)
    (hsz : (w2vFile e.storage.nCols (fileRows e.vocab.words vs)).length < maxSize) :
    (writeWord2vec e).file = (.ok (), w2vFile e.storage.nCols (fileRows e.vocab.words vs)) := by
  have hle := he.words_le
  obtain ⟨m, hm, _, hr, hc, hrow⟩ := slice_words he.storage hle
  rw [← he.vocab.len] at hm
  have hfl := fileRows_length hv.1
  unfold w2vFile at hsz ⊢
  rw [hfl] at hsz ⊢
  unfold Wr.file writeWord2vec
  rw [hm, wr_bind_ok (wr_lift_ok _ _), hr, hc, wr_bind_ok (wr_bytes_ok ?_)]
  · rw [List.nil_append]
    refine w2vWriteRows_ok hv.1 ?_ hw hsz
    intro k v hk
    have hi := (List.getElem?_eq_some_iff.mp hk).1
    have h1 := hv.1
    rw [Nat.zero_add]
    exact (exportRow_ok he (hrow k (by omega))).mpr (hv.2 k v hk)
  · rw [List.nil_append]
    rw [List.length_append] at hsz
    exact lt_of_le_of_lt (Nat.le_add_right _ _) hsz

end

end FF
