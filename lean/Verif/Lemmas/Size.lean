import Verif.Spec.Size
import Verif.Spec.FfFile
import Verif.Spec.W2vFile
import Verif.Spec.TextIO
import Verif.Spec.FtLayout
import Verif.Lemmas.FtLayout
import Verif.Lemmas.Text
/-! Lemmas for C80. -/

namespace FF

theorem numbersOf_eq {K : Type} (rows : List (List K)) : numbersOf rows = rows.flatten.length := by
  unfold numbersOf
  rw [List.length_flatten]

theorem numbersOf_const {K : Type} {rows : List (List K)} {c : Nat} (h : ∀ r ∈ rows, r.length = c) :
    numbersOf rows = rows.length * c := by
  unfold numbersOf
  induction rows with
  | nil => simp
  | cons r rs ih =>
    have := ih fun x hx => h x (List.mem_cons_of_mem _ hx)
    simp only [List.map_cons, List.sum_cons, List.length_cons, h r List.mem_cons_self, this]
    ring

/-! ### Decoding -/

theorem utf8Char_pos {n : Nat} {enc : Bytes} (h : Utf8Char n enc) : 1 ≤ enc.length := by
  cases h <;> simp

theorem utf8Text_length {s : PyStr} {bs : Bytes} (h : Utf8Text s bs) : s.length ≤ bs.length := by
  induction h with
  | nil => simp
  | cons hc _ ih =>
    have := utf8Char_pos hc
    simp only [List.length_cons, List.length_append]
    omega

theorem replaced_length {s : PyStr} {bs : Bytes} (h : Replaced bs s) : s.length ≤ bs.length := by
  induction h with
  | nil => simp
  | good hc _ ih =>
    have := utf8Char_pos hc
    simp only [List.length_cons, List.length_append]
    omega
  | bad hb _ ih =>
    have := List.length_pos_iff.mpr hb.ne
    simp only [List.length_cons, List.length_append]
    omega

theorem decodesTo_length {lossy : Bool} {s : PyStr} {bs : Bytes} (h : DecodesTo lossy bs s) : s.length ≤ bs.length := by
  unfold DecodesTo at h
  split at h
  · exact replaced_length h
  · exact utf8Text_length h

theorem utf8_chars (w : PyStr) : w.length ≤ (utf8 w).length := by
  induction w with
  | nil => simp
  | cons c w ih =>
    have : (utf8 (c :: w)).length = (encCode c).length + (utf8 w).length := by
      simp [utf8]
    rw [this]
    have hp : 1 ≤ (encCode c).length := by
      unfold encCode
      dsimp only
      split_ifs <;> simp
    simp only [List.length_cons]
    omega

/-! ### finalfusion -/

namespace Fifu

theorem uint_length (w n : Nat) : (uint w n).length = w := by simp [uint]

theorem floats_length (xs : List F32) : (floats xs).length = 4 * xs.length := by
  unfold floats
  induction xs with
  | nil => rfl
  | cons x xs ih =>
    rw [List.flatMap_cons, List.length_append, ih, uint_length, List.length_cons]
    omega

theorem hasAt_le {bs : Bytes} {pos : Nat} {enc : Bytes} (h : HasAt bs pos enc) : enc.length ≤ bs.length - pos := by
  have := h.length_le
  rwa [List.length_drop] at this

theorem head_le {bs : Bytes} {pos id : Nat} (h : Head bs pos id) : pos + 12 ≤ bs.length := by
  obtain ⟨len, _, h⟩ := h
  have := hasAt_le h
  simp only [List.length_append, uint_length] at this
  omega

theorem strs_length (ws : List PyStr) : charsOf ws ≤ (ws.flatMap str).length := by
  induction ws with
  | nil => simp [charsOf]
  | cons w ws ih =>
    have := utf8_chars w
    unfold charsOf at ih ⊢
    simp only [List.map_cons, List.sum_cons, List.flatMap_cons, List.length_append, str, uint_length] at ih ⊢
    omega

theorem grams_length (gs : List (PyStr × Nat)) :
    charsOf (gs.map Prod.fst) ≤ (gs.flatMap fun g => str g.1 ++ uint 8 g.2).length := by
  induction gs with
  | nil => simp [charsOf]
  | cons g gs ih =>
    have := utf8_chars g.1
    unfold charsOf at ih ⊢
    simp only [List.map_cons, List.sum_cons, List.flatMap_cons, List.length_append, str, uint_length] at ih ⊢
    omega

theorem vocabAt_size {bs : Bytes} {pos : Nat} {v : Vocab} {rows stop : Nat} (h : VocabAt bs pos v rows stop) :
    pos + charsOf v.words + ngramChars v ≤ stop := by
  cases h with
  | @simple words _ _ _ hw =>
    have := strs_length words
    have := hw.2.2.2.2
    simp only [ngramChars]
    omega
  | @bucket words _ _ _ _ _ _ hw =>
    have := strs_length words
    have := hw.2.2.2.2
    simp only [ngramChars]
    omega
  | @fastText words _ _ _ _ _ _ hw =>
    have := strs_length words
    have := hw.2.2.2.2
    simp only [ngramChars]
    omega
  | @explicit words grams _ _ _ _ _ _ _ hw _ _ _ _ _ _ _ _ _ hs =>
    have := strs_length words
    have := grams_length grams
    have := hw.2.2.2.2
    simp only [ngramChars]
    omega

theorem optFloats_length (xs : Option (List F32)) : (optFloats xs).length = 4 * (xs.map List.length).getD 0 := by
  cases xs with
  | none => rfl
  | some xs => exact floats_length xs

theorem storageAt_size {bs : Bytes} {pos : Nat} {st : Storage F32} {stop : Nat} (h : StorageAt bs pos st stop) :
    pos + arrayBytes st ≤ stop ∧ pos + arrayBytes st ≤ bs.length := by
  cases h with
  | @nd m pad _ head fields rl cl shape fits hp el hs =>
    have h1 := hasAt_le el
    have h2 := head_le head
    rw [floats_length] at h1
    have h3 := numbersOf_eq m.rows
    have h4 := numbersOf_const shape
    rw [arrayBytes]
    rw [← h3] at h1
    refine ⟨by rw [h4]; omega, ?_⟩
    omega
  | @quant q pf nf pad _ head fields _ _ _ _ _ _ pr nr shape hp el hs =>
    have h1 := hasAt_le el
    have h2 := head_le head
    have h3 : (optFloats (q.pq.projection.map fun m => m.rows.flatten) ++
        floats (q.pq.quantizers.map List.flatten).flatten ++ optFloats q.norms ++ q.codes.flatten).length =
        arrayBytes (.quant q) := by
      unfold arrayBytes
      simp only [List.length_append, optFloats_length, floats_length]
      have e1 : ((q.pq.projection.map fun m => m.rows.flatten).map List.length).getD 0 =
          (q.pq.projection.map fun p => numbersOf p.rows).getD 0 := by
        cases q.pq.projection with
        | none => rfl
        | some p => simp [numbersOf_eq]
      have e2 : (q.pq.quantizers.map List.flatten).flatten.length = (q.pq.quantizers.map numbersOf).sum := by
        rw [List.length_flatten, List.map_map]
        congr 1
        exact List.map_congr_left fun m _ => (numbersOf_eq m).symm
      rw [e1, e2, ← numbersOf_eq]
    rw [h3] at h1 hs
    constructor <;> omega

theorem normsAt_size {bs : Bytes} {pos n : Nat} {ns : Option (List F32)} (h : NormsAt bs pos n ns) :
    pos + 4 * (ns.map List.length).getD 0 ≤ bs.length ∨ (ns.map List.length).getD 0 = 0 := by
  cases ns with
  | none => right; rfl
  | some xs =>
    obtain ⟨_, pad, _, _, _, _, h, _⟩ := h
    have := hasAt_le h
    rw [floats_length] at this
    show pos + 4 * xs.length ≤ bs.length ∨ xs.length = 0
    omega

theorem file_size {T : Toml} {mmap : Bool} {bs : Bytes} {e : Embeddings F32} (h : File T mmap bs e) :
    dataSize e ≤ bs.length := by
  obtain ⟨p1, p2, p3, p4, _, _, hv, hs, hn, _⟩ := h
  have h1 := vocabAt_size hv
  have h2 := storageAt_size hs
  have h3 := normsAt_size hn
  unfold dataSize
  omega

end Fifu

/-! ### Word lists -/

theorem charsOf_cons (w : PyStr) (ws : List PyStr) : charsOf (w :: ws) = w.length + charsOf ws := by
  unfold charsOf
  rw [List.map_cons, List.sum_cons]

theorem normalized_size {K : Type} [NumOps K] {cols : Nat} {words : List PyStr} {vs : List (List K)}
    {e : Embeddings K} (h : Normalized cols words vs e) (hv : ∀ v ∈ vs, v.length = cols) :
    ngramChars e.vocab = 0 ∧ arrayBytes e.storage = 4 * (vs.length * cols) ∧ e.storage.nRows = vs.length ∧
      dataSize e = charsOf words + 4 * (vs.length * cols) + 4 * vs.length := by
  obtain ⟨h1, h2, _, _, h3, rows, h4, h5, h6⟩ := h
  have hn : numbersOf rows = vs.length * cols := by
    rw [← h5]
    refine numbersOf_const fun r hr => ?_
    obtain ⟨i, hi⟩ := List.mem_iff_getElem?.mp hr
    have hlt : i < vs.length := by
      rw [← h5]
      exact (List.getElem?_eq_some_iff.mp hi).1
    have := h6 i _ (List.getElem?_eq_getElem hlt)
    rw [hi] at this
    rw [Option.some.inj this, List.length_map]
    exact hv _ (List.getElem_mem hlt)
  have e1 : ngramChars e.vocab = 0 := by
    unfold ngramChars
    rw [h2]
  have e2 : arrayBytes e.storage = 4 * (vs.length * cols) := by
    rw [h4, arrayBytes, hn]
  refine ⟨e1, e2, by rw [h4]; exact h5, ?_⟩
  unfold dataSize
  rw [e1, e2, h1, h3]
  simp

/-! ### word2vec -/

theorem stripped_length {w w' : PyStr} (h : Stripped w w') : w'.length ≤ w.length := by
  obtain ⟨a, b, rfl, _⟩ := h
  simp only [List.length_append]
  omega

theorem w2vKey_length {lossy : Bool} {k : Bytes} {w : PyStr} (h : W2vKey lossy k w) : w.length ≤ k.length := by
  obtain ⟨_, s, h1, h2⟩ := h
  exact (stripped_length h2).trans (decodesTo_length h1)

theorem w2vBody_size {lossy : Bool} {cols : Nat} {bs : Bytes} {rs : List (PyStr × List F32)}
    (h : W2vBody lossy cols bs rs) :
    charsOf (rs.map Prod.fst) + rs.length + 4 * ((rs.length - 1) * cols) ≤ bs.length ∧ ∀ r ∈ rs, r.2.length = cols := by
  induction h with
  | nil => simp [charsOf]
  | @row k w v rest rs hk hv _ ih =>
    obtain ⟨ih1, ih2⟩ := ih
    have h1 := w2vKey_length hk
    refine ⟨?_, ?_⟩
    · rw [List.map_cons, charsOf_cons]
      simp only [List.length_cons, List.length_append, length_f32sLE, hv, Nat.add_sub_cancel]
      have h2 : rs.length * cols ≤ (rs.length - 1) * cols + cols := by
        rcases Nat.eq_zero_or_pos rs.length with h0 | h0
        · rw [h0]; simp
        · obtain ⟨m, hm⟩ := Nat.exists_eq_add_of_le h0
          rw [hm, Nat.add_sub_cancel_left]
          exact le_of_eq (by ring)
      omega
    · intro r hr
      rcases List.mem_cons.mp hr with rfl | hr
      · exact hv
      · exact ih2 r hr
  | @one k w x t hk hc ht =>
    have h1 := w2vKey_length hk
    refine ⟨?_, ?_⟩
    · rw [List.map_cons, charsOf_cons]
      simp [charsOf]
      omega
    · intro r hr
      rw [List.mem_singleton] at hr
      rw [hr, List.length_replicate]

/-! ### Text -/

theorem splitLines_size {text : PyStr} {ls : List PyStr} (h : SplitLines text ls) :
    charsOf ls + ls.length ≤ text.length + 1 ∧ ls.length ≤ text.length := by
  induction h with
  | nil => simp [charsOf]
  | @last l _ hl =>
    have := List.length_pos_iff.mpr hl
    rw [charsOf_cons]
    simp [charsOf]
    omega
  | @lf l rest ls _ _ ih | @crlf l rest ls _ _ ih | @cr l rest ls _ _ _ ih =>
    rw [charsOf_cons]
    simp only [List.length_cons, List.length_append]
    omega

theorem linesSoFar_size {text : PyStr} {ls : List PyStr} (h : LinesSoFar text ls) :
    charsOf ls + ls.length ≤ text.length := by
  induction h with
  | rest | pending => simp [charsOf]
  | @lf l rest ls _ _ ih | @crlf l rest ls _ _ ih | @cr l rest ls _ _ _ _ ih =>
    rw [charsOf_cons]
    simp only [List.length_cons, List.length_append]
    omega

theorem charsOf_append (a b : List PyStr) : charsOf (a ++ b) = charsOf a + charsOf b := by
  unfold charsOf
  rw [List.map_append, List.sum_append]

theorem yieldsFirst_size [TextIO] {lossy : Bool} {bs : Bytes} {ls : List PyStr} (h : YieldsFirst lossy bs ls) :
    charsOf ls + ls.length ≤ bs.length + 1 := by
  rcases h with ⟨text, rest, h1, h2⟩ | ⟨_, k, text, rest, h1, h2⟩
  · have := decodesTo_length h1
    have := splitLines_size h2
    rw [charsOf_append, List.length_append] at this
    omega
  · obtain ⟨b, tail, e, h1, _⟩ := h1
    have h3 := utf8Text_length h1
    have h4 := linesSoFar_size h2
    rw [charsOf_append, List.length_append] at h4
    have h5 : ((TextIO.cut bs).take k).flatten.length ≤ bs.length := by
      conv_rhs => rw [← TextIO.flatten_cut bs, ← List.take_append_drop k (TextIO.cut bs), List.flatten_append]
      rw [List.length_append]
      omega
    rw [e, List.length_append] at h5
    omega

theorem hasFields_length {line w : PyStr} {ps : List PyStr} (h : HasFields line w ps) :
    w.length + 2 * ps.length ≤ line.length := by
  obtain ⟨sp, rfl, hf, t, _, rfl, _⟩ := h
  have : 2 * sp.length ≤ (sp.flatMap fun x => x.1 ++ x.2).length := by
    have hs := hf.seps
    have hp := hf.parts
    clear hf
    clear * - hs hp
    induction sp with
    | nil => simp
    | cons x sp ih =>
      have h1 := List.length_pos_iff.mpr (hs x List.mem_cons_self).1
      have h2 := List.length_pos_iff.mpr (hp x List.mem_cons_self).1
      have := ih (fun y hy => hs y (List.mem_cons_of_mem _ hy)) (fun y hy => hp y (List.mem_cons_of_mem _ hy))
      rw [List.flatMap_cons]
      simp only [List.length_cons, List.length_append]
      omega
  simp only [List.length_append, List.length_map]
  omega

theorem readsAs_chars {K : Type} [NumText K] {cols : Nat} {lines : List PyStr} {rs : List (PyStr × List K)}
    (h : List.Forall₂ (ReadsAs cols) lines rs) :
    rs.length = lines.length ∧ charsOf (rs.map Prod.fst) ≤ charsOf lines ∧ ∀ r ∈ rs, r.2.length = cols := by
  induction h with
  | nil => simp [charsOf]
  | @cons l r ls rs h _ ih =>
    obtain ⟨ps, xs, h1, _, h2, _⟩ := h
    have := hasFields_length h1
    obtain ⟨i1, i2, i3⟩ := ih
    refine ⟨by simp [i1], ?_, ?_⟩
    · rw [List.map_cons, charsOf_cons, charsOf_cons]
      omega
    · intro x hx
      rcases List.mem_cons.mp hx with rfl | hx
      · exact h2
      · exact i3 x hx

/-- If every line has all of its components. -/
theorem readsAs_full {K : Type} [NumText K] {cols : Nat} {lines : List PyStr} {rs : List (PyStr × List K)}
    (h : List.Forall₂ (ReadsAs cols) lines rs)
    (hf : ∀ l ∈ lines, ∃ w ps, HasFields l w ps ∧ ps.length = cols)
    (hu : ∀ l w ps w' ps', HasFields l w ps → HasFields l w' ps' → w = w' ∧ ps = ps') :
    charsOf (rs.map Prod.fst) + 2 * (lines.length * cols) ≤ charsOf lines := by
  induction h with
  | nil => simp [charsOf]
  | @cons l r ls rs h _ ih =>
    obtain ⟨ps, xs, h1, _, h2, _⟩ := h
    obtain ⟨w, ps', h3, h4⟩ := hf l List.mem_cons_self
    obtain ⟨rfl, rfl⟩ := hu _ _ _ _ _ h1 h3
    have := hasFields_length h1
    have := ih fun l hl => hf l (List.mem_cons_of_mem _ hl)
    rw [List.map_cons, charsOf_cons, charsOf_cons, List.length_cons, Nat.add_mul, Nat.one_mul]
    omega

/-! ### fastText -/

theorem ftLoaded_size {K : Type} [NumOps K] {f : FtFile} {raw : List (List K)} {e : Embeddings K}
    (h : FtLoaded f raw e) :
    dataSize e = charsOf (f.words.map Prod.fst) + 4 * (raw.length * f.cols) + 4 * f.words.length := by
  obtain ⟨h1, h2, h3, _, rows, norms, h4, h5, h6, h7, _⟩ := h
  have hw := h3.storage
  rw [h4] at hw
  have hn : numbersOf rows = raw.length * f.cols := by
    rw [← h6]
    exact numbersOf_const hw.1
  unfold dataSize ngramChars
  rw [h1, h2, h4, h5, arrayBytes, hn]
  simp [h7]

theorem ftEntries_size {lossy : Bool} {es : List (Bytes × Int)} {ws : List (PyStr × Int)}
    (h : List.Forall₂ (fun p q => DecodesTo lossy p.1 q.1 ∧ p.2 = q.2) es ws) :
    charsOf (ws.map Prod.fst) + 10 * ws.length ≤ (es.flatMap ftEntryBytes).length := by
  induction h with
  | nil => simp [charsOf]
  | @cons p q es ws h _ ih =>
    have := decodesTo_length h.1
    have hl : ∀ (w : Nat) (i : Int), (sle w i).length = w := by simp [sle]
    rw [List.map_cons, charsOf_cons, List.flatMap_cons]
    unfold ftEntryBytes at ih ⊢
    simp only [List.length_append, List.length_cons, List.length_nil, hl] at ih ⊢
    omega

theorem ftLayout_size {L : FtLayout} {lossy : Bool} {f : FtFile} (h : L.Reads lossy f) (hf : f.OK) :
    charsOf (f.words.map Prod.fst) + 10 * f.words.length + 4 * (f.rows.length * f.cols) ≤ L.bytes.length := by
  have h1 := ftEntries_size h.words
  have h2 : L.rest = f32sLE f.rows.flatten ++ f.output := h.matrix.1
  have h3 : numbersOf f.rows = f.rows.length * f.cols := numbersOf_const hf.cols
  rw [numbersOf_eq] at h3
  unfold FtLayout.bytes
  rw [h2]
  simp only [List.length_append, length_f32sLE]
  omega

end FF
