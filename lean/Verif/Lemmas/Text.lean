import Verif.Spec.Text
import Verif.Lemmas.Word2Vec
import Verif.Lemmas.TextIO
/-! Reading and writing the text formats. -/

namespace FF

/-! ### Fields of a line -/

theorem isSpace_of_ascii {c : Code} (h : isAsciiSpace c = true) : isSpace c = true := by
  unfold isAsciiSpace at h
  unfold isSpace
  simp only [Bool.or_eq_true, Bool.and_eq_true, decide_eq_true_eq, beq_iff_eq] at h ⊢
  omega

theorem pieces_seps {sep : Code → Bool} {s x : PyStr} (h : ∀ c ∈ s, sep c = true) :
    pieces sep (s ++ x) = List.replicate s.length [] ++ pieces sep x := by
  induction s with
  | nil => rfl
  | cons c s ih =>
    have := pieces_append (sep := sep) (p := []) (rest := s ++ x) (c := c) (by simp) (h c (by simp))
    rw [List.nil_append] at this
    rw [List.cons_append, this, ih fun d hd => h d (List.mem_cons_of_mem _ hd)]
    rfl

theorem squeeze_cons {p : PyStr} {ps : List PyStr} (h : p ≠ []) : squeeze (p :: ps) = p :: squeeze ps := by
  cases ps with
  | nil => rfl
  | cons q ps => rw [squeeze, if_neg h]

theorem squeeze_replicate (n : Nat) {p : PyStr} {ps : List PyStr} :
    squeeze (List.replicate n [] ++ p :: ps) = squeeze (p :: ps) := by
  induction n with
  | zero => rfl
  | succ n ih =>
    rw [List.replicate_succ, List.cons_append]
    cases n with
    | zero => rw [List.replicate_zero, List.nil_append, squeeze, if_pos rfl]
    | succ n =>
      rw [List.replicate_succ, List.cons_append] at ih ⊢
      rw [squeeze, if_pos rfl]
      exact ih

theorem pieces_fields {w : PyStr} {sp : List (PyStr × PyStr)} (h : Fields w sp) :
    ∃ qs, pieces isAsciiSpace (w ++ sp.flatMap fun x => x.1 ++ x.2) = w :: qs ∧
      squeeze qs = sp.map Prod.snd := by
  induction sp generalizing w with
  | nil =>
    refine ⟨[], ?_, rfl⟩
    rw [List.flatMap_nil, List.append_nil]
    exact pieces_free h.word
  | cons x sp ih =>
    obtain ⟨s, p⟩ := x
    obtain ⟨hs1, hs2⟩ := h.seps (s, p) (by simp)
    obtain ⟨hp1, hp2⟩ := h.parts (s, p) (by simp)
    obtain ⟨qs, h1, h2⟩ := ih (w := p) ⟨hp2, fun y hy => h.seps y (List.mem_cons_of_mem _ hy),
      fun y hy => h.parts y (List.mem_cons_of_mem _ hy)⟩
    cases s with
    | nil => exact absurd rfl hs1
    | cons c s =>
      rw [List.flatMap_cons]
      have e : w ++ (c :: s ++ p ++ sp.flatMap fun x => x.1 ++ x.2) =
          w ++ c :: (s ++ (p ++ sp.flatMap fun x => x.1 ++ x.2)) := by simp
      rw [e, pieces_append h.word (hs2 c (by simp)),
        pieces_seps fun d hd => hs2 d (List.mem_cons_of_mem _ hd), h1]
      refine ⟨_, rfl, ?_⟩
      rw [squeeze_replicate, squeeze_cons hp1, h2]
      rfl

theorem reSplit_fields {line w : PyStr} {ps : List PyStr} (h : HasFields line w ps) :
    reSplit (rstrip line) = w :: ps := by
  obtain ⟨sp, rfl, hf, t, ht, rfl, hl⟩ := h
  rw [rstrip_append ht, rstrip_self hl]
  obtain ⟨qs, h1, h2⟩ := pieces_fields hf
  unfold reSplit
  rw [h1]
  simp only
  rw [h2]

/-- Checking concrete fields. -/
theorem hasFields_check (w : PyStr) (sp : List (PyStr × PyStr)) (t : PyStr)
    (h : ((w.all fun c => !isAsciiSpace c) && (sp.all fun x => x.1 != [] && x.1.all isAsciiSpace) &&
      (sp.all fun x => x.2 != [] && x.2.all fun c => !isAsciiSpace c) && t.all isSpace &&
      (match (w ++ sp.flatMap fun x => x.1 ++ x.2).getLast? with
        | some c => !isSpace c | none => true)) = true) :
    HasFields (w ++ (sp.flatMap fun x => x.1 ++ x.2) ++ t) w (sp.map Prod.snd) := by
  simp only [Bool.and_eq_true] at h
  obtain ⟨⟨⟨⟨h1, h2⟩, h3⟩, h4⟩, h5⟩ := h
  refine ⟨sp, rfl, ⟨by simpa using h1, ?_, ?_⟩, t, by simpa using h4, rfl, ?_⟩
  · intro x hx
    have := List.all_eq_true.mp h2 x hx
    rw [Bool.and_eq_true] at this
    exact ⟨by simpa using this.1, by simpa using this.2⟩
  · intro x hx
    have := List.all_eq_true.mp h3 x hx
    rw [Bool.and_eq_true] at this
    exact ⟨by simpa using this.1, by simpa using this.2⟩
  · intro c hc
    rw [hc] at h5
    simpa using h5

/-! ### Lines -/

theorem joinSp_eq (ps : List PyStr) : joinSp ps = List.intercalate [32] ps := by
  induction ps with
  | nil => rfl
  | cons p ps ih =>
    cases ps with
    | nil => simp [joinSp, List.intercalate]
    | cons q ps =>
      rw [joinSp, ih]
      · simp [List.intercalate]
      · simp

/-- The part of a line after the word. -/
theorem sep_join (sep p : PyStr) (ps : List PyStr) :
    sep ++ List.intercalate [32] (p :: ps) =
      ((sep, p) :: ps.map fun q => ([32], q)).flatMap fun x => x.1 ++ x.2 := by
  induction ps generalizing sep p with
  | nil => simp [List.intercalate]
  | cons q ps ih =>
    have := ih [32] q
    rw [List.map_cons, List.flatMap_cons, ← this]
    simp [List.intercalate]

theorem TextSep.ascii {sep : PyStr} (h : TextSep sep) : ∀ c ∈ sep, isAsciiSpace c = true := by
  intro c hc
  have := h.2 c hc
  unfold isAsciiSpace
  simp only [Bool.or_eq_true, Bool.and_eq_true, decide_eq_true_eq, beq_iff_eq]
  omega

theorem NumberText.not_space {s : PyStr} (h : NumberText s) : ∀ c ∈ s, isSpace c = false := by
  intro c hc
  have := h.2 c hc
  unfold isSpace
  simp only [Bool.or_eq_false_iff, Bool.and_eq_false_iff, decide_eq_false_iff_not, beq_eq_false_iff_ne]
  omega

theorem NumberText.not_ascii {s : PyStr} (h : NumberText s) : ∀ c ∈ s, isAsciiSpace c = false := by
  intro c hc
  cases ha : isAsciiSpace c with
  | false => rfl
  | true => have := h.not_space c hc; rw [isSpace_of_ascii ha] at this; cases this

theorem ascii_space_iff {c : Code} : isAsciiSpace c = false ↔
    ¬ (9 ≤ c.val ∧ c.val ≤ 13) ∧ c.val ≠ 32 := by
  unfold isAsciiSpace
  simp only [Bool.or_eq_false_iff, Bool.and_eq_false_iff, decide_eq_false_iff_not, beq_eq_false_iff_ne]
  omega

theorem getLast_fields {w : PyStr} {sp : List (PyStr × PyStr)} (h : sp ≠ [])
    (hp : ∀ x ∈ sp, x.2 ≠ [] ∧ ∀ c ∈ x.2, isSpace c = false) :
    ∀ c, (w ++ sp.flatMap fun x => x.1 ++ x.2).getLast? = some c → isSpace c = false := by
  induction sp generalizing w with
  | nil => exact absurd rfl h
  | cons x sp ih =>
    intro c hc
    cases sp with
    | nil =>
      obtain ⟨h1, h2⟩ := hp x (by simp)
      rw [List.flatMap_cons, List.flatMap_nil, List.append_nil, ← List.append_assoc,
        List.getLast?_append_of_ne_nil _ h1] at hc
      exact h2 c (List.mem_of_mem_getLast? hc)
    | cons y sp =>
      rw [List.flatMap_cons, ← List.append_assoc] at hc
      exact ih (by simp) (fun z hz => hp z (List.mem_cons_of_mem _ hz)) c hc

/-- A line of the format has the word and the numbers as its fields. -/
theorem hasFields_line {w sep : PyStr} {ps : List PyStr} (hw : ∀ c ∈ w, isAsciiSpace c = false)
    (hs : TextSep sep) (hp : ∀ p ∈ ps, NumberText p)
    (h0 : ps = [] → ∀ c, w.getLast? = some c → isSpace c = false) :
    HasFields (w ++ sep ++ List.intercalate [32] ps ++ [10]) w ps := by
  cases ps with
  | nil =>
    refine ⟨[], rfl, ⟨hw, by simp, by simp⟩, sep ++ [10], ?_, by simp [List.intercalate], ?_⟩
    · intro c hc
      rcases List.mem_append.mp hc with hc | hc
      · exact isSpace_of_ascii (hs.ascii c hc)
      · rw [List.mem_singleton] at hc; subst hc; decide
    · simpa using h0 rfl
  | cons p ps =>
    refine ⟨(sep, p) :: ps.map fun q => ([32], q), by simp [Function.comp_def], ⟨hw, ?_, ?_⟩, [10],
      ?_, ?_, ?_⟩
    · intro x hx
      rcases List.mem_cons.mp hx with rfl | hx
      · exact ⟨hs.1, hs.ascii⟩
      · obtain ⟨q, _, rfl⟩ := List.mem_map.mp hx
        refine ⟨by simp, ?_⟩
        intro c hc; rw [List.mem_singleton] at hc; subst hc; decide
    · intro x hx
      rcases List.mem_cons.mp hx with rfl | hx
      · exact ⟨(hp p (by simp)).1, (hp p (by simp)).not_ascii⟩
      · obtain ⟨q, hq, rfl⟩ := List.mem_map.mp hx
        have := hp q (List.mem_cons_of_mem _ hq)
        exact ⟨this.1, this.not_ascii⟩
    · intro c hc; rw [List.mem_singleton] at hc; subst hc; decide
    · rw [← sep_join, List.append_assoc w sep]
    · refine getLast_fields (by simp) ?_
      intro x hx
      rcases List.mem_cons.mp hx with rfl | hx
      · exact ⟨(hp p (by simp)).1, (hp p (by simp)).not_space⟩
      · obtain ⟨q, hq, rfl⟩ := List.mem_map.mp hx
        have := hp q (List.mem_cons_of_mem _ hq)
        exact ⟨this.1, this.not_space⟩

/-! ### Loading -/

section
variable {K : Type} [NumText K]

theorem mapRes_parse {xs : List K} (h : ∀ x ∈ xs, Printable x) :
    mapRes NumText.parse (xs.map NumText.str) = .ok xs := by
  rw [mapRes_comp]
  have := mapRes_map (f := fun x : K => NumText.parse (NumText.str x)) (g := id) (xs := xs)
    fun x hx => (h x hx).2
  rw [List.map_id] at this
  exact this

theorem textRow_ok {cols : Nat} {line w : PyStr} {r : List K} (h : HasFields line w (r.map NumText.str))
    (hp : ∀ x ∈ r, Printable x) (hl : r.length = cols) : textRow cols line = .ok (w, r) := by
  unfold textRow
  rw [reSplit_fields h]
  simp only
  rw [mapRes_parse hp, res_bind_ok, assignRow_ok hl]
  rfl

/-- A line whose number of components is neither `cols` nor one is rejected. -/
theorem textRow_wrong {cols : Nat} {line w : PyStr} {ps : List PyStr} (h : HasFields line w ps)
    (h1 : ps.length ≠ cols) (h2 : ps.length ≠ 1) : ∃ e, textRow (K := K) cols line = .error e := by
  unfold textRow
  rw [reSplit_fields h]
  simp only
  cases hm : mapRes (NumText.parse (K := K)) ps with
  | error e => exact ⟨e, rfl⟩
  | ok xs =>
    have hl := mapRes_length hm
    refine ⟨.valueError, ?_⟩
    rw [res_bind_ok]
    have : assignRow cols xs = .error .valueError := by
      unfold assignRow
      rw [if_neg (by omega)]
      match xs, hl with
      | [], _ => rfl
      | [_], hl => exact absurd hl.symm h2
      | _ :: _ :: _, _ => rfl
    rw [this]
    rfl

theorem textRows_err {cols n i : Nat} {stop : Option PyErr} {lines : List PyStr} {line : PyStr} (hi : i < n)
    (hl : lines[i]? = some line) (h : ∃ e, textRow (K := K) cols line = .error e) :
    ∃ e, textRows (K := K) cols stop n lines = .error e := by
  induction n generalizing i lines with
  | zero => omega
  | succ n ih =>
    cases lines with
    | nil => simp at hl
    | cons l ls =>
      rw [textRows]
      cases hr : textRow (K := K) cols l with
      | error e => exact ⟨e, rfl⟩
      | ok r =>
        cases i with
        | zero =>
          simp at hl
          subst hl
          obtain ⟨e, he⟩ := h
          rw [he] at hr
          cases hr
        | succ i =>
          obtain ⟨e, he⟩ := ih (i := i) (lines := ls) (by omega) (by simpa using hl)
          rw [res_bind_ok, he]
          exact ⟨e, rfl⟩

theorem textRows_ok {cols : Nat} {α : Type} {f : α → PyStr} {g : α → PyStr × List K} {xs : List α}
    (stop : Option PyErr) (h : ∀ x ∈ xs, textRow cols (f x) = .ok (g x)) :
    textRows cols stop xs.length (xs.map f) = .ok (xs.map g) := by
  induction xs with
  | nil => rfl
  | cons x xs ih =>
    rw [List.length_cons, List.map_cons, textRows, h x (by simp), res_bind_ok,
      ih fun y hy => h y (List.mem_cons_of_mem _ hy)]
    rfl

variable [NumOps K]

omit [NumText K] in
theorem loadTextLines_ok [NumText K] {cols : Nat} {rows : List (PyStr × List K)} {file : Lines}
    (hs : ShapeOk rows.length cols) (hr : textRows cols file.stop rows.length file.lines = .ok rows)
    (hn : (rows.map Prod.fst).Nodup) :
    loadTextLines file (rows.length : Int) (cols : Int) = .ok (w2vResult cols rows) := by
  unfold loadTextLines
  rw [zerosShape_ok hs, res_bind_ok]
  simp only
  rw [hr, res_bind_ok, Nat.sub_self, List.replicate_zero, List.append_nil]
  unfold normalizeMatrix
  simp only
  rw [Vocab.new_ok.mpr ⟨hn, rfl⟩, res_bind_ok]
  exact w2vResult_new

/-! ### Files of the format -/

/-- The text of one row. -/
def rowText (sep : PyStr) (p : PyStr × List PyStr) : PyStr := p.1 ++ sep ++ List.intercalate [32] p.2

/-- A character that is neither a line break nor a surrogate. -/
def Clean (c : Code) : Prop := c.val ≠ 10 ∧ c.val ≠ 13 ∧ (c.val < 0xD800 ∨ 0xDFFF < c.val)

theorem mem_intercalate {c : Code} {ps : List PyStr} (h : c ∈ List.intercalate [32] ps) :
    c = 32 ∨ ∃ p ∈ ps, c ∈ p := by
  rw [← joinSp_eq] at h
  induction ps with
  | nil => cases h
  | cons p ps ih =>
    cases ps with
    | nil => exact Or.inr ⟨p, by simp, h⟩
    | cons q ps =>
      rw [joinSp] at h
      · rcases List.mem_append.mp h with h | h
        · exact Or.inr ⟨p, by simp, h⟩
        · rcases List.mem_cons.mp h with h | h
          · exact Or.inl h
          · rcases ih h with h | ⟨r, h1, h2⟩
            · exact Or.inl h
            · exact Or.inr ⟨r, List.mem_cons_of_mem _ h1, h2⟩
      · simp

theorem rowText_clean {sep : PyStr} (hs : TextSep sep) {p : PyStr × List PyStr} (hw : TextWord p.1)
    (hp : ∀ q ∈ p.2, NumberText q) : ∀ c ∈ rowText sep p, Clean c := by
  intro c hc
  unfold rowText at hc
  rcases List.mem_append.mp hc with hc | hc
  · rcases List.mem_append.mp hc with hc | hc
    · have := ascii_space_iff.mp (hw.1 c hc)
      exact ⟨by omega, by omega, hw.2 c hc⟩
    · have := hs.2 c hc
      exact ⟨by omega, by omega, by omega⟩
  · rcases mem_intercalate hc with rfl | ⟨q, hq, hcq⟩
    · exact ⟨by decide, by decide, by decide⟩
    · have := (hp q hq).2 c hcq
      exact ⟨by omega, by omega, by omega⟩

theorem decimal_clean (n : Nat) : ∀ c ∈ decimal n, Clean c := by
  intro c hc
  have := decimal_digits n c hc
  exact ⟨by omega, by omega, by omega⟩

/-- Lines written one after the other are read back. -/
theorem textLines_ok [TextIO] (lossy : Bool) {ls : List PyStr} (h : ∀ l ∈ ls, ∀ c ∈ l, Clean c) :
    textLines lossy (utf8 (ls.flatMap fun l => l ++ [10])) = ⟨ls.map fun l => l ++ [10], none⟩ := by
  have hm : ∀ c ∈ ls.flatMap fun l => l ++ [10], c.val ≠ 13 ∧ (c.val < 0xD800 ∨ 0xDFFF < c.val) := by
    intro c hc
    obtain ⟨l, hl, hc⟩ := List.mem_flatMap.mp hc
    rcases List.mem_append.mp hc with hc | hc
    · exact (h l hl c hc).2
    · rw [List.mem_singleton] at hc; subst hc; exact ⟨by decide, by decide⟩
  rw [textLines_of_decode (decodeLossy_utf8 lossy (any_surrogate.mpr fun c hc => (hm c hc).2)),
    newlines_self fun c hc => (hm c hc).1,
    linesOf_flatMap fun l hl c hc => (h l hl c hc).1]

theorem textFile_eq (dims : Bool) (sep : PyStr) (cols : Nat) (rows : List (PyStr × List PyStr)) :
    textFile dims sep cols rows =
      ((if dims then [decimal rows.length ++ [32] ++ decimal cols] else []) ++
        rows.map (rowText sep)).flatMap fun l => l ++ [10] := by
  unfold textFile
  rw [List.flatMap_append, List.flatMap_map]
  congr 1
  cases dims <;> simp

omit [NumOps K] in
theorem TextRows.clean {cols : Nat} {rows : List (PyStr × List K)} (h : TextRows cols rows)
    {sep : PyStr} (hs : TextSep sep) : ∀ l ∈ (strRows rows).map (rowText sep), ∀ c ∈ l, Clean c := by
  intro l hl
  obtain ⟨q, hq, rfl⟩ := List.mem_map.mp hl
  obtain ⟨p, hp, rfl⟩ := List.mem_map.mp hq
  refine rowText_clean hs (h.words p hp) ?_
  intro s hs'
  obtain ⟨x, hx, rfl⟩ := List.mem_map.mp hs'
  exact (h.nums p hp x hx).1

omit [NumOps K] in
theorem TextRows.fields {cols : Nat} {rows : List (PyStr × List K)} (h : TextRows cols rows)
    {sep : PyStr} (hs : TextSep sep) {p : PyStr × List K} (hp : p ∈ rows) :
    HasFields (rowText sep (p.1, p.2.map NumText.str) ++ [10]) p.1 (p.2.map NumText.str) := by
  refine hasFields_line (h.words p hp).1 hs ?_ ?_
  · intro s hs'
    obtain ⟨x, hx, rfl⟩ := List.mem_map.mp hs'
    exact (h.nums p hp x hx).1
  · intro he
    have : p.2 = [] := by simpa using he
    refine h.zero ?_ p hp
    rw [← h.len p hp, this]; rfl

omit [NumOps K] in
theorem TextRows.rows {cols : Nat} {rows : List (PyStr × List K)} (h : TextRows cols rows)
    {sep : PyStr} (hs : TextSep sep) :
    textRows cols none rows.length (((strRows rows).map (rowText sep)).map fun l => l ++ [10]) = .ok rows := by
  unfold strRows
  rw [List.map_map, List.map_map]
  have := textRows_ok (K := K) (cols := cols) (xs := rows)
    (f := (fun l => l ++ [10]) ∘ rowText sep ∘ fun p : PyStr × List K => (p.1, p.2.map NumText.str))
    (g := id) none fun p hp => textRow_ok (h.fields hs hp) (h.nums p hp) (h.len p hp)
  rw [List.map_id] at this
  exact this

theorem loadTextDims_ok [TextIO] (lossy : Bool) {cols : Nat} {rows : List (PyStr × List K)}
    (h : TextRows cols rows) {sep : PyStr} (hs : TextSep sep) :
    loadTextDims lossy (utf8 (textFile true sep cols (strRows rows))) = .ok (w2vResult cols rows) := by
  unfold loadTextDims
  have hlen : (strRows rows).length = rows.length := by simp [strRows]
  rw [textFile_eq, textLines_ok]
  · simp only [if_true, List.singleton_append, List.map_cons, Lines.next, res_bind_ok]
    have := twoInts_dims rows.length cols
    unfold dimsLine at this
    rw [hlen, this, res_bind_ok]
    exact loadTextLines_ok h.shape (h.rows hs) h.nodup
  · intro l hl
    rw [if_pos rfl, List.singleton_append] at hl
    rcases List.mem_cons.mp hl with rfl | hl
    · intro c hc
      simp only [List.mem_append, List.mem_singleton] at hc
      rcases hc with (hc | rfl) | hc
      · exact decimal_clean _ c hc
      · exact ⟨by decide, by decide, by decide⟩
      · exact decimal_clean _ c hc
    · exact h.clean hs l hl

theorem loadText_ok [TextIO] (lossy : Bool) {cols : Nat} {rows : List (PyStr × List K)}
    (h : TextRows cols rows) (hne : rows ≠ []) {sep : PyStr} (hs : TextSep sep) :
    loadText lossy (utf8 (textFile false sep cols (strRows rows))) = .ok (w2vResult cols rows) := by
  unfold loadText
  rw [textFile_eq, textLines_ok]
  · simp only [if_neg (Bool.false_ne_true), List.nil_append]
    have hr := h.rows hs
    have hl := loadTextLines_ok (file := ⟨_, none⟩) h.shape hr h.nodup
    cases rows with
    | nil => exact absurd rfl hne
    | cons p ps =>
      have hf := reSplit_fields (h.fields hs (p := p) (by simp))
      simp only [strRows, List.map_cons, Lines.next, Lines.all, res_bind_ok] at hl ⊢
      rw [hf]
      have hc : (p.1 :: p.2.map NumText.str).length - 1 = cols := by
        have := h.len p (by simp)
        simpa using this
      rw [hc]
      have hn : (((ps.map fun p => (p.1, p.2.map NumText.str)).map (rowText sep)).map
          (fun l => l ++ [10])).length = ps.length := by simp
      rw [hn]
      exact hl
  · intro l hl
    simp only [if_neg (Bool.false_ne_true), List.nil_append] at hl
    exact h.clean hs l hl

/-! ### Writing -/

theorem writeStr_inv {s : PyStr} {b b' : Bytes} {u : Unit} (h : writeStr s b = (.ok u, b')) :
    s.any isSurrogate = false ∧ b' = b ++ utf8 s := by
  obtain ⟨x, s1, h1, h2⟩ := wr_bind_inv h
  obtain ⟨hx, rfl⟩ := wr_lift_inv h1
  obtain ⟨rfl, hs⟩ := encode_ok hx
  obtain ⟨rfl, _⟩ := wr_bytes_inv h2
  exact ⟨hs, rfl⟩

theorem writeStr_ok {s : PyStr} {b : Bytes} (h : s.any isSurrogate = false)
    (hl : (b ++ utf8 s).length < maxSize) : writeStr s b = (.ok (), b ++ utf8 s) := by
  unfold writeStr
  rw [encode_eq h, wr_bind_ok (wr_lift_ok _ _)]
  exact wr_bytes_ok hl

theorem textWriteRows_inv {m : Storage K} {norms : Option (List K)} {sep : PyStr}
    {words : List PyStr} {i : Nat} {s s' : Bytes} {u : Unit}
    (h : textWriteRows m norms sep i words s = (.ok u, s')) :
    ∃ vs : List (List K), vs.length = words.length ∧
      (∀ (k : Nat) v, vs[k]? = some v → exportRow m norms (i + k) = .ok v) ∧
      (∀ w ∈ words, w.any isSurrogate = false) ∧
      s' = s ++ utf8 ((words.zip (vs.map fun v => v.map NumText.str)).flatMap
        fun p => p.1 ++ sep ++ List.intercalate [32] p.2 ++ [10]) := by
  induction words generalizing i s with
  | nil =>
    obtain ⟨_, rfl⟩ := wr_pure_inv h
    exact ⟨[], rfl, by simp, by simp, by simp [utf8]⟩
  | cons w ws ih =>
    rw [textWriteRows] at h
    obtain ⟨v, s1, h1, k1⟩ := wr_bind_inv h
    obtain ⟨hv, rfl⟩ := wr_lift_inv h1
    obtain ⟨_, s2, h2, k2⟩ := wr_bind_inv k1
    obtain ⟨hsur, rfl⟩ := writeStr_inv h2
    obtain ⟨_, s3, h3, k3⟩ := wr_bind_inv k2
    obtain ⟨_, rfl⟩ := writeStr_inv h3
    obtain ⟨_, s4, h4, k4⟩ := wr_bind_inv k3
    obtain ⟨_, rfl⟩ := writeStr_inv h4
    obtain ⟨_, s5, h5, k5⟩ := wr_bind_inv k4
    obtain ⟨_, rfl⟩ := writeStr_inv h5
    obtain ⟨vs, g1, g2, g3, g4⟩ := ih k5
    refine ⟨v :: vs, by simp [g1], ?_, ?_, ?_⟩
    · intro k v' hk
      cases k with
      | zero => simp at hk; subst hk; exact hv
      | succ k =>
        have := g2 k v' (by simpa using hk)
        rw [← this]
        congr 1
        omega
    · intro x hx
      rcases List.mem_cons.mp hx with rfl | hx
      · exact hsur
      · exact g3 x hx
    · rw [g4, joinSp_eq, List.map_cons, List.zip_cons_cons, List.flatMap_cons]
      simp only [utf8_append, List.append_assoc]

theorem textWriteRows_ok {m : Storage K} {norms : Option (List K)} {sep : PyStr}
    {words : List PyStr} {i : Nat} {s : Bytes} {vs : List (List K)} (hl : vs.length = words.length)
    (hv : ∀ (k : Nat) v, vs[k]? = some v → exportRow m norms (i + k) = .ok v)
    (hw : ∀ w ∈ words, w.any isSurrogate = false) (hsep : sep.any isSurrogate = false)
    (hn : ∀ v ∈ vs, (List.intercalate [32] (v.map NumText.str)).any isSurrogate = false)
    (hsz : (s ++ utf8 ((words.zip (vs.map fun v => v.map NumText.str)).flatMap
        fun p : PyStr × List PyStr => p.1 ++ sep ++ List.intercalate [32] p.2 ++ [10])).length < maxSize) :
    textWriteRows m norms sep i words s = (.ok (), s ++
      utf8 ((words.zip (vs.map fun v => v.map NumText.str)).flatMap
        fun p => p.1 ++ sep ++ List.intercalate [32] p.2 ++ [10])) := by
  induction words generalizing i s vs with
  | nil => simp [textWriteRows, utf8]
  | cons w ws ih =>
    cases vs with
    | nil => cases hl
    | cons v vs =>
      have h0 : exportRow m norms i = .ok v := by simpa using hv 0 v rfl
      rw [List.map_cons, List.zip_cons_cons, List.flatMap_cons, utf8_append, ← List.append_assoc] at hsz ⊢
      have hlen : (s ++ utf8 (w ++ sep ++ List.intercalate [32] (v.map NumText.str) ++ [10])).length
          < maxSize := by
        rw [List.length_append] at hsz
        exact lt_of_le_of_lt (Nat.le_add_right _ _) hsz
      simp only [List.length_append, utf8_append] at hlen
      rw [textWriteRows, h0, wr_bind_ok (wr_lift_ok _ _),
        wr_bind_ok (writeStr_ok (hw w (by simp)) (by simp only [List.length_append]; omega)),
        wr_bind_ok (writeStr_ok hsep (by simp only [List.length_append]; omega)), joinSp_eq,
        wr_bind_ok (writeStr_ok (hn v (by simp)) (by simp only [List.length_append]; omega)),
        wr_bind_ok (writeStr_ok (by decide) (by simp only [List.length_append]; omega))]
      have e : s ++ utf8 w ++ utf8 sep ++ utf8 (List.intercalate [32] (v.map NumText.str)) ++ utf8 [10] =
          s ++ utf8 (w ++ sep ++ List.intercalate [32] (v.map NumText.str) ++ [10]) := by
        simp [utf8_append]
      rw [e]
      exact ih (by simpa using hl) (fun k v' hk => by
        rw [← hv (k + 1) v' (by simpa using hk)]; congr 1; omega)
        (fun x hx => hw x (List.mem_cons_of_mem _ hx))
        (fun x hx => hn x (List.mem_cons_of_mem _ hx)) hsz

omit [NumOps K] in
theorem strRows_zip {words : List PyStr} {vs : List (List K)} :
    strRows (words.zip vs) = words.zip (vs.map fun v => v.map NumText.str) := by
  unfold strRows
  rw [List.zip_map_right]
  rfl

/-- A successful writer writes the format. -/
theorem writeText_inv {dims : Bool} {e : Embeddings K} (he : BuiltEmb e) {sep : PyStr} {bs : Bytes}
    (h : (writeText dims e sep).file = (.ok (), bs)) :
    ∃ vs, ExportedAll e vs ∧ (∀ w ∈ e.vocab.words, w.any isSurrogate = false) ∧
      bs = utf8 (textFile dims sep e.storage.nCols (strRows (e.vocab.words.zip vs))) := by
  have hle := he.words_le
  obtain ⟨m, hm, _, hr, hc, hrow⟩ := slice_words he.storage hle
  rw [← he.vocab.len] at hm
  unfold Wr.file writeText at h
  obtain ⟨m', s1, h1, k1⟩ := wr_bind_inv h
  obtain ⟨hm', rfl⟩ := wr_lift_inv h1
  rw [hm] at hm'
  cases hm'
  have key : ∃ s2, textWriteRows m e.norms sep 0 e.vocab.words s2 = (.ok (), bs) ∧
      s2 = utf8 (if dims then decimal e.vocab.words.length ++ [32] ++ decimal e.storage.nCols ++ [10]
        else []) := by
    cases dims with
    | false => exact ⟨[], k1, rfl⟩
    | true =>
      rw [if_pos rfl] at k1 ⊢
      obtain ⟨_, s2, h2, k2⟩ := wr_bind_inv k1
      obtain ⟨_, rfl⟩ := writeStr_inv h2
      refine ⟨_, k2, ?_⟩
      rw [hr, hc, List.nil_append]
      rfl
  obtain ⟨s2, k2, rfl⟩ := key
  obtain ⟨vs, g1, g2, g3, g4⟩ := textWriteRows_inv k2
  refine ⟨vs, ⟨g1, fun i v hv => ?_⟩, g3, ?_⟩
  · have hi := (List.getElem?_eq_some_iff.mp hv).1
    have := g2 i v hv
    rw [Nat.zero_add] at this
    exact (exportRow_ok he (hrow i (by omega))).mp this
  · rw [g4]
    unfold textFile
    rw [utf8_append, strRows_zip]
    have : (e.vocab.words.zip (vs.map fun v => v.map NumText.str)).length = e.vocab.words.length := by
      simp [g1]
    rw [this]

theorem writeText_ok {dims : Bool} {e : Embeddings K} (he : BuiltEmb e) {sep : PyStr}
    {vs : List (List K)} (hv : ExportedAll e vs) (hw : ∀ w ∈ e.vocab.words, w.any isSurrogate = false)
    (hsep : sep.any isSurrogate = false)
    (hn : ∀ v ∈ vs, (List.intercalate [32] (v.map NumText.str)).any isSurrogate = false)
    (hsz : (utf8 (textFile dims sep e.storage.nCols (strRows (e.vocab.words.zip vs)))).length < maxSize) :
    (writeText dims e sep).file =
      (.ok (), utf8 (textFile dims sep e.storage.nCols (strRows (e.vocab.words.zip vs)))) := by
  have hle := he.words_le
  obtain ⟨m, hm, _, hr, hc, hrow⟩ := slice_words he.storage hle
  rw [← he.vocab.len] at hm
  have hlz : (e.vocab.words.zip (vs.map fun v => v.map NumText.str)).length = e.vocab.words.length := by
    simp [hv.1]
  have hex : ∀ (k : Nat) v, vs[k]? = some v → exportRow m e.norms (0 + k) = .ok v := by
    intro k v hk
    have hi := (List.getElem?_eq_some_iff.mp hk).1
    have h1 := hv.1
    rw [Nat.zero_add]
    exact (exportRow_ok he (hrow k (by omega))).mpr (hv.2 k v hk)
  unfold textFile at hsz ⊢
  rw [utf8_append, strRows_zip, hlz] at hsz ⊢
  unfold Wr.file writeText
  rw [hm, wr_bind_ok (wr_lift_ok _ _)]
  cases dims with
  | false =>
    exact textWriteRows_ok (s := []) hv.1 hex hw hsep hn hsz
  | true =>
    rw [if_pos rfl] at hsz
    rw [if_pos rfl, if_pos rfl, hr, hc]
    have hd : (dimsLine e.vocab.words.length e.storage.nCols).any isSurrogate = false :=
      any_surrogate.mpr fun c hc => by
        have := dimsLine_ascii _ _ c hc
        omega
    have h1 := writeStr_ok (b := []) hd (by
      rw [List.nil_append]
      rw [List.length_append] at hsz
      exact lt_of_le_of_lt (Nat.le_add_right _ _) hsz)
    rw [wr_bind_ok h1, List.nil_append]
    exact textWriteRows_ok hv.1 hex hw hsep hn hsz

end

end FF
