import Verif.Spec.Cut
import Verif.Lemmas.CutText
import Verif.Lemmas.FtCut
import Verif.Props.C39
import Verif.Props.C40
import Verif.Props.C42
import Verif.Props.C57
import Verif.Props.C64
/-! C88: exports that are cut short. -/

namespace FF

section
variable {K : Type} [NumText K]

theorem cutVector_of_row {cols : Nat} {sep w q s r : PyStr} {v : List K} {x : PyStr × List K}
    (hs : TextSep sep) (hw : TextWord w) (hp : ∀ y ∈ v, Printable y) (hl : v.length = cols) (hc : 1 ≤ cols)
    (h : rowText sep (w, v.map NumText.str) = q ++ s)
    (hr : ∀ c ∈ r, 0x80 ≤ c.val) (hrs : r ≠ [] → ∃ c s', s = c :: s' ∧ 0x80 ≤ c.val)
    (hx : ReadsAs cols (q ++ r) x) : x.1 = w ∧ CutVector v x.2 := by
  have hparse : ∀ {xs ys : List K}, (∀ y ∈ xs, Printable y) →
      List.Forall₂ (fun p x => NumText.parse p = .ok x) (xs.map NumText.str) ys → ys = xs := by
    intro xs
    induction xs with
    | nil => intro ys _ h; cases h; rfl
    | cons z zs ih =>
      intro ys hz h
      cases h with
      | cons h1 h2 =>
        have h3 := (hz z (by simp)).2
        rw [h1] at h3
        cases h3
        rw [ih (fun y hy => hz y (List.mem_cons_of_mem _ hy)) h2]
  obtain ⟨h1, p, t, y, hpe, hy, h2⟩ := cut_row hs hw.1 (by
    intro p hp'
    obtain ⟨z, hz, rfl⟩ := List.mem_map.mp hp'
    exact (hp z hz).1) (by simpa using hl) hc h hr hrs hx
  refine ⟨h1, ?_⟩
  rcases h2 with ⟨h2, h3⟩ | ⟨h2, h3⟩
  · obtain ⟨init, z, rfl⟩ : ∃ init z, v = init ++ [z] := by
      rcases List.eq_nil_or_concat v with rfl | ⟨init, z, rfl⟩
      · simp at hl; omega
      · exact ⟨init, z, by simp⟩
    rw [List.map_append, List.map_singleton] at h2 h3
    rw [List.getLast?_concat] at h2
    rw [List.dropLast_concat] at h3
    refine ⟨p, t, z, y, hpe, Option.some.inj h2, hy, .inl ⟨init, rfl, ?_⟩⟩
    have h4 := List.forall₂_take init.length h3
    have h5 := List.forall₂_drop init.length h3
    rw [List.take_left' (by simp)] at h4
    rw [List.drop_left' (by simp)] at h5
    have h6 := hparse (fun z hz => hp z (by simp [hz])) h4
    rw [← List.take_append_drop init.length x.2, h6]
    congr 1
    generalize List.drop init.length x.2 = d at h5
    cases h5 with
    | cons h7 h8 =>
      cases h8
      rw [hy] at h7
      cases h7
      rfl
  · cases v with
    | nil => cases h2
    | cons z zs =>
      exact ⟨p, t, z, y, hpe, Option.some.inj h2, hy, .inr ⟨zs, rfl, by rw [hl]; exact h3⟩⟩

theorem cutVector_refl {v : List K} (hv : v ≠ []) (hp : ∀ y ∈ v, Printable y) : CutVector v v := by
  obtain ⟨init, z, rfl⟩ : ∃ init z, v = init ++ [z] := by
    rcases List.eq_nil_or_concat v with rfl | ⟨init, z, rfl⟩
    · exact absurd rfl hv
    · exact ⟨init, z, by simp⟩
  have := hp z (by simp)
  exact ⟨NumText.str z, [], z, z, this.1.1, by simp, this.2, .inl ⟨init, rfl, rfl⟩⟩

theorem reads_rows {cols : Nat} {sep : PyStr} (hs : TextSep sep) {rows part rs : List (PyStr × List K)}
    (h : TextRows cols rows) (hsub : ∀ p ∈ part, p ∈ rows)
    (hr : List.Forall₂ (ReadsAs cols) ((strRows part).map (rowText sep)) rs) : rs = part := by
  induction part generalizing rs with
  | nil => cases hr; rfl
  | cons p part ih =>
    cases hr with
    | cons h1 h2 =>
      rw [ih (fun p hp => hsub p (List.mem_cons_of_mem _ hp)) h2]
      have hp := hsub p (by simp)
      have h3 := textRow_ok (h.fields hs hp) (h.nums p hp) (h.len p hp)
      have h4 := readsAs_iff.mpr h1
      rw [textRow_congr (l' := rowText sep (p.1, p.2.map NumText.str) ++ [10]) (rstrip_append (by
        intro c hc
        rw [List.mem_singleton] at hc
        subst hc
        decide)).symm, h3] at h4
      cases h4
      rfl

/-- The lines that are read from a cut file stand for the first rows, the last of which may be cut. -/
theorem rows_of_cut {cols : Nat} (hc : 1 ≤ cols) {sep : PyStr} (hs : TextSep sep)
    {rows rs : List (PyStr × List K)} (h : TextRows cols rows) {j : Nat} {q s r : PyStr}
    (hj : j ≤ rows.length)
    (hq : j < rows.length → ((strRows rows).map (rowText sep))[j]? = some (q ++ s))
    (he : j = rows.length → q = [] ∧ r = [])
    (hr : ∀ c ∈ r, 0x80 ≤ c.val) (hrs : r ≠ [] → ∃ c s', s = c :: s' ∧ 0x80 ≤ c.val)
    (hf : List.Forall₂ (ReadsAs cols)
      (((strRows rows).map (rowText sep)).take j ++ if q ++ r = [] then [] else [q ++ r]) rs) (hne : rs ≠ []) :
    ∃ init w v v' more, rows = init ++ (w, v) :: more ∧ CutVector v v' ∧ rs = init ++ [(w, v')] ∧
      (q ++ r = [] → init.length + 1 = j) ∧ (q ++ r ≠ [] → init.length = j) := by
  have hstr : ∀ i, ((strRows rows).map (rowText sep)).take i = (strRows (rows.take i)).map (rowText sep) := by
    intro i
    unfold strRows
    rw [List.map_take, List.map_take]
  rw [hstr] at hf
  by_cases hqr : q ++ r = []
  · rw [if_pos hqr, List.append_nil] at hf
    have h1 := reads_rows hs h (fun p hp => List.mem_of_mem_take hp) hf
    subst h1
    cases j with
    | zero => exact absurd (by simp) hne
    | succ j =>
      have hp := List.getElem_mem (l := rows) (n := j) (by omega)
      refine ⟨rows.take j, rows[j].1, rows[j].2, rows[j].2, rows.drop (j + 1), ?_, ?_, ?_, ?_, ?_⟩
      · show rows = rows.take j ++ rows[j] :: rows.drop (j + 1)
        rw [List.getElem_cons_drop, List.take_append_drop]
      · refine cutVector_refl ?_ (h.nums _ hp)
        have := h.len _ hp
        intro h0
        rw [h0] at this
        simp at this
        omega
      · show rows.take (j + 1) = rows.take j ++ [rows[j]]
        rw [List.take_append_getElem]
      · intro _
        rw [List.length_take]
        omega
      · exact fun hn => absurd hqr hn
  · rw [if_neg hqr] at hf
    have hjl : j < rows.length := by
      rcases Nat.lt_or_ge j rows.length with hlt | hge
      · exact hlt
      · obtain ⟨rfl, rfl⟩ := he (by omega)
        exact absurd rfl hqr
    have hlen := hf.length_eq
    rw [List.length_append, List.length_map, strRows, List.length_map, List.length_take] at hlen
    have h4 := List.forall₂_take j hf
    have h5 := List.forall₂_drop j hf
    rw [List.take_left' (by simp [strRows]; omega)] at h4
    rw [List.drop_left' (by simp [strRows]; omega)] at h5
    have h6 := reads_rows hs h (fun p hp => List.mem_of_mem_take hp) h4
    have hp := List.getElem_mem (l := rows) (n := j) hjl
    have h7 := hq hjl
    unfold strRows at h7
    rw [List.map_map, List.getElem?_map, List.getElem?_eq_getElem hjl] at h7
    generalize hd : rs.drop j = d at h5
    cases h5 with
    | cons h8 h9 =>
      rename_i x _
      cases h9
      obtain ⟨h10, h11⟩ := cutVector_of_row hs (h.words _ hp) (h.nums _ hp) (h.len _ hp) hc
        (Option.some.inj h7) hr hrs h8
      refine ⟨rows.take j, rows[j].1, rows[j].2, x.2, rows.drop (j + 1), ?_, h11, ?_, ?_, ?_⟩
      · show rows = rows.take j ++ rows[j] :: rows.drop (j + 1)
        rw [List.getElem_cons_drop, List.take_append_drop]
      · rw [← List.take_append_drop j rs, h6, hd, ← h10]
      · exact fun hn => absurd hn hqr
      · intro _
        rw [List.length_take]
        omega

variable [NumOps K]

theorem dims_cut [TextIO] (lossy : Bool) (sep : PyStr) (hs : TextSep sep) (cols : Nat) (hc : 1 ≤ cols)
    (rows : List (PyStr × List K)) (h : TextRows cols rows) (hne : rows ≠ []) (k : Nat)
    (hk : k < (utf8 (textFile true sep cols (strRows rows))).length) (e : Embeddings K)
    (he : loadTextDims lossy ((utf8 (textFile true sep cols (strRows rows))).take k) = .ok e) :
    ∃ init w v v', rows = init ++ [(w, v)] ∧ CutVector v v' ∧
      Normalized cols (rows.map Prod.fst) (init.map Prod.snd ++ [v']) e := by
  obtain ⟨first, c, lines, rs, hy, hd, hf, hn, hsh, hnorm⟩ := (C59_dims lossy _ e).mp he
  obtain ⟨rest, stop, hy⟩ := yieldsFirst_iff.mp hy
  have hlen : (strRows rows).length = rows.length := by simp [strRows]
  rw [textFile_eq, if_pos rfl, hlen, List.singleton_append] at hy hk
  obtain ⟨j, q, s, r, rest', h1, _, h2, h3, h4, h5, h6, h7, _⟩ := yields_cut (by
    intro l hl
    rcases List.mem_cons.mp hl with rfl | hl
    · intro x hx
      have := dims_ascii _ _ x hx
      exact ⟨this.2.1, this.2.2, by omega⟩
    · exact h.clean hs l hl) hy
  have hj := h7 hk
  have hr0 : rows.length ≠ 0 := by simpa using hne
  cases j with
  | zero =>
    exfalso
    have h8 := h2 hj
    rw [List.getElem?_cons_zero] at h8
    have h8 := Option.some.inj h8
    have hr : r = [] := by
      by_contra hn
      obtain ⟨x, s', rfl, hx⟩ := h6 hn
      have := dims_ascii rows.length cols x (by rw [h8]; simp)
      omega
    subst hr
    rw [List.take_zero, List.nil_append, List.append_nil] at h1
    split at h1
    · simp at h1
    · simp only [List.cons_append, List.cons.injEq, List.append_eq_nil_iff] at h1
      obtain ⟨rfl, ⟨rfl, _⟩, _⟩ := h1
      exact hr0 (cut_dims h8 hd)
  | succ j =>
    rw [List.take_succ_cons, List.cons_append, List.cons_append, List.cons_append, List.cons.injEq] at h1
    obtain ⟨rfl, h1⟩ := h1
    obtain ⟨e1, e2⟩ : (lines.length : Int) = rows.length ∧ (c : Int) = cols := by
      have a := twoInts_of hd
      have b := twoInts_of (dimsAre_decimal rows.length cols)
      rw [a] at b
      have := Except.ok.inj b
      exact Prod.mk.inj this
    obtain rfl : c = cols := by omega
    have hl : lines.length = rows.length := by omega
    simp only [List.length_cons, List.length_map, hlen, List.getElem?_cons_succ] at hj h2 h3 h4
    -- all rows are read
    have hlen1 := congrArg List.length h1
    simp only [List.length_append, List.length_take, List.length_map, hlen] at hlen1
    have hq : q ++ r ≠ [] := by
      intro h0
      rw [if_pos h0] at hlen1
      simp at hlen1
      omega
    rw [if_neg hq] at hlen1 h1
    simp only [List.length_singleton] at hlen1
    obtain ⟨rfl, rfl⟩ : rest = [] ∧ rest' = [] := by
      constructor <;> exact List.length_eq_zero_iff.mp (by omega)
    rw [List.append_nil, List.append_nil] at h1
    rw [h1] at hf
    have hrs : rs ≠ [] := by
      intro h0
      have := hf.length_eq
      rw [h0] at this
      simp at this
    obtain ⟨init, w, v, v', more, g1, g2, g3, _, g5⟩ := rows_of_cut hc hs h (by omega)
      (fun hj => h2 (by omega)) (fun h0 => h4 (by omega)) h5 h6 (by rw [if_neg hq]; exact hf) hrs
    have hmore : more = [] := by
      have := g5 hq
      have := congrArg List.length g1
      simp only [List.length_append, List.length_cons] at this
      exact List.length_eq_zero_iff.mp (by omega)
    subst hmore
    refine ⟨init, w, v, v', g1, g2, ?_⟩
    rw [g3] at hnorm
    rw [g1]
    simpa using hnorm

theorem text_cut [TextIO] (lossy : Bool) (sep : PyStr) (hs : TextSep sep) (cols : Nat) (hc : 1 ≤ cols)
    (rows : List (PyStr × List K)) (h : TextRows cols rows) (k : Nat)
    (hk : (utf8 (textFile false sep cols (strRows (rows.take 1)))).length ≤ k) (e : Embeddings K)
    (he : loadText lossy ((utf8 (textFile false sep cols (strRows rows))).take k) = .ok e) :
    ∃ init w v v' more, rows = init ++ (w, v) :: more ∧ CutVector v v' ∧
      Normalized cols (init.map Prod.fst ++ [w]) (init.map Prod.snd ++ [v']) e := by
  obtain ⟨text, first, w0, ps0, lines, rs, hd, hsp, hf0, hf, hn, hsh, hnorm⟩ := (C59_text lossy _ e).mp he
  have hy : Yields lossy ((utf8 (textFile false sep cols (strRows rows))).take k) (first :: lines) none :=
    .inl ⟨text, hd, hsp, rfl⟩
  have hlen : (strRows rows).length = rows.length := by simp [strRows]
  have hstr : (strRows (rows.take 1)).map (rowText sep) = ((strRows rows).map (rowText sep)).take 1 := by
    unfold strRows
    rw [List.map_take, List.map_take]
  rw [textFile_eq, if_neg (by decide), List.nil_append] at hy hk
  obtain ⟨j, q, s, r, rest', h1, h0, h2, h3, h4, h5, h6, _, h8⟩ := yields_cut (h.clean hs) hy
  obtain rfl := h0 rfl
  rw [List.append_nil] at h1
  simp only [List.length_map, hlen] at h2 h3 h4 h8
  have hj : rows ≠ [] → 1 ≤ j := by
    intro hr
    refine h8 1 ?_ ?_
    · exact List.length_pos_iff.mpr hr
    · rw [← hstr]; exact hk
  have hrows : rows ≠ [] := by
    rintro rfl
    obtain ⟨rfl, rfl⟩ := h4 (by simpa using h3)
    simp [strRows] at h1
  have hj := hj hrows
  obtain ⟨p, rows', rfl⟩ := List.exists_cons_of_ne_nil hrows
  have hfirst : first = rowText sep (p.1, p.2.map NumText.str) := by
    cases j with
    | zero => omega
    | succ j =>
      have := congrArg List.head? h1
      simpa [strRows] using this
  have hps : ps0.length = cols := by
    have hf1 : HasFields (first ++ [10]) w0 ps0 := by
      obtain ⟨sp, a, b, t, ht, hline, hlast⟩ := hf0
      refine ⟨sp, a, b, t ++ [10], ?_, by rw [hline]; simp, hlast⟩
      intro c hc
      rcases List.mem_append.mp hc with hc | hc
      · exact ht c hc
      · rw [List.mem_singleton] at hc
        subst hc
        decide
    have hp : p ∈ p :: rows' := by simp
    have := fields_same hf1 (by rw [hfirst]; exact h.fields hs hp)
    rw [this.2, List.length_map]
    exact h.len p hp
  rw [hps] at hf hnorm
  rw [h1] at hf
  have hrs : rs ≠ [] := by
    intro h0
    have := hf.length_eq
    rw [h0, ← h1] at this
    simp at this
  obtain ⟨init, w, v, v', more, g1, g2, g3, _, _⟩ := rows_of_cut hc hs h h3 h2 h4 h5 h6 hf hrs
  refine ⟨init, w, v, v', more, g1, g2, ?_⟩
  rw [g3] at hnorm
  simpa using hnorm

theorem length_zip_exported {e : Embeddings K} {vs : List (List K)} (h : ExportedAll e vs) :
    (e.vocab.words.zip vs).map Prod.fst = e.vocab.words ∧ (e.vocab.words.zip vs).map Prod.snd = vs := by
  have := h.1
  exact ⟨List.map_fst_zip (by omega), List.map_snd_zip (by omega)⟩

/-- Text with dimensions: what is loaded from the beginning of an exported file has all words and all vectors
but the last.  Missing: that it has the last vector, see `C88_dims_refuted`. -/
theorem C88_dims_partial [TextIO] (lossy : Bool) (e : Embeddings K) (he : BuiltEmb e) (hr : TextReady e)
    (hc : 1 ≤ e.storage.nCols) (hne : e.vocab.words ≠ []) (sep : PyStr) (hs : TextSep sep) (bs : Bytes)
    (hw : (writeText true e sep).file = (.ok (), bs)) (k : Nat) (hk : k < bs.length) (e' : Embeddings K)
    (hl : loadTextDims lossy (bs.take k) = .ok e') :
    ∃ us v v', ExportedAll e (us ++ [v]) ∧ CutVector v v' ∧
      Normalized e.storage.nCols e.vocab.words (us ++ [v']) e' := by
  obtain ⟨vs, hv, _, rfl⟩ := writeText_inv he hw
  obtain ⟨h1, h2⟩ := length_zip_exported hv
  obtain ⟨init, w, v, v', g1, g2, g3⟩ := dims_cut lossy sep hs _ hc _ (hr.rows he hv) (by
    intro h0
    rw [h0] at h1
    exact hne h1.symm) k hk e' hl
  rw [h1] at g3
  rw [g1] at h2
  simp only [List.map_append, List.map_cons, List.map_nil] at h2
  exact ⟨init.map Prod.snd, v, v', by rw [h2]; exact hv, g2, g3⟩

/-- Text: what is loaded from the beginning of an exported file that has the whole first line are the first
words, with all their vectors but the last.  Missing: that it has all words and the last vector, see
`C88_text_refuted`; and if the first line is not complete, all vectors may have fewer components, see
`C88_text_first_refuted`. -/
theorem C88_text_partial [TextIO] (lossy : Bool) (e : Embeddings K) (he : BuiltEmb e) (hr : TextReady e)
    (hc : 1 ≤ e.storage.nCols) (sep : PyStr) (hs : TextSep sep) (bs : Bytes)
    (hw : (writeText false e sep).file = (.ok (), bs)) (k : Nat) (hk : (10 : UInt8) ∈ bs.take k)
    (e' : Embeddings K) (hl : loadText lossy (bs.take k) = .ok e') :
    ∃ vs j v v', ExportedAll e vs ∧ vs[j]? = some v ∧ CutVector v v' ∧
      Normalized e.storage.nCols (e.vocab.words.take (j + 1)) (vs.take j ++ [v']) e' := by
  obtain ⟨vs, hv, _, rfl⟩ := writeText_inv he hw
  obtain ⟨h1, h2⟩ := length_zip_exported hv
  have hrows := hr.rows he hv
  obtain ⟨init, w, v, v', more, g1, g2, g3⟩ := text_cut lossy sep hs _ hc _ hrows k (by
    cases hz : e.vocab.words.zip vs with
    | nil => simp [strRows, textFile, utf8]
    | cons p rows =>
      by_contra hlt
      rw [hz] at hk
      rw [List.take_succ_cons, List.take_zero] at hlt
      have hcl := hrows.clean hs (rowText sep (p.1, p.2.map NumText.str)) (by
        rw [hz]
        simp [strRows])
      rw [textFile_eq] at hk hlt
      simp only [strRows, Bool.false_eq_true, if_false, List.nil_append, List.map_cons, List.map_nil,
        List.flatMap_cons, List.flatMap_nil, List.append_nil] at hk hlt
      have hlen : (utf8 (rowText sep (p.1, p.2.map NumText.str) ++ [10])).length =
          (utf8 (rowText sep (p.1, p.2.map NumText.str))).length + 1 := by
        rw [utf8_append, List.length_append]
        rfl
      rw [hlen] at hlt
      rw [List.append_assoc, utf8_append, List.take_append_of_le_length (by omega)] at hk
      obtain ⟨x, hx, hxv⟩ := mem_utf8 (List.mem_of_mem_take hk) (by decide)
      exact (hcl x hx).1 hxv) e' hl
  have hj : (e.vocab.words.zip vs)[init.length]? = some (w, v) := by
    rw [g1]; simp
  have hvj := (List.getElem?_zip_eq_some.mp hj)
  refine ⟨vs, init.length, v, v', hv, hvj.2, g2, ?_⟩
  have e1 : init.map Prod.fst ++ [w] = e.vocab.words.take (init.length + 1) := by
    rw [← h1, g1]
    simp [List.take_append]
  have e2 : init.map Prod.snd = vs.take init.length := by
    rw [← h2, g1]
    simp [List.take_append]
  rw [e1, e2] at g3
  exact g3

omit [NumText K] [NumOps K] in
theorem splitLines_append {ls : List PyStr} (hl : ∀ l ∈ ls, NoBreak l) {p : PyStr} (hp : NoBreak p) (hne : p ≠ []) :
    SplitLines ((ls.flatMap fun l => l ++ [10]) ++ p) (ls ++ [p]) := by
  induction ls with
  | nil => exact .last hp hne
  | cons l ls ih =>
    have := SplitLines.lf (hl l (by simp)) (ih fun l hl' => hl l (List.mem_cons_of_mem _ hl'))
    simpa using this

theorem shapeOk_mono {r c r' c' : Nat} (hr : r' ≤ r) (hc : c' ≤ c) (h : ShapeOk r c) : ShapeOk r' c' := by
  unfold ShapeOk at h ⊢
  have : max 1 r' * max 1 c' ≤ max 1 r * max 1 c := Nat.mul_le_mul (by omega) (by omega)
  omega

theorem rowText_ne_nil {sep : PyStr} (hs : TextSep sep) (p : PyStr × List PyStr) : rowText sep p ≠ [] := by
  unfold rowText
  intro h0
  exact hs.1 (List.append_eq_nil_iff.mp (List.append_eq_nil_iff.mp h0).1).2

theorem utf8_shorter {a more : PyStr} (h : more ≠ []) : (utf8 a).length < (utf8 (a ++ more)).length := by
  obtain ⟨c, m, rfl⟩ := List.exists_cons_of_ne_nil h
  have := List.length_pos_iff.mpr (encCode_ne_nil c)
  rw [utf8_append, utf8, List.length_append, List.length_append]
  omega

theorem hasFields_nl {l w : PyStr} {ps : List PyStr} (h : HasFields (l ++ [10]) w ps) : HasFields l w ps := by
  obtain ⟨⟨w', ps'⟩, hf, _⟩ := C41_fields l
  have h1 : HasFields (l ++ [10]) w' ps' := by
    obtain ⟨sp, a, b, t, ht, hline, hlast⟩ := hf
    refine ⟨sp, a, b, t ++ [10], ?_, by rw [hline]; simp, hlast⟩
    intro c hc
    rcases List.mem_append.mp hc with hc | hc
    · exact ht c hc
    · rw [List.mem_singleton] at hc
      subst hc
      decide
  obtain ⟨rfl, rfl⟩ := fields_same h h1
  exact hf

/-- Every exported text file with at least two words, cut after the line of any word but the last, is loaded
without the other words. -/
theorem C88_text_refuted [TextIO] (lossy : Bool) (e : Embeddings K) (he : BuiltEmb e) (hr : TextReady e)
    (sep : PyStr) (hs : TextSep sep) (bs : Bytes) (hw : (writeText false e sep).file = (.ok (), bs))
    (j : Nat) (hj : 1 ≤ j) (hj' : j < e.vocab.words.length) :
    ∃ vs k e', ExportedAll e vs ∧ k < bs.length ∧ loadText lossy (bs.take k) = .ok e' ∧
      Normalized e.storage.nCols (e.vocab.words.take j) (vs.take j) e' := by
  obtain ⟨vs, hv, _, rfl⟩ := writeText_inv he hw
  obtain ⟨h1, h2⟩ := length_zip_exported hv
  have h := hr.rows he hv
  generalize hrows : e.vocab.words.zip vs = rows at *
  have hlen : rows.length = e.vocab.words.length := by rw [← h1, List.length_map]
  have ht : TextRows e.storage.nCols (rows.take j) := by
    refine ⟨fun p hp => h.words p (List.mem_of_mem_take hp), fun h0 p hp => h.zero h0 p (List.mem_of_mem_take hp),
      fun p hp => h.nums p (List.mem_of_mem_take hp), fun p hp => h.len p (List.mem_of_mem_take hp), ?_, ?_⟩
    · rw [List.map_take]
      exact h.nodup.sublist (List.take_sublist _ _)
    · refine shapeOk_mono ?_ (Nat.le_refl _) h.shape
      rw [List.length_take]
      omega
  obtain ⟨e', g1, g2⟩ := C40_load lossy sep hs _ _ ht (by
    rw [Ne, List.take_eq_nil_iff]
    rintro (h0 | h0)
    · omega
    · rw [h0] at hlen; simp at hlen; omega)
  have hcut : utf8 (textFile false sep e.storage.nCols (strRows rows)) =
      utf8 (textFile false sep e.storage.nCols (strRows (rows.take j))) ++
        utf8 (textFile false sep e.storage.nCols (strRows (rows.drop j))) := by
    rw [← utf8_append]
    congr 1
    unfold textFile strRows
    simp only [Bool.false_eq_true, if_false, List.nil_append]
    rw [← List.flatMap_append, ← List.map_append, List.take_append_drop]
  refine ⟨vs, (utf8 (textFile false sep e.storage.nCols (strRows (rows.take j)))).length, e', hv, ?_, ?_, ?_⟩
  · rw [hcut, List.length_append]
    have : 0 < (utf8 (textFile false sep e.storage.nCols (strRows (rows.drop j)))).length := by
      obtain ⟨p, ps, hp⟩ : ∃ p ps, rows.drop j = p :: ps := List.exists_cons_of_ne_nil (by
        rw [Ne, List.drop_eq_nil_iff]
        omega)
      rw [hp, textFile_eq]
      simp only [strRows, Bool.false_eq_true, if_false, List.nil_append, List.map_cons, List.flatMap_cons]
      rw [utf8_append, utf8_append]
      simp only [List.length_append]
      have : (utf8 [10]).length = 1 := rfl
      omega
    omega
  · rw [hcut, List.take_left]
    exact g1
  · rw [List.map_take, List.map_take, h1, h2] at g2
    exact g2

/-- Every exported text file whose first line is cut after a number is loaded as one word with a shorter
vector. -/
theorem C88_text_first_refuted [TextIO] (lossy : Bool) (e : Embeddings K) (he : BuiltEmb e) (hr : TextReady e)
    (sep : PyStr) (hs : TextSep sep) (bs : Bytes) (hw : (writeText false e sep).file = (.ok (), bs))
    (w : PyStr) (ws : List PyStr) (hws : e.vocab.words = w :: ws) (i : Nat) (hi : 1 ≤ i)
    (hi' : i < e.storage.nCols) :
    ∃ v k e', Exported e 0 v ∧ k < bs.length ∧ loadText lossy (bs.take k) = .ok e' ∧
      Normalized i [w] [v.take i] e' := by
  obtain ⟨vs, hv, _, rfl⟩ := writeText_inv he hw
  have h := hr.rows he hv
  have hl := hv.1
  rw [hws] at hl h
  obtain ⟨v, vs, rfl⟩ : ∃ v vs', vs = v :: vs' := List.exists_cons_of_ne_nil (by
    rintro rfl
    simp at hl)
  rw [List.zip_cons_cons] at h
  have hp : (w, v) ∈ (w, v) :: ws.zip vs := by simp
  have hlen : v.length = e.storage.nCols := h.len _ hp
  have htake : ∀ x ∈ v.take i, Printable x := fun x hx => h.nums _ hp x (List.mem_of_mem_take hx)
  have hnum : ∀ q ∈ (v.take i).map NumText.str, NumberText q := by
    intro q hq
    obtain ⟨x, hx, rfl⟩ := List.mem_map.mp hq
    exact (htake x hx).1
  have hne : (v.take i).map NumText.str ≠ [] := by
    rw [Ne, List.map_eq_nil_iff, List.take_eq_nil_iff]
    rintro (h0 | h0)
    · omega
    · rw [h0] at hlen
      simp at hlen
      omega
  have hf : HasFields (rowText sep (w, (v.take i).map NumText.str)) w ((v.take i).map NumText.str) :=
    hasFields_nl (hasFields_line (h.words _ hp).1 hs hnum fun h0 => absurd h0 hne)
  have hclean := rowText_clean hs (p := (w, (v.take i).map NumText.str)) (h.words _ hp) hnum
  obtain ⟨more, hmore, hlong⟩ : ∃ more, textFile false sep e.storage.nCols (strRows ((w, v) :: ws.zip vs)) =
      rowText sep (w, (v.take i).map NumText.str) ++ more ∧ more ≠ [] := by
    have hint : ∀ xs ys : List PyStr, xs ≠ [] → ys ≠ [] →
        List.intercalate [32] (xs ++ ys) = List.intercalate [32] xs ++ 32 :: List.intercalate [32] ys := by
      intro xs ys hx hy
      induction xs with
      | nil => exact absurd rfl hx
      | cons x xs ih =>
        cases xs with
        | nil =>
          cases ys with
          | nil => exact absurd rfl hy
          | cons y ys => rw [← joinSp_eq, ← joinSp_eq, ← joinSp_eq]; simp [joinSp]
        | cons x' xs =>
          have := ih (by simp)
          rw [← joinSp_eq, ← joinSp_eq, ← joinSp_eq] at this ⊢
          simp only [List.cons_append, joinSp] at this ⊢
          rw [this]
          simp
    refine ⟨32 :: List.intercalate [32] ((v.drop i).map NumText.str) ++ [10] ++
      textFile false sep e.storage.nCols (strRows (ws.zip vs)), ?_, by simp⟩
    have hv2 : List.intercalate [32] (v.map NumText.str) =
        List.intercalate [32] ((v.take i).map NumText.str) ++
          32 :: List.intercalate [32] ((v.drop i).map NumText.str) := by
      rw [← hint _ _ hne, ← List.map_append, List.take_append_drop]
      intro h0
      have := congrArg List.length h0
      rw [List.length_map, List.length_drop] at this
      simp at this
      omega
    unfold textFile rowText strRows
    simp only [Bool.false_eq_true, if_false, List.nil_append, List.map_cons, List.flatMap_cons, hv2]
    simp
  have hile : (v.take i).length = i := by rw [List.length_take]; omega
  have hvoc : ([w].map fun x : PyStr => x).Nodup := by simp
  have hread : ReadsAs i (rowText sep (w, (v.take i).map NumText.str)) (w, v.take i) := by
    exact readsAs_iff.mp (textRow_ok hf htake hile)
  refine ⟨v, (utf8 (rowText sep (w, (v.take i).map NumText.str))).length,
    w2vResult i [(w, v.take i)], hv.2 0 v rfl, ?_, ?_, ?_⟩
  · rw [hws, List.zip_cons_cons, hmore]
    exact utf8_shorter hlong
  · rw [hws, List.zip_cons_cons, hmore, utf8_append, List.take_left, C59_text]
    refine ⟨_, _, w, _, [], [(w, v.take i)],
      decodeLossy_iff.mp (decodeLossy_utf8 lossy (any_surrogate.mpr fun c hc => (hclean c hc).2.2)),
      .last (fun c hc => ⟨(hclean c hc).1, (hclean c hc).2.1⟩) ?_, hf, ?_, by simp, ?_, ?_⟩
    · exact rowText_ne_nil hs _
    · rw [List.length_map, hile]
      exact .cons hread .nil
    · rw [List.length_map, hile]
      exact shapeOk_mono (by simp) (by omega) h.shape
    · rw [List.length_map, hile]
      exact w2vResult_normalized (by simp)
  · exact w2vResult_normalized (rows := [(w, v.take i)]) (by simp)

/-- Every exported file with dimensions that is cut after the first of several numbers of the last line is
loaded with this number in place of the others. -/
theorem C88_dims_refuted [TextIO] (lossy : Bool) (e : Embeddings K) (he : BuiltEmb e) (hr : TextReady e)
    (hc : 2 ≤ e.storage.nCols) (hne : e.vocab.words ≠ []) (sep : PyStr) (hs : TextSep sep) (bs : Bytes)
    (hw : (writeText true e sep).file = (.ok (), bs)) :
    ∃ us x xs k e', ExportedAll e (us ++ [x :: xs]) ∧ k < bs.length ∧
      loadTextDims lossy (bs.take k) = .ok e' ∧
      Normalized e.storage.nCols e.vocab.words (us ++ [List.replicate e.storage.nCols x]) e' := by
  obtain ⟨vs, hv, _, rfl⟩ := writeText_inv he hw
  obtain ⟨h1, h2⟩ := length_zip_exported hv
  have h := hr.rows he hv
  generalize hrows : e.vocab.words.zip vs = rows at *
  obtain ⟨init, p, rfl⟩ : ∃ init p, rows = init ++ [p] := by
    rcases List.eq_nil_or_concat rows with rfl | ⟨init, p, rfl⟩
    · exact absurd h1.symm hne
    · exact ⟨init, p, by simp⟩
  obtain ⟨w, v⟩ := p
  have hp : (w, v) ∈ init ++ [(w, v)] := by simp
  have hlen : v.length = e.storage.nCols := h.len _ hp
  obtain ⟨x, v, rfl⟩ : ∃ x v', v = x :: v' := List.exists_cons_of_ne_nil (by
    rintro rfl
    simp at hlen
    omega)
  obtain ⟨y, v, rfl⟩ : ∃ x v', v = x :: v' := List.exists_cons_of_ne_nil (by
    rintro rfl
    simp at hlen
    omega)
  have hx : Printable x := h.nums _ hp x (by simp)
  have hnum : ∀ q ∈ [NumText.str x], NumberText q := by
    intro q hq
    rw [List.mem_singleton.mp hq]
    exact hx.1
  have hf : HasFields (rowText sep (w, [NumText.str x])) w [NumText.str x] :=
    hasFields_nl (hasFields_line (h.words _ hp).1 hs hnum (by simp))
  have hclean := rowText_clean hs (p := (w, [NumText.str x])) (h.words _ hp) hnum
  have hhead : ∀ c ∈ decimal (init ++ [(w, x :: y :: v)]).length ++ [32] ++ decimal e.storage.nCols, Clean c := by
    intro c hc
    have := dims_ascii _ _ c hc
    exact ⟨this.2.1, this.2.2, by omega⟩
  have hcl : ∀ l ∈ (decimal (init ++ [(w, x :: y :: v)]).length ++ [32] ++ decimal e.storage.nCols) ::
      (strRows init).map (rowText sep), ∀ c ∈ l, Clean c := by
    intro l hl
    rcases List.mem_cons.mp hl with rfl | hl
    · exact hhead
    · refine h.clean hs l ?_
      unfold strRows at hl ⊢
      rw [List.map_append, List.map_append]
      exact List.mem_append_left _ hl
  obtain ⟨more, hmore, hlong⟩ : ∃ more, textFile true sep e.storage.nCols
      (strRows (init ++ [(w, x :: y :: v)])) =
      (((decimal (init ++ [(w, x :: y :: v)]).length ++ [32] ++ decimal e.storage.nCols) ::
      (strRows init).map (rowText sep)).flatMap fun l => l ++ [10]) ++ rowText sep (w, [NumText.str x]) ++ more ∧
      more ≠ [] := by
    refine ⟨32 :: List.intercalate [32] ((y :: v).map NumText.str) ++ [10], ?_, by simp⟩
    rw [textFile_eq]
    have hint : rowText sep (w, (x :: y :: v).map NumText.str) = rowText sep (w, [NumText.str x]) ++
        32 :: List.intercalate [32] ((y :: v).map NumText.str) := by
      unfold rowText
      rw [← joinSp_eq, ← joinSp_eq, ← joinSp_eq]
      simp [joinSp]
    have hl2 : (strRows (init ++ [(w, x :: y :: v)])).length = (init ++ [(w, x :: y :: v)]).length := by
      simp [strRows]
    rw [hl2]
    have hsr : strRows (init ++ [(w, x :: y :: v)]) = strRows init ++ [(w, (x :: y :: v).map NumText.str)] := by
      simp [strRows]
    rw [hsr, List.map_append, List.map_singleton, hint]
    simp [List.flatMap_append]
  have hsub : ∀ q ∈ init, q ∈ init ++ [(w, x :: y :: v)] := fun q hq => List.mem_append_left _ hq
  have hread : List.Forall₂ (ReadsAs e.storage.nCols)
      ((strRows init).map (rowText sep) ++ [rowText sep (w, [NumText.str x])])
      (init ++ [(w, List.replicate e.storage.nCols x)]) := by
    refine List.rel_append ?_ (.cons ⟨[NumText.str x], [x], hf, .cons hx.2 .nil, by simp, .inr ⟨x, rfl, rfl⟩⟩ .nil)
    unfold strRows
    rw [List.map_map, List.forall₂_map_left_iff]
    refine List.forall₂_same.mpr ?_
    intro q hq
    exact readsAs_iff.mp (textRow_ok (hasFields_nl (h.fields hs (hsub q hq))) (h.nums q (hsub q hq))
      (h.len q (hsub q hq)))
  have hnames : (init ++ [(w, List.replicate e.storage.nCols x)]).map Prod.fst = e.vocab.words := by
    rw [← h1]
    simp
  refine ⟨init.map Prod.snd, x, y :: v, (utf8 ((((decimal (init ++ [(w, x :: y :: v)]).length ++ [32] ++
    decimal e.storage.nCols) :: (strRows init).map (rowText sep)).flatMap fun l => l ++ [10]) ++
    rowText sep (w, [NumText.str x]))).length, w2vResult e.storage.nCols (init ++ [(w, List.replicate e.storage.nCols x)]),
    ?_, ?_, ?_, ?_⟩
  · rw [← h2] at hv
    simpa using hv
  · rw [hmore]
    exact utf8_shorter hlong
  · rw [hmore, utf8_append _ more, List.take_left, C59_dims]
    refine ⟨decimal (init ++ [(w, x :: y :: v)]).length ++ [32] ++ decimal e.storage.nCols, e.storage.nCols,
      (strRows init).map (rowText sep) ++ [rowText sep (w, [NumText.str x])], _,
      .inl ⟨_, [], decodeLossy_iff.mp (decodeLossy_utf8 lossy (any_surrogate.mpr ?_)), ?_⟩,
      ?_, hread, ?_, ?_, w2vResult_normalized ?_⟩
    · intro c hc
      rcases List.mem_append.mp hc with hc | hc
      · obtain ⟨l, hl, hc⟩ := List.mem_flatMap.mp hc
        rcases List.mem_append.mp hc with hc | hc
        · exact (hcl l hl c hc).2.2
        · rw [List.mem_singleton.mp hc]; decide
      · exact (hclean c hc).2.2
    · rw [List.append_nil]
      exact splitLines_append (fun l hl c hc => ⟨(hcl l hl c hc).1, (hcl l hl c hc).2.1⟩)
        (fun c hc => ⟨(hclean c hc).1, (hclean c hc).2.1⟩) (rowText_ne_nil hs _)
    · have := dimsAre_decimal (init ++ [(w, x :: y :: v)]).length e.storage.nCols
      simpa [strRows] using this
    · rw [hnames, ← h1]
      exact h.nodup
    · have := h.shape
      simpa using this
    · rw [hnames, ← h1]
      exact h.nodup
  · have := w2vResult_normalized (cols := e.storage.nCols) (rows := init ++ [(w, List.replicate e.storage.nCols x)])
      (by rw [hnames, ← h1]; exact h.nodup)
    rw [hnames] at this
    simpa using this

end

/-! ### Binary formats -/

section
variable {K : Type} [NumOps K] [Codec K]

/-- word2vec: what is loaded from the beginning of an exported file has all words and all vectors but the
last, which repeats its first component unless it is right.  Missing: that it is always right, see
`C39_refuted`. -/
theorem C88_word2vec_partial (lossy : Bool) (e : Embeddings K) (he : BuiltEmb e)
    (hwords : ∀ w ∈ e.vocab.words, W2vWord w) (hne : e.vocab.words ≠ [])
    (hsh : ShapeOk e.vocab.words.length e.storage.nCols) (bs : Bytes)
    (hw : (writeWord2vec e).file = (.ok (), bs)) (k : Nat) (hk : k < bs.length) (e' : Embeddings K)
    (hl : Rd.run (loadWord2vec lossy) (bs.take k) = .ok e') :
    ∃ us v v', ExportedAll e (us ++ [v]) ∧
      (v' = v ∨ ∃ x xs, v = x :: xs ∧ v' = List.replicate e.storage.nCols x) ∧
      Normalized e.storage.nCols e.vocab.words
        ((us ++ [v']).map fun v => v.map fun x => (Codec.ofBits (Codec.bits x) : K)) e' := by
  obtain ⟨vs, hv, _, rfl, _⟩ := (C64_word2vec e he bs).mp hw
  have hvl := hv.1
  obtain ⟨ws, w, hws⟩ : ∃ ws w, e.vocab.words = ws ++ [w] := by
    rcases List.eq_nil_or_concat e.vocab.words with h | ⟨init, p, h⟩
    · exact absurd h hne
    · exact ⟨init, p, by simpa using h⟩
  obtain ⟨us, v, rfl⟩ : ∃ us v, vs = us ++ [v] := by
    rcases List.eq_nil_or_concat vs with rfl | ⟨init, p, rfl⟩
    · rw [hws] at hvl; simp at hvl
    · exact ⟨init, p, by simp⟩
  have hul : us.length = ws.length := by
    rw [hws] at hvl
    simpa using hvl
  have hcols : ∀ u ∈ us ++ [v], u.length = e.storage.nCols := by
    intro u hu
    obtain ⟨i, hi, rfl⟩ := List.getElem_of_mem hu
    exact exported_length he (hv.2 i _ (List.getElem?_eq_getElem hi))
  have hzip : ∀ v : List K, e.vocab.words.zip ((us ++ [v]).map fun v => v.map Codec.bits) =
      ws.zip (us.map fun v => v.map Codec.bits) ++ [(w, v.map Codec.bits)] := by
    intro v
    rw [hws, List.map_append, List.zip_append (by simp [hul])]
    rfl
  -- the rows with another last vector
  have hrows : ∀ v' : List K, v'.length = e.storage.nCols →
      (∀ p ∈ ws.zip (us.map fun v => v.map Codec.bits) ++ [(w, v'.map Codec.bits)], W2vWord p.1) ∧
      (∀ p ∈ ws.zip (us.map fun v => v.map Codec.bits) ++ [(w, v'.map Codec.bits)],
        p.2.length = e.storage.nCols) ∧
      ((ws.zip (us.map fun v => v.map Codec.bits) ++ [(w, v'.map Codec.bits)]).map Prod.fst).Nodup ∧
      ShapeOk (ws.zip (us.map fun v => v.map Codec.bits) ++ [(w, v'.map Codec.bits)]).length e.storage.nCols ∧
      ∃ e1 : Embeddings K, Rd.run (loadWord2vec lossy) (w2vFile e.storage.nCols
        (ws.zip (us.map fun v => v.map Codec.bits) ++ [(w, v'.map Codec.bits)])) = .ok e1 ∧
        Normalized e.storage.nCols e.vocab.words
          ((us ++ [v']).map fun v => v.map fun x => (Codec.ofBits (Codec.bits x) : K)) e1 := by
    intro v' hv'
    have hfst : (ws.zip (us.map fun v => v.map Codec.bits) ++ [(w, v'.map Codec.bits)]).map Prod.fst =
        e.vocab.words := by
      rw [List.map_append, List.map_fst_zip (by simp [hul]), hws]
      rfl
    have a1 : ∀ p ∈ ws.zip (us.map fun v => v.map Codec.bits) ++ [(w, v'.map Codec.bits)], W2vWord p.1 := by
      intro p hp
      exact hwords _ (by rw [← hfst]; exact List.mem_map_of_mem hp)
    have a2 : ∀ p ∈ ws.zip (us.map fun v => v.map Codec.bits) ++ [(w, v'.map Codec.bits)],
        p.2.length = e.storage.nCols := by
      intro p hp
      rcases List.mem_append.mp hp with hp | hp
      · obtain ⟨u, hu, hup⟩ := List.mem_map.mp (List.of_mem_zip hp).2
        rw [← hup, List.length_map]
        exact hcols u (by simp [hu])
      · rw [List.mem_singleton] at hp
        subst hp
        simpa using hv'
    have a3 : ((ws.zip (us.map fun v => v.map Codec.bits) ++ [(w, v'.map Codec.bits)]).map Prod.fst).Nodup := by
      rw [hfst]
      exact he.vocab.nodup
    have a4 : ShapeOk (ws.zip (us.map fun v => v.map Codec.bits) ++ [(w, v'.map Codec.bits)]).length
        e.storage.nCols := by
      rw [← List.length_map (f := Prod.fst), hfst]
      exact hsh
    obtain ⟨e1, h1, h2⟩ := C38_load (K := K) lossy e.storage.nCols _ a1 a2 a3 a4
    refine ⟨a1, a2, a3, a4, e1, h1, ?_⟩
    rw [hfst] at h2
    have e3 : ((ws.zip (us.map fun v => v.map Codec.bits) ++ [(w, v'.map Codec.bits)]).map
        fun p => p.2.map (Codec.ofBits (K := K))) =
        (us ++ [v']).map fun v => v.map fun x => (Codec.ofBits (Codec.bits x) : K) := by
      have : ∀ r : List (PyStr × List F32), (r.map fun p => p.2.map (Codec.ofBits (K := K))) =
          (r.map Prod.snd).map fun r => r.map Codec.ofBits := by
        intro r
        rw [List.map_map]; rfl
      rw [this, List.map_append, List.map_snd_zip (by simp [hul])]
      simp [Function.comp_def]
    rw [e3] at h2
    exact h2
  have hvc : v.length = e.storage.nCols := hcols v (by simp)
  obtain ⟨a1, a2, a3, a4, e1, b1, b2⟩ := hrows v hvc
  rw [hzip] at hk hl
  rcases (C39_exact (K := K) lossy _ _ a1 a2 a3 (by simp) a4 k hk).mp ⟨e', hl⟩ with h | ⟨h, h', h''⟩
  · have := C39_newline (K := K) lossy _ _ a1 a2 a3 (by simp) a4
    rw [show k = (w2vFile e.storage.nCols (ws.zip (us.map fun v => v.map Codec.bits) ++
      [(w, v.map Codec.bits)])).length - 1 by omega, this, b1] at hl
    cases hl
    exact ⟨us, v, v, hv, .inl rfl, b2⟩
  · obtain ⟨x, xs, rfl⟩ : ∃ x xs, v = x :: xs := List.exists_cons_of_ne_nil (by
      rintro rfl
      simp at hvc
      omega)
    obtain ⟨_, _, _, _, e2, c1, c2⟩ := hrows (List.replicate e.storage.nCols x) (by simp)
    rw [List.map_cons] at a1 a2 a3 a4 hl h' h''
    rw [C39_broadcast (K := K) lossy _ _ _ _ _ a1 a2 a3 a4 k h (by omega) (by omega)] at hl
    rw [List.map_replicate] at c1
    rw [c1] at hl
    cases hl
    exact ⟨us, x :: xs, _, hv, .inr ⟨x, xs, rfl, rfl⟩, c2⟩

theorem loadFasttext_front {f : FtFile} (hf : f.OK) (lossy : Bool) :
    ∃ e : Embeddings K, ∀ post, Rd.run (loadFasttext lossy)
      (FtFile.headerBytes ++ (f.cfgBytes ++ (f.dictBytes ++ f.matrixBytes)) ++ post) = .ok e := by
  obtain ⟨out, e, h1, h2, h3⟩ := hf.finish (K := K)
  refine ⟨e, fun post => ?_⟩
  have hp : Parses (loadFasttext lossy : Rd (Embeddings K)) [] (FtFile.headerBytes ++
      (f.cfgBytes ++ (f.dictBytes ++ f.matrixBytes))) e := by
    unfold loadFasttext
    refine Parses.bind (readFtHeader_parses _) (Parses.bind (readFtCfg_parses hf _)
      (Parses.bind (readFtVocab_parses lossy hf _) (Parses.bind_last (readFtStorage_parses hf h1 _) ?_)))
    exact Parses.lift _ h2
  exact hp.run post

/-- fastText: the beginning of an exported file is loaded exactly if nothing but a part of the copy of the
storage at the end is missing, and then as the complete file is. -/
theorem C88_fasttext (lossy : Bool) (e : Embeddings K) (he : BuiltEmb e)
    (hnul : ∀ w ∈ e.vocab.words, ∀ c ∈ w, c.val ≠ 0) (bs : Bytes)
    (hw : (writeFasttext e).file = (.ok (), bs)) (k : Nat) (e' : Embeddings K) :
    Rd.run (loadFasttext lossy) (bs.take k) = .ok e' ↔
      Rd.run (loadFasttext lossy) bs = .ok e' ∧
        bs.length ≤ k + 4 * (e.storage.nRows * e.storage.nCols) := by
  obtain ⟨ix, m, _, hsub, hst, _, _, _, hlen, _⟩ := (C64_fasttext e he bs).mp hw
  have hf : FtEmb e ix m := ⟨he, hsub, hst, by omega⟩
  obtain ⟨vs, h1, h2, h3, h4, h5⟩ := writeFasttext_inv hf hw
  have hc : ∀ v ∈ vs, v.length = m.cols := by
    intro v hv
    obtain ⟨i, hi, rfl⟩ := List.getElem_of_mem hv
    obtain ⟨_, _, _, _, _, _, _, _, h, _⟩ := h3 i _ _
      (List.getElem?_eq_getElem (by omega)) (List.getElem?_eq_getElem hi)
    exact h
  rw [h4] at h5
  have hok := ftExportOf_ok hf h2 hnul h1 hc h5
  have hout : (ftExportOf ix e m vs).output.length = 4 * (e.storage.nRows * e.storage.nCols) := by
    show (f32sLE (bitRows m.rows).flatten).length = _
    have hbits : ∀ r ∈ bitRows m.rows, r.length = m.cols := by
      intro r hr
      obtain ⟨v, hv, rfl⟩ := List.mem_map.mp hr
      rw [List.length_map]
      exact hf.wf v hv
    rw [length_f32sLE, flatten_length_of hbits, bitRows, List.length_map, hst]
    rfl
  obtain ⟨e1, he1⟩ := loadFasttext_front (K := K) hok lossy
  have hb : (ftExportOf ix e m vs).bytes = FtFile.headerBytes ++ ((ftExportOf ix e m vs).cfgBytes ++
      ((ftExportOf ix e m vs).dictBytes ++ (ftExportOf ix e m vs).matrixBytes)) ++
      (ftExportOf ix e m vs).output := by
    unfold FtFile.bytes; simp only [List.append_assoc]
  rw [h4]
  have hwhole : Rd.run (loadFasttext lossy) (ftExportOf ix e m vs).bytes = .ok e1 := by
    rw [hb]; exact he1 _
  constructor
  · intro hr
    by_cases hk : k + (ftExportOf ix e m vs).output.length < (ftExportOf ix e m vs).bytes.length
    · obtain ⟨er, her⟩ := C57_truncated (K := K) _ hok lossy k hk
      rw [her] at hr
      cases hr
    · refine ⟨?_, by omega⟩
      rw [hb, List.take_append, List.take_of_length_le (by
        rw [hb, List.length_append] at hk; omega), he1] at hr
      rw [hwhole, hr]
  · rintro ⟨hr, hk⟩
    rw [hb, List.take_append, List.take_of_length_le (by
        rw [← hout, hb, List.length_append] at hk; omega), he1]
    rw [hwhole] at hr
    exact hr

end

/-! ### The hypotheses can be met -/

namespace Sample

attribute [local instance] f32Ops f32Text textIO

theorem sep_space : TextSep [32] := ⟨by decide, by
  intro c hc; rw [List.mem_singleton] at hc; subst hc; decide⟩

theorem fileDims : (writeText true embBucket [32]).file =
    (.ok (), (writeText true embBucket [32]).file.2) := by decide +kernel

theorem fileText : (writeText false embBucket [32]).file =
    (.ok (), (writeText false embBucket [32]).file.2) := by decide +kernel

/-- `45 54` is cut to `45 5`: this is loaded, and the theorem applies. -/
example : ∃ e', loadTextDims false ((writeText true embBucket [32]).file.2.take 28) = .ok e' ∧
    ∃ us v v', ExportedAll embBucket (us ++ [v]) ∧ CutVector v v' ∧ Normalized 2 words (us ++ [v']) e' := by
  obtain ⟨e', h⟩ := ok_of_errOf (r := loadTextDims (K := F32) false
    ((writeText true embBucket [32]).file.2.take 28)) (by decide +kernel)
  exact ⟨e', h, C88_dims_partial false embBucket builtEmbBucket textReady (by decide) (by decide) [32] sep_space _
    fileDims 28 (by decide +kernel) e' h⟩

/-- The vector is `45 5`, and as `45 54` is cut. -/
example : (match loadTextDims (K := F32) false ((writeText true embBucket [32]).file.2.take 28) with
    | .ok e' => decide (e'.storage.nRows = 3) && (e'.vocab.words == words)
    | .error _ => false) = true := by decide +kernel

example : CutVector (K := F32) [45, 54] [45, 5] :=
  ⟨[53], [52], 54, 5, by decide, by decide, by decide, .inl ⟨[45], rfl, rfl⟩⟩

example : CutVector (K := F32) [45, 54] [4, 4] :=
  ⟨[52], [53], 45, 4, by decide, by decide, by decide, .inr ⟨[54], rfl, rfl⟩⟩

/-- Not everything is a cut vector. -/
example : ¬ CutVector (K := F32) [45, 54] [45, 6] := by
  rintro ⟨p, t, x, y, hp, hx, hy, ⟨init, h1, h2⟩ | ⟨rest, h1, h2⟩⟩
  · obtain ⟨h3, h4⟩ := List.append_inj' (s₁ := [45]) (t₁ := [54]) h1 rfl
    obtain ⟨h5, h6⟩ := List.append_inj' (s₁ := [45]) (t₁ := [6]) h2 rfl
    cases h4
    cases h6
    have h7 : p = [53] ∨ p = [53, 52] := by
      have h8 : [53, 52] = p ++ t := hx
      match p, hp, h8 with
      | [a], _, h8 => simp at h8; simp [h8.1]
      | [a, b], _, h8 => simp at h8; simp [h8.1, h8.2.1]
      | a :: b :: c :: d, _, h8 => simp at h8
    rcases h7 with rfl | rfl <;> exact absurd hy (by decide)
  · have : (45 : F32) = 6 := by
      have h3 : ([45, 6] : List F32) = [y, y] := h2
      injection h3 with h3 h4
      injection h4 with h4
      rw [h3, h4]
    exact absurd this (by decide)

example : ∃ us x xs k e', ExportedAll embBucket (us ++ [x :: xs]) ∧
    k < (writeText true embBucket [32]).file.2.length ∧
    loadTextDims true ((writeText true embBucket [32]).file.2.take k) = .ok e' ∧
    Normalized 2 words (us ++ [List.replicate 2 x]) e' :=
  C88_dims_refuted true embBucket builtEmbBucket textReady (by decide) (by decide) [32] sep_space _ fileDims

/-- In the middle of the second line. -/
example : ∃ e', loadText false ((writeText false embBucket [32]).file.2.take 14) = .ok e' ∧
    ∃ vs j v v', ExportedAll embBucket vs ∧ vs[j]? = some v ∧ CutVector v v' ∧
      Normalized 2 (words.take (j + 1)) (vs.take j ++ [v']) e' := by
  obtain ⟨e', h⟩ := ok_of_errOf (r := loadText (K := F32) false
    ((writeText false embBucket [32]).file.2.take 14)) (by decide +kernel)
  exact ⟨e', h, C88_text_partial false embBucket builtEmbBucket textReady (by decide) [32] sep_space _
    fileText 14 (by decide +kernel) e' h⟩

example : ∃ vs k e', ExportedAll embBucket vs ∧ k < (writeText false embBucket [32]).file.2.length ∧
    loadText false ((writeText false embBucket [32]).file.2.take k) = .ok e' ∧
    Normalized 2 (words.take 2) (vs.take 2) e' :=
  C88_text_refuted false embBucket builtEmbBucket textReady [32] sep_space _ fileText 2 (by decide) (by decide)

example : ∃ v k e', Exported embBucket 0 v ∧ k < (writeText false embBucket [32]).file.2.length ∧
    loadText false ((writeText false embBucket [32]).file.2.take k) = .ok e' ∧
    Normalized 1 [[97]] [v.take 1] e' :=
  C88_text_first_refuted false embBucket builtEmbBucket textReady [32] sep_space _ fileText [97] _ rfl 1
    (by decide) (by decide)

/-- Without the last newline, and without the last number. -/
example (k : Nat) (hk : k = 39 ∨ k = 35) :
    ∃ e', Rd.run (loadWord2vec false) ((writeWord2vec embBucket).file.2.take k) = .ok e' ∧
    ∃ us v v', ExportedAll embBucket (us ++ [v]) ∧
      (v' = v ∨ ∃ x xs, v = x :: xs ∧ v' = List.replicate 2 x) ∧
      Normalized 2 words ((us ++ [v']).map fun v => v.map fun x => (Codec.ofBits (Codec.bits x) : F32)) e' := by
  have hf : (writeWord2vec embBucket).file = (.ok (), (writeWord2vec embBucket).file.2) := by decide +kernel
  have hl : (writeWord2vec embBucket).file.2.length = 40 := by decide +kernel
  obtain ⟨e', h⟩ := ok_of_errOf (r := Rd.run (loadWord2vec (K := F32) false)
    ((writeWord2vec embBucket).file.2.take k)) (by rcases hk with rfl | rfl <;> decide +kernel)
  exact ⟨e', h, C88_word2vec_partial false embBucket builtEmbBucket w2vWords (by decide)
    (by unfold ShapeOk; decide) _ hf k (by rcases hk with rfl | rfl <;> omega) e' h⟩

/-- The copy of the storage has 40 bytes. -/
example : ∀ k, (∃ e' : Embeddings F32, Rd.run (loadFasttext false) ((writeFasttext embFt5).file.2.take k) = .ok e') ↔
    (writeFasttext embFt5).file.2.length ≤ k + 40 := by
  intro k
  have hf : (writeFasttext embFt5).file = (.ok (), (writeFasttext embFt5).file.2) := by decide +kernel
  have hn : ∀ w ∈ embFt5.vocab.words, ∀ c ∈ w, c.val ≠ 0 := by
    have h : ∀ w ∈ embFt5.vocab.words, w.all (fun c => c.val != 0) = true := by decide
    intro w hw c hc
    simpa using List.all_eq_true.mp (h w hw) c hc
  obtain ⟨e', h⟩ := ok_of_errOf (r := Rd.run (loadFasttext (K := F32) false) (writeFasttext embFt5).file.2)
    (by decide +kernel)
  constructor
  · rintro ⟨e1, h1⟩
    exact ((C88_fasttext false embFt5 builtEmbFt5 hn _ hf k e1).mp h1).2
  · intro hk
    exact ⟨e', (C88_fasttext false embFt5 builtEmbFt5 hn _ hf k e').mpr ⟨h, hk⟩⟩

end Sample

end FF
