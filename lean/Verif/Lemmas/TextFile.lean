import Verif.Lemmas.Text
import Verif.Spec.TextFile
import Verif.Lemmas.PyInt
/-! Text files with any line ends. -/

namespace FF

theorem Ended.rstrip {l' l : PyStr} (h : Ended l' l) : rstrip l' = rstrip l := by
  rcases h with rfl | rfl
  · exact rstrip_append (by intro c hc; rw [List.mem_singleton] at hc; subst hc; decide)
  · rfl

theorem pieces_snoc (s : PyStr) : ∃ ps, pieces isSpace (s ++ [10]) = ps ++ [[]] ∧
    pieces isSpace s = ps := by
  induction s with
  | nil => exact ⟨[[]], by decide, rfl⟩
  | cons c s ih =>
    obtain ⟨ps, h1, h2⟩ := ih
    rw [List.cons_append, pieces, h1, pieces, h2]
    cases ps with
    | nil => exact absurd h2 (pieces_ne_nil _ _)
    | cons p ps =>
      cases hc : isSpace c
      · exact ⟨_, rfl, rfl⟩
      · exact ⟨_, rfl, rfl⟩

theorem Ended.splitWs {l' l : PyStr} (h : Ended l' l) : splitWs l' = splitWs l := by
  rcases h with rfl | rfl
  · obtain ⟨ps, h1, h2⟩ := pieces_snoc l
    unfold FF.splitWs
    rw [h1, h2, List.filter_append]
    simp
  · rfl

theorem strip_lf (s : PyStr) : strip (s ++ [10]) = strip s := by
  have h10 : ∀ c ∈ ([10] : PyStr), isSpace c = true := by
    intro c hc
    rw [List.mem_singleton.mp hc]
    rfl
  unfold strip
  induction s with
  | nil => decide +kernel
  | cons c s ih =>
    rw [List.cons_append, lstrip, lstrip]
    split
    · exact ih
    · exact rstrip_append (w := c :: s) h10

theorem ended_strip {ls' ls : List PyStr} (h : List.Forall₂ Ended ls' ls) : ls'.map strip = ls.map strip := by
  induction h with
  | nil => rfl
  | cons h _ ih =>
    rw [List.map_cons, List.map_cons, ih]
    rcases h with rfl | rfl
    · rw [strip_lf]
    · rfl

section
variable {K : Type} [NumText K]

theorem Ended.textRow {l' l : PyStr} (h : Ended l' l) (cols : Nat) :
    textRow (K := K) cols l' = textRow cols l := by
  unfold FF.textRow
  rw [h.rstrip]

theorem ended_textRows {ls' ls : List PyStr} (h : List.Forall₂ Ended ls' ls) (cols n : Nat)
    (stop : Option PyErr) : textRows (K := K) cols stop n ls' = textRows cols stop n ls := by
  induction h generalizing n with
  | nil => rfl
  | cons h _ ih =>
    cases n with
    | zero => rfl
    | succ n => rw [textRows, textRows, h.textRow, ih]

variable [NumOps K]

theorem ended_loadTextLines {ls' ls : List PyStr} (h : List.Forall₂ Ended ls' ls) (stop : Option PyErr)
    (rows cols : Int) :
    loadTextLines (K := K) ⟨ls', stop⟩ rows cols = loadTextLines ⟨ls, stop⟩ rows cols := by
  unfold loadTextLines
  cases hz : zerosShape rows cols with
  | error e => rfl
  | ok s =>
    rw [res_bind_ok, res_bind_ok, ended_textRows h]

/-- `load_text` in terms of lines without their ends. -/
theorem loadText_yields [TextIO] {lossy : Bool} {bs : Bytes} {ls : List PyStr} {stop : Option PyErr}
    (h : Yields lossy bs ls stop) :
    loadText (K := K) lossy bs =
      match (generalizing := false) stop, ls with
      | some x, _ => .error x
      | none, [] => .error .valueError
      | none, first :: lines =>
        loadTextLines ⟨first :: lines, none⟩ ((lines.length + 1 : Nat) : Int)
          (((reSplit (rstrip first)).length - 1 : Nat) : Int) := by
  obtain ⟨ls', h0, hl⟩ := textLines_yields h
  clear h
  unfold loadText
  rw [h0]
  cases hl with
  | nil => cases stop <;> rfl
  | cons h1 h2 =>
    cases stop with
    | some x => rfl
    | none =>
      have := ended_loadTextLines (K := K) (.cons h1 h2) none
      show loadTextLines _ _ _ = _
      rw [this, h1.rstrip, h2.length_eq]

theorem loadText_split [TextIO] {lossy : Bool} {bs : Bytes} {text : PyStr} {ls : List PyStr}
    (hd : decodeLossy lossy bs = .ok text) (h : SplitLines text ls) :
    loadText (K := K) lossy bs =
      match (generalizing := false) ls with
      | [] => .error .valueError
      | first :: lines =>
        loadTextLines ⟨first :: lines, none⟩ ((lines.length + 1 : Nat) : Int)
          (((reSplit (rstrip first)).length - 1 : Nat) : Int) := by
  rw [loadText_yields (.inl ⟨text, decodeLossy_iff.mp hd, h, rfl⟩)]
  cases ls <;> rfl

/-- `load_text_dims` in terms of lines without their ends. -/
theorem loadTextDims_yields [TextIO] {lossy : Bool} {bs : Bytes} {ls : List PyStr} {stop : Option PyErr}
    (h : Yields lossy bs ls stop) :
    loadTextDims (K := K) lossy bs =
      match (generalizing := false) ls, stop with
      | [], some x => .error x
      | [], none => .error .stopIteration
      | first :: lines, stop => (twoInts first).bind fun dims => loadTextLines ⟨lines, stop⟩ dims.1 dims.2 := by
  obtain ⟨ls', h0, hl⟩ := textLines_yields h
  clear h
  unfold loadTextDims
  rw [h0]
  cases hl with
  | nil => cases stop <;> rfl
  | cons h1 h2 =>
    have h3 : ∀ {l' l : PyStr}, Ended l' l → twoInts l' = twoInts l := by
      intro l' l h
      unfold twoInts
      rw [h.splitWs]
    show (twoInts _).bind _ = _
    rw [h3 h1]
    simp only
    congr 1
    funext dims
    exact ended_loadTextLines h2 _ _ _

theorem loadTextDims_split [TextIO] {lossy : Bool} {bs : Bytes} {text : PyStr} {ls : List PyStr}
    (hd : decodeLossy lossy bs = .ok text) (h : SplitLines text ls) :
    loadTextDims (K := K) lossy bs =
      match (generalizing := false) ls with
      | [] => .error .stopIteration
      | first :: lines => (twoInts first).bind fun dims => loadTextLines ⟨lines, none⟩ dims.1 dims.2 := by
  rw [loadTextDims_yields (.inl ⟨text, decodeLossy_iff.mp hd, h, rfl⟩)]
  cases ls <;> rfl

end

/-! ### When lines are read -/

section
variable {K : Type} [NumText K]

theorem textRows_iff {cols n : Nat} {stop : Option PyErr} {lines : List PyStr}
    {rs : List (PyStr × List K)} :
    textRows cols stop n lines = .ok rs ↔
      List.Forall₂ (fun l r => textRow cols l = .ok r) (lines.take n) rs ∧
      (lines.length < n → stop = none) := by
  induction n generalizing lines rs with
  | zero =>
    rw [textRows, List.take_zero]
    constructor
    · intro h; cases h; exact ⟨.nil, fun h => by omega⟩
    · rintro ⟨h, _⟩; cases h; rfl
  | succ n ih =>
    cases lines with
    | nil =>
      rw [textRows.eq_def, List.take_nil]
      simp only
      cases stop with
      | none =>
        constructor
        · intro h; cases h; exact ⟨.nil, fun _ => rfl⟩
        · rintro ⟨h, _⟩; cases h; rfl
      | some x =>
        constructor
        · intro h; cases h
        · rintro ⟨_, h⟩; cases h (by simp)
    | cons l ls =>
      rw [textRows, List.take_succ_cons]
      constructor
      · intro h
        cases hr : textRow (K := K) cols l with
        | error e => rw [hr] at h; cases h
        | ok r =>
          rw [hr, res_bind_ok] at h
          cases hrs : textRows (K := K) cols stop n ls with
          | error e => rw [hrs] at h; cases h
          | ok rs' =>
            rw [hrs, res_bind_ok] at h
            cases h
            obtain ⟨h1, h2⟩ := ih.mp hrs
            exact ⟨.cons hr h1, fun h => h2 (by simp at h; omega)⟩
      · rintro ⟨h, hs⟩
        cases h with
        | cons h1 h2 =>
          rw [h1, res_bind_ok, ih.mpr ⟨h2, fun h => hs (by simp; omega)⟩]
          rfl

variable [NumOps K]

theorem loadTextLines_iff {file : Lines} {rows cols : Int} {e : Embeddings K} :
    loadTextLines file rows cols = .ok e ↔
      ∃ (rs : List (PyStr × List K)) (c : Nat), rows = rs.length ∧ cols = c ∧
        rs.length ≤ file.lines.length ∧ ShapeOk rs.length c ∧
        List.Forall₂ (fun l r => textRow c l = .ok r) (file.lines.take rs.length) rs ∧
        (rs.map Prod.fst).Nodup ∧ e = w2vResult c rs := by
  constructor
  · intro h
    unfold loadTextLines at h
    cases hz : zerosShape rows cols with
    | error e => rw [hz] at h; cases h
    | ok s =>
      rw [hz, res_bind_ok] at h
      obtain ⟨h1, h2, h3⟩ := zerosShape_iff.mp hz
      cases hr : textRows (K := K) s.2 file.stop s.1 file.lines with
      | error e => rw [hr] at h; cases h
      | ok rs =>
        rw [hr, res_bind_ok] at h
        dsimp only at h
        have hf := (textRows_iff.mp hr).1
        have hlen := hf.length_eq
        rw [List.length_take] at hlen
        cases hv : Vocab.new (rs.map Prod.fst) none with
        | error e => rw [hv] at h; cases h
        | ok v =>
          rw [hv, res_bind_ok] at h
          obtain ⟨hn, hv'⟩ := Vocab.new_ok.mp hv
          obtain ⟨he, hr1, _⟩ := embNew_iff.mp h
          have hub : v.upperBound = (rs.length : Int) := by
            rw [hv']
            simp [Vocab.upperBound, Vocab.len, enumItems_length]
          rw [hub] at hr1
          have hrows : s.1 = rs.length := by
            simp only [Storage.nRows, normalizeMatrix, List.length_map, List.length_append,
              List.length_replicate] at hr1
            omega
          refine ⟨rs, s.2, by rw [h1, hrows], h2, by omega, by rw [← hrows]; exact h3,
            by rw [← hrows]; exact hf, hn, ?_⟩
          rw [he, hv', hrows, Nat.sub_self, List.replicate_zero, List.append_nil]
          rfl
  · rintro ⟨rs, c, rfl, rfl, hl, hs, hf, hn, rfl⟩
    exact loadTextLines_ok hs (textRows_iff.mpr ⟨hf, fun h => by omega⟩) hn

end

/-! ### The dimensions -/

theorem twoInts_of {first : PyStr} {rows cols : Int} (h : DimsAre first rows cols) :
    twoInts first = .ok (rows, cols) := by
  obtain ⟨t0, a, t1, b, t2, rfl, h0, h1, h2, ha, hb, hane, hbne, h1ne, hr, hc⟩ := h
  have hsp : ∀ t : PyStr, (∀ c ∈ t, isSpace c = true) →
      ∀ x : PyStr, (pieces isSpace (t ++ x)).filter (fun p => p ≠ []) =
        (pieces isSpace x).filter fun p => p ≠ [] := by
    intro t ht x
    rw [pieces_seps ht, List.filter_append]
    simp
  have hend : splitWs t2 = [] := by
    have := hsp t2 h2 []
    rw [List.append_nil] at this
    unfold splitWs
    rw [this]
    rfl
  have htail : splitWs (b ++ t2) = [b] := by
    cases t2 with
    | nil =>
      unfold splitWs
      rw [List.append_nil, pieces_free hb]
      simp [hbne]
    | cons c t2 =>
      have e2 : splitWs t2 = [] := by
        have := hsp [c] (by intro d hd; rw [List.mem_singleton] at hd; subst hd; exact h2 d (by simp)) t2
        unfold splitWs at hend ⊢
        rw [← this]
        exact hend
      unfold splitWs at e2 ⊢
      rw [pieces_append hb (h2 c (by simp)), List.filter_cons, e2]
      simp [hbne]
  have hmid : splitWs (a ++ (t1 ++ (b ++ t2))) = [a, b] := by
    cases t1 with
    | nil => exact absurd rfl h1ne
    | cons c t1 =>
      unfold splitWs at htail ⊢
      rw [List.cons_append, pieces_append ha (h1 c (by simp)), List.filter_cons,
        hsp t1 (fun d hd => h1 d (List.mem_cons_of_mem _ hd)), htail]
      simp [hane]
  have : splitWs (t0 ++ a ++ t1 ++ b ++ t2) = [a, b] := by
    have := hsp t0 h0 (a ++ (t1 ++ (b ++ t2)))
    unfold splitWs at hmid ⊢
    rw [List.append_assoc, List.append_assoc, List.append_assoc, this, hmid]
  unfold twoInts
  rw [this]
  simp only [(pyInt_iff_of_none ha).mpr hr, (pyInt_iff_of_none hb).mpr hc, res_bind_ok]
  rfl

/-- Text as leading whitespace followed by nothing or by something else. -/
theorem lead (sp : Code → Bool) (s : PyStr) : ∃ t r : PyStr, s = t ++ r ∧ (∀ c ∈ t, sp c = true) ∧
    ∀ c, r.head? = some c → sp c = false := by
  induction s with
  | nil => exact ⟨[], [], rfl, by simp, by simp⟩
  | cons c s ih =>
    cases hc : sp c with
    | false => exact ⟨[], c :: s, rfl, by simp, by simpa using hc⟩
    | true =>
      obtain ⟨t, r, rfl, h1, h2⟩ := ih
      refine ⟨c :: t, r, rfl, ?_, h2⟩
      intro d hd
      rcases List.mem_cons.mp hd with rfl | hd
      · exact hc
      · exact h1 d hd

theorem splitWs_cons {s a : PyStr} {rest : List PyStr} (h : splitWs s = a :: rest) :
    ∃ t0 r : PyStr, s = t0 ++ a ++ r ∧ (∀ c ∈ t0, isSpace c = true) ∧ (∀ c ∈ a, isSpace c = false) ∧
      a ≠ [] ∧ splitWs r = rest ∧ ∀ c, r.head? = some c → isSpace c = true := by
  obtain ⟨t0, r0, rfl, h0, h0'⟩ := lead isSpace s
  have e0 : splitWs (t0 ++ r0) = splitWs r0 := by
    unfold splitWs
    rw [pieces_seps h0, List.filter_append]
    simp
  obtain ⟨a', r, rfl, ha, hr⟩ := lead (fun c => !isSpace c) r0
  have ha' : ∀ c ∈ a', isSpace c = false := fun c hc => by simpa using ha c hc
  have hr' : ∀ c, r.head? = some c → isSpace c = true := fun c hc => by simpa using hr c hc
  rw [e0] at h
  have hsr : splitWs (a' ++ r) = (if a' = [] then [] else [a']) ++ splitWs r := by
    cases r with
    | nil =>
      unfold splitWs
      rw [List.append_nil, pieces_free ha']
      by_cases h1 : a' = [] <;> simp [h1, pieces]
    | cons c r =>
      have hc := hr' c rfl
      unfold splitWs
      rw [pieces_append ha' hc, show c :: r = [c] ++ r from rfl,
        pieces_seps (s := [c]) (by intro d hd; rw [List.mem_singleton] at hd; subst hd; exact hc)]
      by_cases h1 : a' = [] <;> simp [h1]
  have hne : a' ≠ [] := by
    rintro rfl
    cases r with
    | nil => cases h
    | cons c r =>
      have := h0' c rfl
      rw [hr' c rfl] at this
      cases this
  rw [hsr, if_neg hne] at h
  cases h
  exact ⟨t0, r, by simp, h0, ha', hne, rfl, hr'⟩

theorem splitWs_nil {s : PyStr} (h : splitWs s = []) : ∀ c ∈ s, isSpace c = true := by
  obtain ⟨t0, r, rfl, h0, h0'⟩ := lead isSpace s
  cases r with
  | nil => simpa using h0
  | cons c r =>
    exfalso
    have hc := h0' c rfl
    have e0 : splitWs (t0 ++ c :: r) = splitWs (c :: r) := by
      unfold splitWs
      rw [pieces_seps h0, List.filter_append]
      simp
    rw [e0] at h
    unfold splitWs at h
    rw [pieces] at h
    cases hp : pieces isSpace r with
    | nil => exact pieces_ne_nil _ _ hp
    | cons p ps =>
      rw [hp] at h
      simp [hc] at h

theorem twoInts_iff {first : PyStr} {rows cols : Int} :
    twoInts first = .ok (rows, cols) ↔ DimsAre first rows cols := by
  refine ⟨fun h => ?_, twoInts_of⟩
  unfold twoInts at h
  split at h
  · rename_i a b he
    cases ha : pyInt a with
    | error e => rw [ha] at h; cases h
    | ok x =>
      cases hb : pyInt b with
      | error e => rw [ha, hb] at h; cases h
      | ok y =>
        rw [ha, hb, res_bind_ok, res_bind_ok] at h
        cases h
        obtain ⟨t0, r, rfl, h0, h1, h2, h3, h4⟩ := splitWs_cons he
        obtain ⟨t1, t2, rfl, k0, k1, k2, k3, _⟩ := splitWs_cons h3
        refine ⟨t0, a, t1, b, t2, by simp, h0, k0, splitWs_nil k3, h1, k1, h2, k2, ?_, (pyInt_iff_of_none h1).mp ha,
          (pyInt_iff_of_none k1).mp hb⟩
        rintro rfl
        cases b with
        | nil => exact k2 rfl
        | cons c b =>
          have := k1 c (by simp)
          rw [h4 c rfl] at this
          cases this
  · cases h

/-- A file in which every line ends with `\n`. -/
theorem yields_lf [TextIO] {lossy : Bool} {ls : List PyStr} (h : ∀ l ∈ ls, NoBreak l)
    (hs : ∀ l ∈ ls, ∀ c ∈ l, c.val < 0xD800 ∨ 0xDFFF < c.val) :
    Yields lossy (utf8 (ls.flatMap (· ++ [10]))) ls none := by
  refine .inl ⟨ls.flatMap (· ++ [10]), decodeLossy_iff.mp (decodeLossy_utf8 lossy (any_surrogate.mpr ?_)),
    ?_, rfl⟩
  · intro c hc
    obtain ⟨l, hl, hc⟩ := List.mem_flatMap.mp hc
    rcases List.mem_append.mp hc with hc | hc
    · exact hs l hl c hc
    · rw [List.mem_singleton] at hc
      subst hc
      exact .inl (by decide)
  · clear hs
    induction ls with
    | nil => exact .nil
    | cons l ls ih =>
      rw [List.flatMap_cons, List.append_assoc, List.singleton_append]
      exact .lf (h l (by simp)) (ih fun l hl => h l (List.mem_cons_of_mem _ hl))

namespace Sample

theorem noBreak {l : PyStr} (h : (l.all fun c => !(c == 10) && !(c == 13)) = true) : NoBreak l := by
  intro c hc
  have := List.all_eq_true.mp h c hc
  simp only [Bool.and_eq_true, Bool.not_eq_true', beq_eq_false_iff_ne] at this
  exact ⟨fun e => this.1 (Fin.ext e), fun e => this.2 (Fin.ext e)⟩

theorem yieldsLf [TextIO] {lossy : Bool} {bs : Bytes} {ls : List PyStr}
    (h : (ls.all fun l => l.all fun c => !(c == 10) && !(c == 13) && decide (c.val < 0xD800)) = true)
    (hb : utf8 (ls.flatMap (· ++ [10])) = bs) : Yields lossy bs ls none := by
  subst hb
  have hh : ∀ l ∈ ls, ∀ c ∈ l, (c ≠ 10 ∧ c ≠ 13) ∧ c.val < 0xD800 := by
    intro l hl c hc
    have := List.all_eq_true.mp (List.all_eq_true.mp h l hl) c hc
    simpa using this
  refine yields_lf (fun l hl => noBreak ?_) fun l hl c hc => .inl (hh l hl c hc).2
  rw [List.all_eq_true]
  intro c hc
  simpa using (hh l hl c hc).1

end Sample

end FF
