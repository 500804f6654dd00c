import Verif.Spec.Locale
import Verif.Spec.Sel
import Verif.Props.C45
import Verif.Props.C55
import Verif.Model.Float32
/-!
# C90: the tools do not depend on the locale

The same query file, or word list, means the same in every locale.  The code violates this: the tools open files without an
encoding.
-/

namespace FF

theorem tableDecode_spells {t : UInt8 → Option Code} {lossy : Bool} {text : PyStr} {bs : Bytes}
    (h : List.Forall₂ (fun c b => t b = some c) text bs) : tableDecode t lossy bs = .ok text := by
  induction h with
  | nil => rfl
  | @cons c b text bs h1 h2 ih =>
    unfold tableDecode
    rw [h1]
    simp only
    rw [ih]
    rfl

theorem tablePieces_spells {t : UInt8 → Option Code} {lossy : Bool} {ps : List Bytes} :
    ∀ {cr : Bool} {text : PyStr}, List.Forall₂ (fun c b => t b = some c) text ps.flatten →
      tablePieces t lossy cr ps = (newlines (crText cr ++ text), none) := by
  induction ps with
  | nil =>
    intro cr text h
    cases h
    unfold tablePieces
    rw [newlinesPart_true]
  | cons p ps ih =>
    intro cr text h
    rw [List.flatten_cons] at h
    have h1 := List.forall₂_take p.length h
    have h2 := List.forall₂_drop p.length h
    rw [List.take_left' rfl] at h1
    rw [List.drop_left' rfl] at h2
    unfold tablePieces
    rw [tableDecode_spells h1]
    simp only
    rw [ih h2]
    simp only
    rw [← newlinesPart_false, List.append_assoc, List.take_append_drop]

theorem localeLines_spells [TextIO] {l : Locale} {lossy : Bool} {text : PyStr} {bs : Bytes} (h : l.Spells text bs) :
    localeLines l lossy bs = ⟨linesOf (newlines text), none⟩ := by
  cases l with
  | utf8 =>
    obtain ⟨rfl, hs⟩ := utf8Text_iff.mp h
    exact textLines_of_decode (decodeLossy_utf8 lossy hs)
  | table t =>
    unfold localeLines
    have h' : List.Forall₂ (fun c b => t b = some c) text (TextIO.cut bs).flatten := by
      rw [TextIO.flatten_cut]
      exact h
    simp only [tablePieces_spells h']
    rfl

/-- A file whose text is spelled in the encoding of the locale has the lines of the text. -/
theorem C90_lines [TextIO] (l : Locale) (lossy : Bool) (text : PyStr) (bs : Bytes) (ls : List PyStr) (h : l.Spells text bs)
    (hs : SplitLines text ls) : ∃ ls', localeLines l lossy bs = ⟨ls', none⟩ ∧ List.Forall₂ Ended ls' ls :=
  ⟨_, localeLines_spells h, splitLines_lines hs⟩

theorem tableDecode_error {t : UInt8 → Option Code} {bs : Bytes} {x : PyErr} (h : tableDecode t false bs = .error x) :
    x = .unicodeDecodeError ∧ ∃ b ∈ bs, t b = none := by
  induction bs with
  | nil => cases h
  | cons b bs ih =>
    unfold tableDecode at h
    cases hb : t b with
    | none =>
      rw [hb] at h
      cases h
      exact ⟨rfl, b, by simp, hb⟩
    | some c =>
      rw [hb] at h
      simp only at h
      cases hr : tableDecode t false bs with
      | ok s => rw [hr] at h; cases h
      | error y =>
        rw [hr] at h
        cases h
        obtain ⟨h1, b', h2, h3⟩ := ih hr
        exact ⟨h1, b', List.mem_cons_of_mem _ h2, h3⟩

theorem tableDecode_ok {t : UInt8 → Option Code} {bs : Bytes} {s : PyStr} (h : tableDecode t false bs = .ok s) :
    List.Forall₂ (fun c b => t b = some c) s bs := by
  induction bs generalizing s with
  | nil => cases h; exact .nil
  | cons b bs ih =>
    unfold tableDecode at h
    cases hb : t b with
    | none => rw [hb] at h; cases h
    | some c =>
      rw [hb] at h
      simp only at h
      obtain ⟨s', h1, h2⟩ := res_bind_inv h
      cases h2
      exact .cons hb (ih h1)

theorem tablePieces_stop {t : UInt8 → Option Code} {ps : List Bytes} : ∀ {cr : Bool},
    (∃ text, List.Forall₂ (fun c b => t b = some c) text ps.flatten) ∨
      (tablePieces t false cr ps).2 = some .unicodeDecodeError := by
  induction ps with
  | nil => intro cr; exact .inl ⟨[], .nil⟩
  | cons p ps ih =>
    intro cr
    unfold tablePieces
    cases hd : tableDecode t false p with
    | error x =>
      obtain ⟨rfl, _⟩ := tableDecode_error hd
      exact .inr rfl
    | ok s =>
      rcases ih (cr := (newlinesPart false cr s).2) with ⟨text, h⟩ | h
      · refine .inl ⟨s ++ text, ?_⟩
        rw [List.flatten_cons]
        exact List.rel_append (tableDecode_ok hd) h
      · exact .inr h

/-- A file that is not a text in the encoding of the locale ends with `UnicodeDecodeError`, unless it is decoded lossily. -/
theorem C90_undecodable [TextIO] (l : Locale) (bs : Bytes) :
    ((∃ text, l.Spells text bs) ∧ (localeLines l false bs).stop = none) ∨
    ((¬ ∃ text, l.Spells text bs) ∧ (localeLines l false bs).stop = some .unicodeDecodeError) := by
  by_cases h : ∃ text, l.Spells text bs
  · obtain ⟨text, ht⟩ := h
    exact .inl ⟨⟨text, ht⟩, by rw [localeLines_spells ht]⟩
  · refine .inr ⟨h, ?_⟩
    cases l with
    | utf8 =>
      obtain ⟨ls, stop, hy⟩ := yields_total false bs
      obtain ⟨ls', h1, _⟩ := textLines_yields hy
      show (textLines false bs).stop = _
      rw [h1]
      rcases hy with ⟨text, hd, _⟩ | ⟨_, _, hs, _⟩
      · exact absurd ⟨text, hd⟩ h
      · exact hs
    | table t =>
      unfold localeLines
      rcases tablePieces_stop (t := t) (ps := TextIO.cut bs) (cr := false) with h' | h'
      · rw [TextIO.flatten_cut] at h'
        exact absurd h' h
      · cases hp : tablePieces t false false (TextIO.cut bs) with
        | mk s o =>
          rw [hp] at h'
          simp only at h'
          subst h'
          simp only [hp]

theorem tableDecode_reads {t : UInt8 → Option Code} {lossy : Bool} {text : PyStr} {bs : Bytes}
    (h : List.Forall₂ (TableReads t lossy) text bs) : tableDecode t lossy bs = .ok text := by
  induction h with
  | nil => rfl
  | @cons c b text bs h1 h2 ih =>
    unfold tableDecode
    rcases h1 with h1 | ⟨hl, h1, hc⟩
    · rw [h1]
      simp only
      rw [ih]
      rfl
    · rw [h1]
      simp only
      rw [if_pos hl, ih]
      have : c = replacementChar := Fin.ext hc
      rw [this]
      rfl

theorem tablePieces_reads {t : UInt8 → Option Code} {lossy : Bool} {ps : List Bytes} :
    ∀ {cr : Bool} {text : PyStr}, List.Forall₂ (TableReads t lossy) text ps.flatten →
      tablePieces t lossy cr ps = (newlines (crText cr ++ text), none) := by
  induction ps with
  | nil =>
    intro cr text h
    cases h
    unfold tablePieces
    rw [newlinesPart_true]
  | cons p ps ih =>
    intro cr text h
    rw [List.flatten_cons] at h
    have h1 := List.forall₂_take p.length h
    have h2 := List.forall₂_drop p.length h
    rw [List.take_left' rfl] at h1
    rw [List.drop_left' rfl] at h2
    unfold tablePieces
    rw [tableDecode_reads h1]
    simp only
    rw [ih h2]
    simp only
    rw [← newlinesPart_false, List.append_assoc, List.take_append_drop]

theorem tableDecode_lacks {t : UInt8 → Option Code} {bs : Bytes} (h : ∃ b ∈ bs, t b = none) :
    tableDecode t false bs = .error .unicodeDecodeError := by
  cases hd : tableDecode t false bs with
  | error x => rw [(tableDecode_error hd).1]
  | ok s =>
    obtain ⟨b, hb, h0⟩ := h
    have := tableDecode_ok hd
    clear hd
    exfalso
    induction this with
    | nil => cases hb
    | cons h1 _ ih =>
      rcases List.mem_cons.mp hb with rfl | hb
      · rw [h0] at h1; cases h1
      · exact ih hb

theorem tablePieces_lacks {t : UInt8 → Option Code} {p : Bytes} {after : List Bytes} (hp : ∃ b ∈ p, t b = none)
    {ps : List Bytes} : ∀ {cr : Bool} {text : PyStr}, List.Forall₂ (TableReads t false) text ps.flatten →
      tablePieces t false cr (ps ++ p :: after) = (soFar (crText cr ++ text), some .unicodeDecodeError) := by
  induction ps with
  | nil =>
    intro cr text h
    cases h
    rw [List.nil_append]
    unfold tablePieces
    rw [tableDecode_lacks hp, List.append_nil, soFar_cr]
  | cons q ps ih =>
    intro cr text h
    rw [List.flatten_cons] at h
    have h1 := List.forall₂_take q.length h
    have h2 := List.forall₂_drop q.length h
    rw [List.take_left' rfl] at h1
    rw [List.drop_left' rfl] at h2
    rw [List.cons_append]
    unfold tablePieces
    rw [tableDecode_reads h1]
    simp only
    rw [ih h2]
    simp only
    rw [← soFar_append, List.append_assoc, List.take_append_drop]

/-- What iterating over a text file yields, for every file, encoding and way of reading. -/
theorem C90_yields [TextIO] (l : Locale) (lossy : Bool) (bs : Bytes) (ls : List PyStr) (stop : Option PyErr)
    (h : l.Yields lossy bs ls stop) :
    ∃ ls', localeLines l lossy bs = ⟨ls', stop⟩ ∧ List.Forall₂ Ended ls' ls := by
  cases l with
  | utf8 => exact textLines_yields h
  | table t =>
    unfold localeLines
    rcases h with ⟨text, h1, h2, rfl⟩ | ⟨rfl, rfl, before, piece, after, text, h1, h2, h3, h4⟩
    · have h' : List.Forall₂ (TableReads t lossy) text (TextIO.cut bs).flatten := by
        rw [TextIO.flatten_cut]
        exact h1
      simp only [tablePieces_reads h']
      exact ⟨_, rfl, splitLines_lines h2⟩
    · simp only [h1, tablePieces_lacks h3 h2]
      refine ⟨_, rfl, ?_⟩
      have := linesSoFar_lines h4
      unfold completeLines at this
      rw [show crText false ++ text = text from rfl, this, List.forall₂_map_left_iff, List.forall₂_same]
      exact fun l _ => .inl rfl

theorem table_split (t : UInt8 → Option Code) (ps : List Bytes) :
    (∃ text, List.Forall₂ (TableReads t false) text ps.flatten) ∨
    ∃ before piece after text, ps = before ++ piece :: after ∧ List.Forall₂ (TableReads t false) text before.flatten ∧
      ∃ b ∈ piece, t b = none := by
  induction ps with
  | nil => exact .inl ⟨[], .nil⟩
  | cons p ps ih =>
    cases hd : tableDecode t false p with
    | error x => exact .inr ⟨[], p, ps, [], rfl, .nil, (tableDecode_error hd).2⟩
    | ok s =>
      have hs : List.Forall₂ (TableReads t false) s p := (tableDecode_ok hd).imp fun _ _ h => .inl h
      rcases ih with ⟨text, h⟩ | ⟨before, piece, after, text, rfl, h, h'⟩
      · exact .inl ⟨s ++ text, by rw [List.flatten_cons]; exact List.rel_append hs h⟩
      · exact .inr ⟨p :: before, piece, after, s ++ text, rfl, by rw [List.flatten_cons]; exact List.rel_append hs h, h'⟩

/-- Every file yields lines in this sense. -/
theorem C90_yields_total [TextIO] (l : Locale) (lossy : Bool) (bs : Bytes) : ∃ ls stop, l.Yields lossy bs ls stop := by
  cases l with
  | utf8 => exact yields_total lossy bs
  | table t =>
    cases lossy with
    | true =>
      obtain ⟨ls, hs⟩ := splitLines_total (bs.map fun b => (t b).getD replacementChar)
      refine ⟨ls, none, .inl ⟨_, ?_, hs, rfl⟩⟩
      rw [List.forall₂_map_left_iff, List.forall₂_same]
      intro b _
      unfold TableReads
      cases t b with
      | none => exact .inr ⟨rfl, rfl, rfl⟩
      | some c => exact .inl rfl
    | false =>
      rcases table_split t (TextIO.cut bs) with ⟨text, h⟩ | ⟨before, piece, after, text, h1, h2, h3⟩
      · rw [TextIO.flatten_cut] at h
        obtain ⟨ls, hs⟩ := splitLines_total text
        exact ⟨ls, none, .inl ⟨text, h, hs, rfl⟩⟩
      · obtain ⟨ls, hs⟩ := linesSoFar_total text
        exact ⟨ls, _, .inr ⟨rfl, rfl, before, piece, after, text, h1, h2, h3, hs⟩⟩

/-- A file in ASCII is the same text in all encodings. -/
theorem spells_ascii {l l' : Locale} (hl : l.ExtendsAscii) (hl' : l'.ExtendsAscii) {bs : Bytes}
    (hb : ∀ b ∈ bs, b.toNat < 128) : ∃ text, l.Spells text bs ∧ l'.Spells text bs := by
  have key : ∀ {l : Locale}, l.ExtendsAscii → l.Spells (bs.map fun b => ⟨b.toNat, by have := b.toNat_lt; omega⟩) bs := by
    intro l hl
    cases l with
    | utf8 =>
      show Utf8Text _ _
      clear hl hl'
      induction bs with
      | nil => exact .nil
      | cons b bs ih =>
        have h1 := hb b (by simp)
        exact .cons (enc := [b]) (.one b h1) (ih fun x hx => hb x (List.mem_cons_of_mem _ hx))
    | table t =>
      show List.Forall₂ _ _ _
      rw [List.forall₂_map_left_iff, List.forall₂_same]
      intro b hb'
      obtain ⟨c, h1, h2⟩ := hl b (hb b hb')
      rw [h2]
      exact congrArg some (Fin.ext h1)
  exact ⟨_, key hl, key hl'⟩

section
variable [NumOps F32] [NumText F32]

/-- `ffp-similar` and `ffp-analogy` find the same for the same queries, if each query file is in the encoding of its locale. -/
theorem C90_found_partial [TextIO] (l l' : Locale) (T : Toml) (S : Sel F32) (f : Format) (embeddings input : PyStr) (k : Int)
    (includes : List PyStr) (lossy mmap : Bool) (fs fs' : FS) (text : PyStr) (bs bs' : Bytes)
    (he : fs embeddings = fs' embeddings) (hi : fs input = some bs) (hi' : fs' input = some bs') (h : l.Spells text bs)
    (h' : l'.Spells text bs') :
    similarFound l T S f embeddings input k lossy mmap fs = similarFound l' T S f embeddings input k lossy mmap fs' ∧
    analogyFound l T S f embeddings input k includes lossy mmap fs =
      analogyFound l' T S f embeddings input k includes lossy mmap fs' := by
  have hr : readFile embeddings (f.load T lossy mmap) fs = readFile embeddings (f.load T lossy mmap) fs' := by
    unfold readFile
    rw [he]
  unfold similarFound analogyFound
  simp only [hr, hi, hi', localeLines_spells h, localeLines_spells h', and_self]

/-- They find the same for the same query file in ASCII, in all locales. -/
theorem C90_ascii [TextIO] (l l' : Locale) (hl : l.ExtendsAscii) (hl' : l'.ExtendsAscii) (T : Toml) (S : Sel F32)
    (f : Format) (embeddings input : PyStr) (k : Int) (includes : List PyStr) (lossy mmap : Bool) (fs : FS) (bs : Bytes)
    (hi : fs input = some bs) (hb : ∀ b ∈ bs, b.toNat < 128) :
    similarFound l T S f embeddings input k lossy mmap fs = similarFound l' T S f embeddings input k lossy mmap fs ∧
    analogyFound l T S f embeddings input k includes lossy mmap fs =
      analogyFound l' T S f embeddings input k includes lossy mmap fs := by
  obtain ⟨text, h, h'⟩ := spells_ascii hl hl' hb
  exact C90_found_partial l l' T S f embeddings input k includes lossy mmap fs fs text bs bs rfl hi hi h h'

/-- In a locale with UTF-8 the tools are those of C45, C46 and C55. -/
theorem C90_utf8 [TextIO] (T : Toml) (S : Sel F32) (f : Format) (embeddings input output : PyStr) (k : Int)
    (includes : List PyStr) (enum : List PyStr → List PyStr) (ignoreUnk lossy mmap : Bool) (fs : FS) :
    similarFound .utf8 T S f embeddings input k lossy mmap fs = similarMain T S f embeddings input k lossy mmap fs ∧
    analogyFound .utf8 T S f embeddings input k includes lossy mmap fs =
      analogyMain T S f embeddings input k includes lossy mmap fs ∧
    selectLocale .utf8 T enum f embeddings output input ignoreUnk lossy mmap fs =
      selectMain T enum f embeddings output input ignoreUnk lossy mmap fs :=
  ⟨rfl, rfl, rfl⟩

/-- `ffp-select` writes the same for the same words, if each list is in the encoding of its locale. -/
theorem C90_select_partial [TextIO] (l l' : Locale) (T : Toml) (enum : List PyStr → List PyStr) (f : Format)
    (input output wordList : PyStr) (ignoreUnk lossy mmap : Bool) (fs fs' : FS) (text : PyStr) (bs bs' : Bytes)
    (he : fs input = fs' input) (ho : fs output = fs' output) (hi : fs wordList = some bs) (hi' : fs' wordList = some bs')
    (h : l.Spells text bs) (h' : l'.Spells text bs') :
    (selectLocale l T enum f input output wordList ignoreUnk lossy mmap fs).1 =
      (selectLocale l' T enum f input output wordList ignoreUnk lossy mmap fs').1 ∧
    (selectLocale l T enum f input output wordList ignoreUnk lossy mmap fs).2 output =
      (selectLocale l' T enum f input output wordList ignoreUnk lossy mmap fs').2 output := by
  have hr : readFile input (f.load T lossy mmap) fs = readFile input (f.load T lossy mmap) fs' := by
    unfold readFile
    rw [he]
  have hw : readFile wordList (fun bs => (localeLines l lossy bs).all) fs =
      readFile wordList (fun bs => (localeLines l' lossy bs).all) fs' := by
    unfold readFile
    simp only [hi, hi', localeLines_spells h, localeLines_spells h']
  unfold selectLocale
  rw [hr, hw]
  generalize (readFile input (f.load T lossy mmap) fs' >>= _ : Res (Embeddings F32)) = r
  cases r with
  | error x => exact ⟨rfl, ho⟩
  | ok e =>
    refine ⟨rfl, ?_⟩
    show (if output = output then _ else _) = (if output = output then _ else _)
    rw [if_pos rfl, if_pos rfl]

end

/-! ### The standard output -/

theorem mem_allBytes (b : UInt8) : b ∈ allBytes := by
  unfold allBytes
  refine List.mem_map.mpr ⟨b.toNat, List.mem_range.mpr b.toNat_lt, ?_⟩
  simp

theorem tableEncode_iff {t : UInt8 → Option Code} {s : PyStr} :
    (∃ bs, tableEncode t s = .ok bs ∧ List.Forall₂ (fun c b => t b = some c) s bs) ∨
    (tableEncode t s = .error .unicodeEncodeError ∧ ¬ ∃ bs, List.Forall₂ (fun c b => t b = some c) s bs) := by
  induction s with
  | nil => exact .inl ⟨[], rfl, .nil⟩
  | cons c s ih =>
    unfold tableEncode
    cases hf : allBytes.find? fun b => t b = some c with
    | none =>
      refine .inr ⟨rfl, ?_⟩
      rintro ⟨_, h⟩
      cases h with
      | cons h _ => exact absurd h (by simpa using List.find?_eq_none.mp hf _ (mem_allBytes _))
    | some b =>
      have hb : t b = some c := by simpa using List.find?_some hf
      rcases ih with ⟨bs, h1, h2⟩ | ⟨h1, h2⟩
      · refine .inl ⟨b :: bs, ?_, .cons hb h2⟩
        simp only [h1]
        rfl
      · refine .inr ⟨?_, ?_⟩
        · simp only [h1]
          rfl
        · rintro ⟨_, h⟩
          cases h with
          | cons _ h => exact h2 ⟨_, h⟩

theorem localeEncode_iff {l : Locale} {s : PyStr} :
    (∃ bs, localeEncode l s = .ok bs ∧ l.Spells s bs) ∨
    (localeEncode l s = .error .unicodeEncodeError ∧ ¬ ∃ bs, l.Spells s bs) := by
  cases l with
  | table t => exact tableEncode_iff
  | utf8 =>
    unfold localeEncode encode
    by_cases h : s.any isSurrogate
    · refine .inr ⟨if_pos h, ?_⟩
      rintro ⟨bs, hb⟩
      have := (utf8Text_iff.mp hb).2
      rw [h] at this
      cases this
    · exact .inl ⟨utf8 s, if_neg h, utf8Text_iff.mpr ⟨rfl, by simpa using h⟩⟩

theorem spells_append {l : Locale} {s s' : PyStr} {bs bs' : Bytes} (h : l.Spells s bs) (h' : l.Spells s' bs') :
    l.Spells (s ++ s') (bs ++ bs') := by
  cases l with
  | utf8 => exact utf8Text_append h h'
  | table t => exact List.rel_append h h'

theorem spells_nil (l : Locale) : l.Spells [] [] := by
  cases l with
  | utf8 => exact .nil
  | table t => exact .nil

section
variable {K : Type} [NumText K]

/-- Answers that have a spelling in the encoding of the locale come out in this spelling, and the program ends as it would. -/
theorem C90_stdout_partial (l : Locale) (a : Answers K) (h : ∀ x ∈ a.1, ∃ bs, l.Spells (printAnswer x) bs) :
    ∃ bs, printAll l a.1 a.2 = (bs, a.2) ∧ l.Spells a.stdout bs := by
  obtain ⟨as, r⟩ := a
  unfold Answers.stdout
  simp only at h ⊢
  induction as with
  | nil => exact ⟨[], rfl, spells_nil l⟩
  | cons x as ih =>
    obtain ⟨bs, h1, h2⟩ := ih fun y hy => h y (List.mem_cons_of_mem _ hy)
    rcases localeEncode_iff (l := l) (s := printAnswer x) with ⟨bx, h3, h4⟩ | ⟨_, h3⟩
    · refine ⟨bx ++ bs, ?_, ?_⟩
      · unfold printAll
        rw [h3, h1]
      · rw [List.flatMap_cons]
        exact spells_append h4 h2
    · exact absurd (h x (by simp)) h3

/-- The first answer that has no spelling ends the program, and the answers before it come out. -/
theorem C90_stdout_stops (l : Locale) (as bs : List (PyStr × Option (List (PyStr × K)))) (x : PyStr × Option (List (PyStr × K)))
    (r : Res Unit) (h : ∀ y ∈ as, ∃ b, l.Spells (printAnswer y) b) (hx : ¬ ∃ b, l.Spells (printAnswer x) b) :
    ∃ out, printAll l (as ++ x :: bs) r = (out, .error .unicodeEncodeError) ∧ l.Spells (as.flatMap printAnswer) out := by
  induction as with
  | nil =>
    rcases localeEncode_iff (l := l) (s := printAnswer x) with ⟨b, _, h4⟩ | ⟨h3, _⟩
    · exact absurd ⟨b, h4⟩ hx
    · refine ⟨[], ?_, spells_nil l⟩
      rw [List.nil_append]
      unfold printAll
      rw [h3]
  | cons y as ih =>
    obtain ⟨out, h1, h2⟩ := ih fun z hz => h z (List.mem_cons_of_mem _ hz)
    rcases localeEncode_iff (l := l) (s := printAnswer y) with ⟨b, h3, h4⟩ | ⟨_, h3⟩
    · refine ⟨b ++ out, ?_, ?_⟩
      · rw [List.cons_append]
        unfold printAll
        rw [h3, h1]
      · rw [List.flatMap_cons]
        exact spells_append h4 h2
    · exact absurd (h y (by simp)) h3

end

/-! ### Dependence on the locale -/

namespace Sample

/-- The file `s` holds embeddings with the words `a`, `ß` and `語`, the file `b` embeddings with the word `ß` and subwords, the
file `w` the line `ß` in UTF-8, the file `u` the line `a`. -/
def localeFs : FS := fun p =>
  if p = [115] then some ((embSimple.write selToml).file).2
  else if p = [98] then some ((({ embBucket with metadata := some [] } : Embeddings F32).write selToml).file).2
  else if p = [119] then some [0xC3, 0x9F, 10]
  else if p = [117] then some [97, 10]
  else none

/-- The words of a file with embeddings -/
def loadWords (T : Toml) (bs : Bytes) : Res (List PyStr) :=
  Rd.run (loadFinalfusion T false) bs >>= fun e => .ok e.vocab.words

theorem extendsAscii_latin1 : latin1.ExtendsAscii := fun _ _ => ⟨_, rfl, rfl⟩

theorem extendsAscii_ascii : asciiLocale.ExtendsAscii := fun _ h => ⟨_, rfl, if_pos h⟩

end Sample

open Sample in
/-- The same query file: the word of the line in UTF-8 has neighbours, in a locale with ISO 8859-1 it is unknown, and in a locale
with ASCII the program ends with an exception. -/
theorem C90_found_refuted : ∃ (l l' l'' : Locale) (bs : Bytes) (w w' s : PyStr) (x : F32) (fs : FS),
    l.ExtendsAscii ∧ l'.ExtendsAscii ∧ l''.ExtendsAscii ∧ fs [119] = some bs ∧
    @similarFound b32Ops f32Text textIO l selToml (@Sel.sorting F32 b32Score ⟨0⟩) .finalfusion [115] [119] 1 false false fs =
      ([(w, some [(s, x)])], .ok ()) ∧
    @similarFound b32Ops f32Text textIO l' selToml (@Sel.sorting F32 b32Score ⟨0⟩) .finalfusion [115] [119] 1 false false fs =
      ([(w', none)], .ok ()) ∧
    @similarFound b32Ops f32Text textIO l'' selToml (@Sel.sorting F32 b32Score ⟨0⟩) .finalfusion [115] [119] 1 false false fs =
      ([], .error .unicodeDecodeError) :=
  ⟨.utf8, latin1, asciiLocale, [0xC3, 0x9F, 10], [0xDF], [0xC3, 0x9F], [0x8A9E], 0, localeFs, trivial, extendsAscii_latin1,
    extendsAscii_ascii, by decide +kernel, by decide +kernel, by decide +kernel, by decide +kernel⟩

open Sample in
/-- The same query file, in ASCII: in a locale with ISO 8859-1 the neighbours cannot be printed. -/
theorem C90_stdout_refuted : ∃ (l : Locale) (bs out : Bytes) (fs : FS), l.ExtendsAscii ∧ fs [117] = some bs ∧
    (∀ b ∈ bs, b.toNat < 128) ∧ out ≠ [] ∧
    @similarPrints b32Ops f32Text textIO .utf8 selToml (@Sel.sorting F32 b32Score ⟨0⟩) .finalfusion [115] [117] 2 false false fs =
      (out, .ok ()) ∧
    @similarPrints b32Ops f32Text textIO l selToml (@Sel.sorting F32 b32Score ⟨0⟩) .finalfusion [115] [117] 2 false false fs =
      ([], .error .unicodeEncodeError) :=
  ⟨latin1, [97, 10], [232, 170, 158, 32, 48, 10, 195, 159, 32, 48, 10], localeFs, extendsAscii_latin1, by decide +kernel,
    by decide +kernel, by decide +kernel, by decide +kernel, by decide +kernel⟩

open Sample in
/-- The same word list: in a locale with ISO 8859-1 its word is missing, and if there are subwords, embeddings for two other
characters are written without a warning. -/
theorem C90_select_refuted : ∃ (l : Locale) (fs : FS), l.ExtendsAscii ∧
    (@selectLocale b32Ops f32Text textIO .utf8 selToml List.dedup .finalfusion [115] [111] [119] false false false fs).1 =
      .ok () ∧
    (@selectLocale b32Ops f32Text textIO l selToml List.dedup .finalfusion [115] [111] [119] false false false fs).1 =
      .error .systemExit ∧
    (@selectLocale b32Ops f32Text textIO l selToml List.dedup .finalfusion [98] [111] [119] false false false fs).1 = .ok () ∧
    ∃ w, (readFile [111] (loadWords selToml) (@selectLocale b32Ops f32Text textIO .utf8 selToml List.dedup .finalfusion [98]
        [111] [119] false false false fs).2) = .ok [w] ∧
      ∃ w' ≠ w, (readFile [111] (loadWords selToml) (@selectLocale b32Ops f32Text textIO l selToml List.dedup .finalfusion [98]
        [111] [119] false false false fs).2) = .ok [w'] :=
  ⟨latin1, localeFs, extendsAscii_latin1, by decide +kernel, by decide +kernel, by decide +kernel, [0xDF], by decide +kernel,
    [0xC3, 0x9F], by decide, by decide +kernel⟩

/-! ### Cases that meet the hypotheses -/

/-- The two words are spelled in both encodings, in different ways. -/
example : Locale.utf8.Spells [0xDF, 10] [0xC3, 0x9F, 10] ∧ Sample.latin1.Spells [0xDF, 10] [0xDF, 10] :=
  ⟨utf8Text_iff.mpr ⟨by decide, by decide⟩, .cons rfl (.cons rfl .nil)⟩

/-- The euro sign has a spelling in ISO 8859-15 and none in ISO 8859-1. -/
example : Sample.latin9.Spells [0x20AC] [0xA4] ∧ ¬ ∃ bs, Sample.latin1.Spells [0x20AC] bs := by
  refine ⟨.cons rfl .nil, ?_⟩
  rintro ⟨bs, h⟩
  cases h with
  | @cons _ b _ _ h _ =>
    have h' : b.toNat = 0x20AC := congrArg Fin.val (Option.some.inj h)
    have := b.toNat_lt
    omega

/-- A byte that ASCII does not have. -/
example : ¬ ∃ text, Sample.asciiLocale.Spells text [0xC3, 0x9F, 10] := by
  rintro ⟨text, h⟩
  cases h with
  | cons h _ => exact nomatch (show none = some _ from h)

/-- Read in blocks of four bytes as ASCII: the line in the first block comes, then the exception.  Read lossily, both lines come. -/
example : @Locale.Yields Sample.textIO Sample.asciiLocale false [97, 10, 98, 10, 0xC3, 10] [[97], [98]] (some .unicodeDecodeError) ∧
    @Locale.Yields Sample.textIO Sample.asciiLocale true [97, 10, 98, 10, 0xC3, 10] [[97], [98], [0xFFFD]] none := by
  refine ⟨.inr ⟨rfl, rfl, [[97, 10, 98, 10]], [0xC3, 10], [], [97, 10, 98, 10], rfl, ?_, ⟨0xC3, by simp, rfl⟩, ?_⟩,
    .inl ⟨[97, 10, 98, 10, 0xFFFD, 10], ?_, ?_, rfl⟩⟩
  · exact .cons (.inl rfl) (.cons (.inl rfl) (.cons (.inl rfl) (.cons (.inl rfl) .nil)))
  · exact .lf (l := [97]) (by simp [NoBreak]) (.lf (l := [98]) (by simp [NoBreak]) (.rest (by simp [NoBreak])))
  · exact .cons (.inl rfl) (.cons (.inl rfl) (.cons (.inl rfl) (.cons (.inl rfl)
      (.cons (.inr ⟨rfl, rfl, rfl⟩) (.cons (.inl rfl) .nil)))))
  · exact .lf (l := [97]) (by simp [NoBreak]) (.lf (l := [98]) (by simp [NoBreak]) (.lf (l := [0xFFFD]) (by simp [NoBreak]) .nil))

example : Sample.latin1.ExtendsAscii ∧ Sample.asciiLocale.ExtendsAscii := ⟨Sample.extendsAscii_latin1, Sample.extendsAscii_ascii⟩

end FF
