import Verif.Lemmas.Compiled
import Verif.Lemmas.Explicit
/-!
# C79: the compiled n-gram code

The C code behind `ngrams` and the three indexers reads and writes only inside its arrays, uses nothing that it has not written,
does not overflow and does not divide by zero, and it finds what `Model/Indexers.lean` says.  The exception are fastText words
of 4 GiB or more: then an `unsigned int` runs over, and the array of character boundaries is overrun.
-/

namespace FF

/-- Bytes that start a character -/
def StartByte (x : UInt8) : Prop := ¬(0x80 ≤ x.toNat ∧ x.toNat < 0xC0)

instance (x : UInt8) : Decidable (StartByte x) := inferInstanceAs (Decidable (¬_))

theorem startByte_iff (x : UInt8) : StartByte x ↔ x &&& 0xC0 ≠ 0x80 := by
  have : ∀ n : Fin 256, StartByte (UInt8.ofNat n.val) ↔ UInt8.ofNat n.val &&& 0xC0 ≠ 0x80 := by decide +kernel
  have h := this ⟨x.toNat, x.toNat_lt⟩
  simpa using h

/-- Any bytes of less than 4 GiB: the array of boundaries has an element more than there are bytes.  It begins with the
positions of the bytes that start characters and the number of bytes; the rest has not been written. -/
theorem C79_boundaries_partial (w : Bytes) (hw : w.length < 2 ^ 32) :
    ∃ ps : List Nat, cBoundaries w =
        .ok (ps.map (fun p => some (UInt32.ofNat p)) ++ List.replicate (w.length + 1 - ps.length) none) ∧
      ps.length ≤ w.length + 1 ∧ ps.Pairwise (· < ·) ∧
      ∀ k, k ∈ ps ↔ k = w.length ∨ ∃ x, w[k]? = some x ∧ StartByte x := by
  have hl := startsTo_length w w.length
  refine ⟨findUtf8Boundaries w, cBoundaries_ok w hw, ?_, ?_, ?_⟩
  · show (startsTo w w.length ++ [w.length]).length ≤ _
    rw [List.length_append, List.length_singleton]
    omega
  · show (startsTo w w.length ++ [w.length]).Pairwise _
    rw [List.pairwise_append]
    refine ⟨List.Pairwise.filter _ List.pairwise_lt_range, List.pairwise_singleton _ _, ?_⟩
    intro a ha b hb
    rw [List.mem_singleton] at hb
    have := List.mem_range.1 (List.mem_of_mem_filter ha)
    omega
  · intro k
    show k ∈ startsTo w w.length ++ [w.length] ↔ _
    unfold startsTo
    rw [List.mem_append, List.mem_singleton, or_comm, List.mem_filter, List.mem_range]
    refine or_congr_right ?_
    constructor
    · rintro ⟨h1, h2⟩
      rw [List.getElem?_eq_getElem h1] at h2 ⊢
      exact ⟨_, rfl, (startByte_iff _).2 (by simpa using h2)⟩
    · rintro ⟨x, hx, h2⟩
      refine ⟨(List.getElem?_eq_some_iff.1 hx).1, ?_⟩
      rw [hx]
      simpa using (startByte_iff _).1 h2

example : cBoundaries [0x3C, 0xC3, 0x9F, 0x3E] = .ok [some 0, some 1, some 3, some 4, none] := by decide +kernel

/-- From 4 GiB on, the array is overrun. -/
theorem C79_boundaries_overrun (w : Bytes) (h1 : 2 ^ 32 ≤ w.length) (h2 : w.length < 2 ^ 62)
    (x : UInt8) (hx : w[0]? = some x) (hs : StartByte x) : cBoundaries w = .error .bounds := by
  refine cBoundaries_wraps w h1 h2 ?_
  rw [hx]
  exact (startByte_iff x).1 hs

example : ∃ w : Bytes, 2 ^ 32 ≤ w.length ∧ w.length < 2 ^ 62 ∧ w[0]? = some 97 ∧ StartByte 97 := by
  refine ⟨List.replicate 4294967296 97, ?_, ?_, ?_, by decide⟩
  · rw [List.length_replicate]; norm_num
  · rw [List.length_replicate]; norm_num
  · rw [List.getElem?_replicate, if_pos (by norm_num)]

section
variable {β : Type}

theorem u32_of {n : Nat} (h : n < 2 ^ 32) : (UInt32.ofNat n).toNat = n := by
  rw [UInt32.toNat_ofNat']
  omega

theorem u32_ne {n : Nat} (h : n < 2 ^ 32) (h0 : 0 < n) : UInt32.ofNat n ≠ 0 := by
  intro h'
  have h1 := u32_of h
  have h2 : (0 : UInt32).toNat = 0 := rfl
  rw [h', h2] at h1
  omega

/-- A word that has less than 4 GiB in UTF-8, or none -/
def WordFits (w : PyStr) : Prop := ∀ b, encode w = .ok b → b.length < 2 ^ 32

/-- `FastTextIndexer.subword_indices` is free of faults, and finds the n-grams of the word. -/
theorem C79_fasttext_partial (emit : PyStr → Nat → β) (n lo hi : Int) (ix : FtIndexer) (h : FtIndexer.new n lo hi = .ok ix)
    (word : PyStr) (offset : UInt64) (bracket : Bool) (hw : WordFits (bracketed bracket word)) :
    cFtSubwords emit (UInt32.ofNat ix.minN) (UInt32.ofNat ix.maxN) (UInt64.ofNat ix.nBuckets) word offset bracket =
      .ok (ix.subwordLoop emit word offset bracket) := by
  obtain ⟨-, -, -, h1, h2, h3, h4, h5⟩ := ftNew_ok.1 h
  have hb : (UInt64.ofNat ix.nBuckets).toNat = ix.nBuckets := by
    rw [UInt64.toNat_ofNat']
    omega
  have hb0 : UInt64.ofNat ix.nBuckets ≠ 0 := by
    intro h'
    have h2 : (0 : UInt64).toNat = 0 := rfl
    rw [h', h2] at hb
    omega
  rw [cFtSubwords_ok emit _ _ _ word offset bracket (u32_ne (by omega) h1) hb0 hw, hb, u32_of (by omega), u32_of h3]

/-- Whatever the fields contain, there is no fault unless there are no buckets; in particular not in objects on which
`__init__` has not been called, where all fields are 0. -/
theorem C79_fasttext_any_partial (emit : PyStr → Nat → β) (minN maxN : UInt32) (nBuckets : UInt64) (word : PyStr)
    (offset : UInt64) (bracket : Bool) (hw : WordFits (bracketed bracket word)) (h : minN = 0 ∨ nBuckets ≠ 0) :
    ∃ r, cFtSubwords emit minN maxN nBuckets word offset bracket = .ok r := by
  by_cases h0 : minN = 0
  · subst h0
    exact ⟨_, cFtSubwords_zero emit maxN nBuckets word offset bracket hw⟩
  · exact ⟨_, cFtSubwords_ok emit minN maxN nBuckets word offset bracket h0 (h.resolve_left h0) hw⟩

/-- Without buckets, the first n-gram divides by zero. -/
theorem C79_fasttext_div (emit : PyStr → Nat → β) (minN maxN : UInt32) (word : PyStr) (offset : UInt64) (bracket : Bool)
    (h0 : minN ≠ 0) (h1 : minN ≤ maxN) (h2 : minN.toNat ≤ (bracketed bracket word).length) (b : Bytes)
    (he : encode (bracketed bracket word) = .ok b) (hb : b.length < 2 ^ 32) :
    cFtSubwords emit minN maxN 0 word offset bracket = .error .divZero :=
  cFtSubwords_div emit minN maxN word offset bracket h0 b he hb h1 h2

/-- A word of 4 GiB or more: memory after the array is overwritten. -/
theorem C79_fasttext_overrun (emit : PyStr → Nat → β) (minN maxN : UInt32) (nBuckets : UInt64) (word : PyStr)
    (offset : UInt64) (bracket : Bool) (b : Bytes) (he : encode (bracketed bracket word) = .ok b)
    (h1 : 2 ^ 32 ≤ b.length) (h2 : b.length < 2 ^ 62) :
    cFtSubwords emit minN maxN nBuckets word offset bracket = .error .bounds := by
  unfold cFtSubwords
  simp only
  generalize bracketed bracket word = w at he ⊢
  rw [he]
  simp only
  obtain ⟨rfl, -⟩ := encode_ok he
  cases w with
  | nil =>
    have : (utf8 []).length = 0 := rfl
    omega
  | cons c w =>
    obtain ⟨x, xs, hx, hs, -⟩ := encCode_shape c
    have h3 : (utf8 (c :: w))[0]? = some x := by
      show (encCode c ++ utf8 w)[0]? = _
      rw [hx]
      rfl
    rw [C79_boundaries_overrun _ h1 h2 x h3 ((startByte_iff x).2 hs), cm_error]

/-- `FastTextIndexer.__call__`; without buckets it raises an exception. -/
theorem C79_fasttext_call (n lo hi : Int) (ix : FtIndexer) (h : FtIndexer.new n lo hi = .ok ix) (ngram : PyStr) :
    cFtCall (UInt64.ofNat ix.nBuckets) ngram = .ok (ix.call ngram) ∧
      ∀ b, encode ngram = .ok b → cFtCall 0 ngram = .ok (.error .zeroDivisionError) := by
  obtain ⟨-, -, -, h1, h2, h3, h4, h5⟩ := ftNew_ok.1 h
  have hb : (UInt64.ofNat ix.nBuckets).toNat = ix.nBuckets := by
    rw [UInt64.toNat_ofNat']
    omega
  have hb0 : UInt64.ofNat ix.nBuckets ≠ 0 := by
    intro h'
    have h2 : (0 : UInt64).toNat = 0 := rfl
    rw [h', h2] at hb
    omega
  constructor
  · rw [cFtCall_ok _ _ hb0 ix.minN ix.maxN, hb]
  · intro b he
    unfold cFtCall
    rw [he]
    simp only
    have := cFtHash_ok b 0 b.length (Nat.zero_le _) (Nat.le_refl _)
    rw [Nat.cast_zero] at this
    rw [this, cm_ok]
    rfl

/-- `FinalfusionHashIndexer.subword_indices` -/
theorem C79_finalfusion (emit : PyStr → Nat → β) (e lo hi : Int) (ix : FifuIndexer) (h : FifuIndexer.new e lo hi = .ok ix)
    (word : PyStr) (offset : UInt64) (bracket : Bool) (hw : (bracketed bracket word).length < 2 ^ 62) :
    cFifuSubwords emit (UInt32.ofNat ix.minN) (UInt32.ofNat ix.maxN) ix.mask word offset bracket =
      .ok (ix.subwordLoop emit word offset bracket) := by
  obtain ⟨-, -, -, h1, h2, h3, h4, h5⟩ := fifuNew_ok.1 h
  exact cFifuSubwords_ok emit ix _ _ word offset bracket (u32_ne (by omega) h1) (u32_of (by omega)).symm (u32_of h3).symm hw

/-- `FinalfusionHashIndexer.__call__` -/
theorem C79_finalfusion_call (ix : FifuIndexer) (ngram : PyStr) (hw : ngram.length < 2 ^ 62) :
    cFifuCall ix.mask ngram = .ok (ix.call ngram) :=
  cFifuCall_ok ix ngram hw

theorem explNew_fields {gs : List PyStr} {lo hi : Int} {d : Option (Dict PyStr Int)} {ix : ExplIndexer}
    (h : ExplIndexer.new gs lo hi d = .ok ix) : 0 < ix.minN ∧ ix.minN < 2 ^ 32 ∧ ix.maxN < 2 ^ 32 := by
  unfold ExplIndexer.new at h
  obtain ⟨_, h1, h⟩ := res_bind_inv h
  obtain ⟨a, h3, h⟩ := res_bind_inv h
  obtain ⟨c, h4, h⟩ := res_bind_inv h
  have h1 := pyAssert_ok h1
  obtain ⟨h3, h3'⟩ := toU32_ok.mp h3
  obtain ⟨h4, h4'⟩ := toU32_ok.mp h4
  simp only [decide_eq_true_eq] at h1
  have : ix.minN = a ∧ ix.maxN = c := by
    cases d with
    | none =>
      obtain ⟨_, -, h⟩ := res_bind_inv h
      cases h
      exact ⟨rfl, rfl⟩
    | some d =>
      obtain ⟨_, -, h⟩ := res_bind_inv h
      obtain ⟨_, -, h⟩ := res_bind_inv h
      obtain ⟨_, -, h⟩ := res_bind_inv h
      obtain ⟨_, -, h⟩ := res_bind_inv h
      cases h
      exact ⟨rfl, rfl⟩
  omega

/-- `ExplicitIndexer.subword_indices` -/
theorem C79_explicit (emit : PyStr → Int → β) (gs : List PyStr) (lo hi : Int) (d : Option (Dict PyStr Int)) (ix : ExplIndexer)
    (h : ExplIndexer.new gs lo hi d = .ok ix) (word : PyStr) (offset : UInt64) (bracket : Bool)
    (hw : (bracketed bracket word).length < 2 ^ 62) :
    cExplSubwords emit (UInt32.ofNat ix.minN) (UInt32.ofNat ix.maxN) ix.index word offset bracket =
      .ok (ix.subwordLoop emit word offset.toNat bracket) := by
  obtain ⟨h1, h2, h3⟩ := explNew_fields h
  exact cExplSubwords_ok emit ix _ _ word offset bracket (u32_ne h2 h1) (u32_of h2).symm (u32_of h3).symm hw

/-- `ngrams` -/
theorem C79_ngrams (word : PyStr) (minN maxN : UInt32) (bracket : Bool) (hw : (bracketed bracket word).length < 2 ^ 62) :
    cNgrams word minN maxN bracket = .ok (ngrams word minN.toNat maxN.toNat bracket) :=
  cNgrams_ok word minN maxN bracket hw

/-- With `min_n = 0`, as in objects on which `__init__` has not been called, no n-grams are found. -/
theorem C79_uninitialised (emit : PyStr → Nat → β) (emit' : PyStr → Int → β) (maxN : UInt32) (nBuckets mask : UInt64)
    (index : Dict PyStr Int) (word : PyStr) (offset : UInt64) (bracket : Bool)
    (hw : (bracketed bracket word).length < 2 ^ 62) :
    cFifuSubwords emit 0 maxN mask word offset bracket = .ok [] ∧
      cExplSubwords emit' 0 maxN index word offset bracket = .ok [] ∧
      (WordFits (bracketed bracket word) → cFtSubwords emit 0 maxN nBuckets word offset bracket =
        .ok ((encode (bracketed bracket word)).map fun _ => [])) :=
  ⟨cFifuSubwords_zero emit maxN mask word offset bracket hw, cExplSubwords_zero emit' maxN index word offset bracket hw,
    cFtSubwords_zero emit maxN nBuckets word offset bracket⟩

end

/-- "ß" in brackets -/
example : encode (bracketed true [⟨0xDF, by decide⟩]) = .ok [0x3C, 0xC3, 0x9F, 0x3E] := by decide +kernel

example : WordFits (bracketed true [⟨0xDF, by decide⟩]) := by
  intro b h
  have h' : encode (bracketed true [⟨0xDF, by decide⟩]) = .ok [0x3C, 0xC3, 0x9F, 0x3E] := by decide +kernel
  rw [h'] at h
  cases h
  decide

example : ∃ ix, FtIndexer.new 100 2 3 = .ok ix ∧
    (cFtSubwords (fun g _ => g.map Fin.val) (UInt32.ofNat ix.minN) (UInt32.ofNat ix.maxN) (UInt64.ofNat ix.nBuckets)
      [⟨0xDF, by decide⟩] 0 true) = .ok (.ok [[0x3C, 0xDF, 0x3E], [0x3C, 0xDF], [0xDF, 0x3E]]) :=
  ⟨⟨100, 2, 3⟩, by decide +kernel, by decide +kernel⟩

example : cFtSubwords (fun _ i => i) 2 3 0 [⟨0xDF, by decide⟩] 0 true = .error .divZero := by decide +kernel

/-- The letter "a" `n` times -/
theorem letters (n : Nat) : ∃ (w : PyStr) (b : Bytes), encode (bracketed false w) = .ok b ∧ b.length = n := by
  refine ⟨List.replicate n ⟨97, by decide⟩, utf8 (List.replicate n ⟨97, by decide⟩), ?_, ?_⟩
  · show encode (List.replicate n ⟨97, by decide⟩) = _
    unfold encode
    rw [if_neg]
    rw [Bool.not_eq_true, List.any_eq_false]
    intro c hc
    rw [List.eq_of_mem_replicate hc]
    decide
  · induction n with
    | zero => rfl
    | succ n ih =>
      rw [List.replicate_succ]
      show ([97] ++ utf8 (List.replicate n ⟨97, by decide⟩)).length = _
      rw [List.length_append, ih, List.length_singleton, Nat.add_comm]

/-- A word of 2^32 letters -/
example : ∃ (w : PyStr) (b : Bytes), encode (bracketed false w) = .ok b ∧ 2 ^ 32 ≤ b.length ∧ b.length < 2 ^ 62 := by
  obtain ⟨w, b, h, hb⟩ := letters (2 ^ 32)
  exact ⟨w, b, h, hb.ge, by rw [hb]; norm_num⟩

example : ∃ ix, FifuIndexer.new 21 2 3 = .ok ix ∧
    (cFifuSubwords (fun g _ => g.map Fin.val) (UInt32.ofNat ix.minN) (UInt32.ofNat ix.maxN) ix.mask
      [⟨0xDF, by decide⟩] 0 true) = .ok [[0x3C, 0xDF, 0x3E], [0x3C, 0xDF], [0xDF, 0x3E]] :=
  ⟨⟨21, 2, 3⟩, by decide +kernel, by decide +kernel⟩

example : ∃ ix, ExplIndexer.new [[langle, rangle]] 1 2 none = .ok ix ∧
    (cExplSubwords (fun _ i => i) (UInt32.ofNat ix.minN) (UInt32.ofNat ix.maxN) ix.index [] 7 true) = .ok [7] :=
  ⟨⟨[[langle, rangle]], 1, 2, [([langle, rangle], 0)], 1⟩, by decide +kernel, by decide +kernel⟩

example : cNgrams [⟨0xDF, by decide⟩] 0 3 true = .ok (.error .assertionError) := by decide +kernel

/-- What counts as a fault: reading or writing outside of a buffer, and reading what has not been written. -/
theorem C79_faults (b : Bytes) (a : CArr) (i : Int) (x : UInt8) (y z : UInt32) (a' : CArr) :
    (cByte b i = .ok x ↔ ∃ k : Nat, i = k ∧ b[k]? = some x) ∧
    (CArr.load a i = .ok y ↔ ∃ k : Nat, i = k ∧ a[k]? = some (some y)) ∧
    (CArr.store a i z = .ok a' ↔ ∃ k : Nat, i = k ∧ k < a.length ∧ a' = a.set k (some z)) := by
  refine ⟨?_, ?_, ?_⟩
  · unfold cByte
    constructor
    · intro h
      split at h
      · cases h
      · split at h
        · cases h
        · rename_i h1 _ h2
          cases h
          exact ⟨i.toNat, by omega, h2⟩
    · rintro ⟨k, rfl, h⟩
      rw [if_neg (by omega), Int.toNat_natCast, h]
  · unfold CArr.load
    constructor
    · intro h
      split at h
      · cases h
      · split at h
        · cases h
        · cases h
        · rename_i h1 _ h2
          cases h
          exact ⟨i.toNat, by omega, h2⟩
    · rintro ⟨k, rfl, h⟩
      rw [if_neg (by omega), Int.toNat_natCast, h]
  · unfold CArr.store
    constructor
    · intro h
      split at h
      · rename_i h1
        cases h
        exact ⟨i.toNat, by omega, by omega, rfl⟩
      · cases h
    · rintro ⟨k, rfl, h, rfl⟩
      rw [if_pos ⟨by omega, by omega⟩, Int.toNat_natCast]

example : cByte [7, 8] 1 = .ok 8 ∧ cByte [7, 8] 2 = .error .bounds ∧ cByte [7, 8] (-1) = .error .bounds := by decide

end FF
