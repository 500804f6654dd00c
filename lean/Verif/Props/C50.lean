import Verif.Lemmas.WriteOk
import Verif.Lemmas.VocabIO
import Verif.Spec.Ngrams
import Verif.Lemmas.HashSpec
/-! C50: UTF-8 words survive byte-level storage.  The reference for UTF-8 is Lean's own
`String.utf8EncodeChar`; a list of `Char`s is exactly a string without lone surrogates. -/

namespace FF

/-- A Unicode scalar value as a code point. -/
def codeOf (c : Char) : Code :=
  ⟨c.val.toNat, by rcases c.valid with h | h <;> (have := h; simp only [UInt32.toNat] at *; omega)⟩

def strOf (cs : List Char) : PyStr := cs.map codeOf

/-- The stored form: byte length (4 bytes, little endian), then the bytes. -/
def storedWord (cs : List Char) : Bytes :=
  (leBytes 4 (cs.flatMap String.utf8EncodeChar).length).map UInt8.ofNat ++
    cs.flatMap String.utf8EncodeChar

theorem codeOf_valid (c : Char) : isSurrogate (codeOf c) = false := by
  rw [isSurrogate_false]
  rcases c.valid with h | h <;> (simp only [codeOf, UInt32.toNat] at *; omega)

theorem strOf_valid (cs : List Char) : (strOf cs).any isSurrogate = false := by
  rw [List.any_eq_false]
  intro c hc
  obtain ⟨d, _, rfl⟩ := List.mem_map.mp hc
  simp [codeOf_valid]

theorem encCode_char (c : Char) : encCode (codeOf c) = String.utf8EncodeChar c := by
  have hv : c.val.toNat < 0x110000 := (codeOf c).isLt
  unfold encCode String.utf8EncodeChar
  have e : (codeOf c).val = c.val.toNat := rfl
  simp only [e]
  generalize c.val.toNat = n at *
  by_cases h1 : n < 0x80
  · rw [if_pos h1, if_pos (by omega : n ≤ 0x7f)]
  rw [if_neg h1, if_neg (by omega : ¬ n ≤ 0x7f)]
  by_cases h2 : n < 0x800
  · rw [if_pos h2, if_pos (by omega : n ≤ 0x7ff), Nat.add_comm 0xC0, Nat.add_comm 0x80,
      Nat.mod_eq_of_lt (by omega : n / 64 < 32)]
  rw [if_neg h2, if_neg (by omega : ¬ n ≤ 0x7ff)]
  by_cases h3 : n < 0x10000
  · rw [if_pos h3, if_pos (by omega : n ≤ 0xffff), Nat.add_comm 0xE0, Nat.add_comm 0x80,
      Nat.add_comm 0x80, Nat.mod_eq_of_lt (by omega : n / 4096 < 16)]
  rw [if_neg h3, if_neg (by omega : ¬ n ≤ 0xffff), Nat.add_comm 0xF0, Nat.add_comm 0x80,
    Nat.add_comm 0x80, Nat.add_comm 0x80, Nat.mod_eq_of_lt (by omega : n / 262144 < 8)]

theorem utf8_strOf (cs : List Char) : utf8 (strOf cs) = cs.flatMap String.utf8EncodeChar := by
  induction cs with
  | nil => rfl
  | cons c cs ih =>
    show encCode (codeOf c) ++ utf8 (strOf cs) = _
    rw [encCode_char, ih]
    rfl

/-- Strings are lists of scalar values iff they have no lone surrogate. -/
theorem C50_strings (w : PyStr) : (∃ cs, w = strOf cs) ↔ ∀ c ∈ w, ¬ (0xD800 ≤ c.val ∧ c.val ≤ 0xDFFF) := by
  constructor
  · rintro ⟨cs, rfl⟩ c hc
    obtain ⟨d, _, rfl⟩ := List.mem_map.mp hc
    have := isSurrogate_false.mp (codeOf_valid d)
    omega
  · intro h
    induction w with
    | nil => exact ⟨[], rfl⟩
    | cons c w ih =>
      obtain ⟨cs, rfl⟩ := ih (fun x hx => h x (List.mem_cons_of_mem _ hx))
      have hc := h c (by simp)
      have hlt := c.isLt
      refine ⟨Char.ofNatAux c.val (by unfold Nat.isValidChar; omega) :: cs, ?_⟩
      rfl

/-- Encoding gives the UTF-8 bytes, decoding gives the string back. -/
theorem C50_codec (cs : List Char) :
    encode (strOf cs) = .ok (cs.flatMap String.utf8EncodeChar) ∧
    decode (cs.flatMap String.utf8EncodeChar) = .ok (strOf cs) := by
  rw [← utf8_strOf]
  exact ⟨encode_eq (strOf_valid cs), decode_utf8 _ (strOf_valid cs)⟩

theorem storedWord_eq (cs : List Char) : itemEnc (strOf cs) = storedWord cs := by
  unfold itemEnc storedWord
  rw [utf8_strOf, ← le_leBytes]
  simp [Function.comp_def]

theorem wordsEnc_strOf (ws : List (List Char)) : wordsEnc (ws.map strOf) = ws.flatMap storedWord := by
  induction ws with
  | nil => rfl
  | cons w ws ih =>
    show itemEnc (strOf w) ++ wordsEnc (ws.map strOf) = _
    rw [ih, storedWord_eq]
    rfl

/-- Any list of words is stored as the concatenation of the stored words, after whatever the
file already contains (`pre`), and read back unchanged, whatever follows (`post`); the reader
stops right behind the last word. -/
theorem C50_round_trip (ws : List (List Char)) (pre post : Bytes)
    (h32 : ∀ w ∈ ws, (w.flatMap String.utf8EncodeChar).length < 2 ^ 32)
    (hsize : (pre ++ ws.flatMap storedWord).length < 2 ^ 63) :
    writeWords (ws.map strOf) pre = (.ok (), pre ++ ws.flatMap storedWord) ∧
    readItems ws.length ⟨pre ++ ws.flatMap storedWord ++ post, pre.length⟩ =
      .ok (ws.map strOf, ⟨pre ++ ws.flatMap storedWord ++ post,
        (pre ++ ws.flatMap storedWord).length⟩) := by
  have hok : ∀ w ∈ ws.map strOf, ItemOk w := by
    intro w hw
    obtain ⟨cs, hcs, rfl⟩ := List.mem_map.mp hw
    refine ⟨strOf_valid cs, ?_⟩
    rw [utf8_strOf]
    have := h32 cs hcs
    omega
  rw [← wordsEnc_strOf] at *
  refine ⟨writeWords_ok hok hsize, ?_⟩
  have := readItems_parses (ws.map strOf) hok pre post
  rw [List.length_map] at this
  exact this

/-- Writing stops at the first word with a lone surrogate, raising `UnicodeEncodeError`. -/
theorem C50_surrogate (ws : List (List Char)) (w : PyStr) (more : List PyStr) (pre : Bytes)
    (h32 : ∀ w ∈ ws, (w.flatMap String.utf8EncodeChar).length < 2 ^ 32)
    (hsize : (pre ++ ws.flatMap storedWord).length < 2 ^ 63)
    (hw : ∃ c ∈ w, 0xD800 ≤ c.val ∧ c.val ≤ 0xDFFF) :
    writeWords (ws.map strOf ++ w :: more) pre =
      (.error .unicodeEncodeError, pre ++ ws.flatMap storedWord) := by
  have henc : encode w = .error .unicodeEncodeError := by
    apply encode_err
    rw [List.any_eq_true]
    obtain ⟨c, hc, h1, h2⟩ := hw
    exact ⟨c, hc, by simp [isSurrogate, h1, h2]⟩
  induction ws generalizing pre with
  | nil =>
    simp only [List.map_nil, List.nil_append, List.flatMap_nil, List.append_nil]
    unfold writeWords forWr
    simp only [henc]
    rfl
  | cons x ws ih =>
    have h1 := (C50_round_trip [x] pre [] (by
      intro y hy
      rw [List.mem_singleton] at hy
      subst hy
      exact h32 y (by simp)) (by simp only [List.flatMap_cons, List.length_append, List.flatMap_nil, List.length_nil] at *; omega)).1
    have h2 := ih (pre ++ storedWord x) (fun y hy => h32 y (List.mem_cons_of_mem _ hy))
      (by simp only [List.flatMap_cons, List.length_append] at *; omega)
    simp only [List.flatMap_cons, List.flatMap_nil, List.append_nil] at h1 ⊢
    rw [← List.append_assoc]
    simp only [List.map_cons, List.cons_append]
    unfold writeWords at h1 h2 ⊢
    unfold forWr at h1 ⊢
    obtain ⟨u, s1, h3, h4⟩ := wr_bind_inv h1
    rw [wr_bind_ok h3]
    cases h4
    exact h2

/-- Words of one to four bytes per code point; a surrogate. -/
example : encode (strOf ['a', 'ß', '語', '𝄞']) =
    .ok [0x61, 0xC3, 0x9F, 0xE8, 0xAA, 0x9E, 0xF0, 0x9D, 0x84, 0x9E] := by decide +kernel
example : ∀ w ∈ [['a', 'ß'], [], ['語']], (w.flatMap String.utf8EncodeChar).length < 2 ^ 32 := by
  decide
example : ∃ c ∈ ([97, 0xD800] : PyStr), 0xD800 ≤ c.val ∧ c.val ≤ 0xDFFF := ⟨0xD800, by simp, by decide⟩

end FF
