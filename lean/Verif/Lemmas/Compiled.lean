import Verif.Model.Compiled
import Verif.Lemmas.Boundaries
import Verif.Lemmas.Bytes
/-! The compiled n-gram code and its description over natural numbers. -/

namespace FF

/-! ### Loops -/

theorem cm_ok {α β : Type} (a : α) (f : α → CM β) : ((Except.ok a : CM α) >>= f) = f a := rfl

theorem cm_error {α β : Type} (e : CFault) (f : α → CM β) : ((Except.error e : CM α) >>= f) = .error e := rfl

theorem ssize_ok {n : Int} (h1 : -2 ^ 63 ≤ n) (h2 : n < 2 ^ 63) : ssize n = .ok n := by
  unfold ssize
  rw [if_pos ⟨h1, h2⟩]

theorem cU32_nat (n : Nat) (h : n < 2 ^ 32) : (cU32 n).toNat = n := by
  unfold cU32
  have h1 : ((n : Int) % 2 ^ 32).toNat = n := by omega
  rw [h1, UInt32.toNat_ofNat']
  exact Nat.mod_eq_of_lt h

theorem cU64_nat (n : Nat) (h : n < 2 ^ 64) : (cU64 n).toNat = n := by
  unfold cU64
  have h1 : ((n : Int) % 2 ^ 64).toNat = n := by omega
  rw [h1, UInt64.toNat_ofNat']
  exact Nat.mod_eq_of_lt h

theorem cFor_append {σ : Type} (a b : List Int) (s : σ) (body : Int → σ → CM σ) :
    cFor (a ++ b) s body = (cFor a s body).bind fun s => cFor b s body := by
  induction a generalizing s with
  | nil => rfl
  | cons i is ih =>
    show (body i s).bind (fun s => cFor (is ++ b) s body) = ((body i s).bind fun s => cFor is s body).bind _
    rcases body i s with e | s'
    · rfl
    · exact ih s'

/-- A loop that appends to a list -/
theorem cFor_flatMap {β : Type} (is : List Int) (out : List β) (body : Int → List β → CM (List β)) (f : Int → List β)
    (h : ∀ i ∈ is, ∀ out, body i out = .ok (out ++ f i)) : cFor is out body = .ok (out ++ is.flatMap f) := by
  induction is generalizing out with
  | nil => simp [cFor]
  | cons i is ih =>
    show (body i out).bind (fun s => cFor is s body) = _
    rw [h i List.mem_cons_self]
    show cFor is (out ++ f i) body = _
    rw [ih _ (fun i hi => h i (List.mem_cons_of_mem _ hi)), List.flatMap_cons, List.append_assoc]

/-- A loop without faults -/
theorem cFor_foldl {σ : Type} (is : List Int) (s : σ) (body : Int → σ → CM σ) (f : σ → Int → σ)
    (h : ∀ i ∈ is, ∀ s, body i s = .ok (f s i)) : cFor is s body = .ok (is.foldl f s) := by
  induction is generalizing s with
  | nil => rfl
  | cons i is ih =>
    show (body i s).bind (fun s => cFor is s body) = _
    rw [h i List.mem_cons_self]
    exact ih _ (fun i hi => h i (List.mem_cons_of_mem _ hi))

theorem mem_cRange {a b i : Int} : i ∈ cRange a b ↔ a ≤ i ∧ i < b := by
  unfold cRange
  rw [List.mem_map]
  constructor
  · rintro ⟨k, hk, rfl⟩
    rw [List.mem_range] at hk
    omega
  · rintro ⟨h1, h2⟩
    exact ⟨(i - a).toNat, by rw [List.mem_range]; omega, by omega⟩

theorem mem_cRangeDown {a b i : Int} : i ∈ cRangeDown a b ↔ b < i ∧ i ≤ a := by
  unfold cRangeDown
  rw [List.mem_map]
  constructor
  · rintro ⟨k, hk, rfl⟩
    rw [List.mem_range] at hk
    omega
  · rintro ⟨h1, h2⟩
    exact ⟨(a - i).toNat, by rw [List.mem_range]; omega, by omega⟩

theorem cRange_nat (a n : Nat) : cRange a (a + n : Nat) = (List.range' a n).map fun i : Nat => (i : Int) := by
  unfold cRange
  rw [show ((a + n : Nat) - (a : Int)).toNat = n by omega, List.range'_eq_map_range, List.map_map]
  apply List.map_congr_left
  intro k _
  simp

theorem cRange_starts (len lo : Nat) :
    cRange 0 ((len : Int) + 1 - lo) = (List.range (len + 1 - lo)).map fun i : Nat => (i : Int) := by
  unfold cRange
  rw [show ((len : Int) + 1 - lo - 0).toNat = len + 1 - lo by omega]
  apply List.map_congr_left
  intro k _
  simp

theorem cRangeDown_lengths (hi lo : Nat) (h : 0 < lo) :
    cRangeDown hi (lo - 1 : Nat) = (rangeDown hi lo).map fun i : Nat => (i : Int) := by
  unfold cRangeDown rangeDown
  rw [show ((hi : Int) - (lo - 1 : Nat)).toNat = hi + 1 - lo by omega, List.map_map]
  apply List.map_congr_left
  intro k hk
  rw [List.mem_range] at hk
  simp only [Function.comp]
  omega

/-! ### Boundaries -/

/-- Positions of bytes that are not continuation bytes, before `k` -/
def startsTo (w : Bytes) (k : Nat) : List Nat := (List.range k).filter fun i => ((w[i]?).getD 0) &&& 0xC0 ≠ 0x80

/-- An array that has been written up to some position -/
def cFilled (m : Nat) (s : List Nat) : CArr := s.map (fun p => some (UInt32.ofNat p)) ++ List.replicate (m - s.length) none

theorem startsTo_length (w : Bytes) (k : Nat) : (startsTo w k).length ≤ k := by
  have := List.length_filter_le (fun i => decide (((w[i]?).getD 0) &&& 0xC0 ≠ 0x80)) (List.range k)
  rw [List.length_range] at this
  exact this

theorem startsTo_succ (w : Bytes) (k : Nat) : startsTo w (k + 1) =
    startsTo w k ++ if ((w[k]?).getD 0) &&& 0xC0 ≠ 0x80 then [k] else [] := by
  unfold startsTo
  rw [List.range_succ, List.filter_append]
  congr 1
  by_cases h : ((w[k]?).getD 0) &&& 0xC0 ≠ 0x80
  · rw [if_pos h, List.filter_cons_of_pos (by simpa using h)]; rfl
  · rw [if_neg h, List.filter_cons_of_neg (by simpa using h)]; rfl

theorem cFilled_store {m : Nat} {s : List Nat} (h : s.length < m) (p : Nat) :
    CArr.store (cFilled m s) s.length (UInt32.ofNat p) = .ok (cFilled m (s ++ [p])) := by
  have hl : (cFilled m s).length = m := by
    unfold cFilled
    rw [List.length_append, List.length_map, List.length_replicate]
    omega
  unfold CArr.store
  rw [if_pos ⟨by omega, by rw [hl]; omega⟩]
  congr 1
  unfold cFilled
  rw [Int.toNat_natCast, List.set_append_right _ _ (by rw [List.length_map]), List.length_map, Nat.sub_self,
    List.map_append, List.append_assoc]
  congr 1
  rw [show m - s.length = (m - (s ++ [p]).length) + 1 by rw [List.length_append]; simp only [List.length_cons, List.length_nil]; omega,
    List.replicate_succ]
  rfl

theorem cByte_get {b : Bytes} {i : Nat} (h : i < b.length) : cByte b i = .ok ((b[i]?).getD 0) := by
  unfold cByte
  rw [if_neg (by omega), Int.toNat_natCast, List.getElem?_eq_getElem h]
  rfl

theorem cont_u32 (x : UInt8) : x.toUInt32 &&& 0xC0 ≠ 0x80 ↔ x &&& 0xC0 ≠ 0x80 := by
  have : ∀ n : Fin 256, (UInt8.ofNat n.val).toUInt32 &&& 0xC0 ≠ 0x80 ↔ UInt8.ofNat n.val &&& 0xC0 ≠ 0x80 := by decide +kernel
  have h := this ⟨x.toNat, x.toNat_lt⟩
  simpa using h

theorem u32_succ {k : Nat} : UInt32.ofNat k + 1 = UInt32.ofNat (k + 1) := by
  rw [UInt32.ofNat_add]
  rfl

theorem cBoundaryLoop_ok (w : Bytes) (hw : w.length < 2 ^ 32) (fuel k : Nat) (hk : k ≤ w.length)
    (hf : w.length - k < fuel) :
    cBoundaryLoop w fuel (UInt32.ofNat k) (startsTo w k).length (cFilled (w.length + 1) (startsTo w k)) =
      .ok ((startsTo w w.length).length, cFilled (w.length + 1) (startsTo w w.length)) := by
  induction fuel generalizing k with
  | zero => omega
  | succ fuel ih =>
    have hk32 : (UInt32.ofNat k).toNat = k := by rw [UInt32.toNat_ofNat']; omega
    rw [cBoundaryLoop, hk32]
    by_cases hlt : k < w.length
    · rw [if_pos (by omega), cByte_get hlt]
      have hs := startsTo_succ w k
      have hl := startsTo_length w k
      have hrec := ih (k + 1) hlt (by omega)
      show (if _ then _ else _) = _
      by_cases hc : ((w[k]?).getD 0) &&& 0xC0 ≠ 0x80
      · rw [if_pos ((cont_u32 _).2 hc), cFilled_store (by omega)]
        rw [if_pos hc] at hs
        rw [hs, List.length_append] at hrec
        rw [cm_ok, ssize_ok (by omega) (by omega), cm_ok, u32_succ]
        exact hrec
      · rw [if_neg (fun h => hc ((cont_u32 _).1 h)), u32_succ]
        rw [if_neg hc, List.append_nil] at hs
        rw [hs] at hrec
        exact hrec
    · rw [if_neg (by omega)]
      rw [show k = w.length by omega]

theorem cBoundariesIn_ok (w : Bytes) (hw : w.length < 2 ^ 32) (fuel : Nat) (hf : w.length < fuel) :
    cBoundariesIn fuel w = .ok (cFilled (w.length + 1) (findUtf8Boundaries w)) := by
  unfold cBoundariesIn
  rw [ssize_ok (by omega) (by omega)]
  show (cBoundaryLoop w _ (UInt32.ofNat 0) ((startsTo w 0).length : Nat) (List.replicate ((w.length : Int) + 1).toNat none)).bind _ = _
  rw [show (List.replicate ((w.length : Int) + 1).toNat none : CArr) = cFilled (w.length + 1) (startsTo w 0) from rfl,
    cBoundaryLoop_ok w hw _ 0 (Nat.zero_le _) (by omega)]
  show CArr.store _ _ _ = _
  have hl := startsTo_length w w.length
  have : cU32 w.length = UInt32.ofNat w.length := by
    unfold cU32
    have h1 : ((w.length : Int) % 2 ^ 32).toNat = w.length := by omega
    rw [h1]
  rw [this]
  exact cFilled_store (by omega) _

theorem cBoundaries_ok (w : Bytes) (hw : w.length < 2 ^ 32) :
    cBoundaries w = .ok (cFilled (w.length + 1) (findUtf8Boundaries w)) :=
  cBoundariesIn_ok w hw _ (by omega)

/-- For 2^32 bytes and more the counter wraps, and the array is overrun. -/
theorem cBoundaryLoop_wraps (w : Bytes) (hw : 2 ^ 32 ≤ w.length) (hw' : w.length < 2 ^ 62)
    (h0 : ((w[0]?).getD 0) &&& 0xC0 ≠ 0x80) (fuel : Nat) (b : UInt32) (i d : Nat) (offsets : CArr)
    (hl : offsets.length = w.length + 1) (hi : i + d = w.length + 1)
    (hf : 4294967296 * d + (4294967296 - b.toNat) % 4294967296 < fuel) :
    cBoundaryLoop w fuel b i offsets = .error .bounds := by
  induction fuel generalizing b i d offsets with
  | zero => omega
  | succ fuel ih =>
    have hb := b.toNat_lt
    rw [cBoundaryLoop, if_pos (by omega), cByte_get (by omega)]
    have hb1 : (b + 1).toNat = (b.toNat + 1) % 4294967296 := by rw [UInt32.toNat_add]; rfl
    show (if _ then _ else _) = _
    by_cases hc : ((w[b.toNat]?).getD 0) &&& 0xC0 ≠ 0x80
    · rw [if_pos ((cont_u32 _).2 hc)]
      unfold CArr.store
      by_cases hlt : i < w.length + 1
      · rw [if_pos ⟨by omega, by omega⟩]
        rw [cm_ok, ssize_ok (by omega) (by omega), cm_ok]
        show cBoundaryLoop w fuel (b + 1) (i + 1 : Nat) _ = _
        exact ih _ _ (d - 1) _ (by rw [List.length_set, hl]) (by omega) (by omega)
      · rw [if_neg (by rw [hl]; omega), cm_error]
    · rw [if_neg (fun h => hc ((cont_u32 _).1 h))]
      have : b.toNat ≠ 0 := by
        intro h
        rw [h] at hc
        exact hc h0
      exact ih _ _ d _ hl hi (by omega)

theorem cBoundariesIn_wraps (w : Bytes) (hw : 2 ^ 32 ≤ w.length) (hw' : w.length < 2 ^ 62)
    (h0 : ((w[0]?).getD 0) &&& 0xC0 ≠ 0x80) (fuel : Nat) (hf : (w.length + 1) * 2 ^ 32 < fuel) :
    cBoundariesIn fuel w = .error .bounds := by
  unfold cBoundariesIn
  rw [ssize_ok (by omega) (by omega), cm_ok]
  have h3 : (0 : UInt32).toNat = 0 := rfl
  have h1 : 4294967296 * (w.length + 1) + (4294967296 - (0 : UInt32).toNat) % 4294967296 < fuel := by
    omega
  have h2 := cBoundaryLoop_wraps w hw hw' h0 fuel 0 0 (w.length + 1) (List.replicate ((w.length : Int) + 1).toNat none)
    (by rw [List.length_replicate]; omega) (by omega) h1
  rw [Nat.cast_zero] at h2
  rw [h2, cm_error]

theorem cBoundaries_wraps (w : Bytes) (hw : 2 ^ 32 ≤ w.length) (hw' : w.length < 2 ^ 62)
    (h0 : ((w[0]?).getD 0) &&& 0xC0 ≠ 0x80) : cBoundaries w = .error .bounds :=
  cBoundariesIn_wraps w hw hw' h0 _ (by omega)

theorem cFilled_load {m : Nat} {s : List Nat} {k : Nat} (hk : k < s.length) (hs : (s[k]?).getD 0 < 2 ^ 32) :
    ∃ x, CArr.load (cFilled m s) k = .ok x ∧ x.toNat = (s[k]?).getD 0 := by
  refine ⟨UInt32.ofNat ((s[k]?).getD 0), ?_, by rw [UInt32.toNat_ofNat']; omega⟩
  unfold CArr.load cFilled
  rw [if_neg (by omega), Int.toNat_natCast, List.getElem?_append_left (by rw [List.length_map]; exact hk),
    List.getElem?_map, List.getElem?_eq_getElem hk]
  rfl

/-! ### Hashes -/

theorem cFtHash_ok (b : Bytes) (s t : Nat) (h1 : s ≤ t) (h2 : t ≤ b.length) :
    cFtHash b s t = .ok (ftHashNgram b s t).toUInt64 := by
  unfold cFtHash
  rw [cFor_foldl _ _ _ (fun h i => (h ^^^ signExtend ((b[i.toNat]?).getD 0)) * prime32)]
  · show Except.ok _ = _
    congr 2
    unfold ftHashNgram
    obtain ⟨n, rfl⟩ : ∃ n, t = s + n := ⟨t - s, by omega⟩
    rw [cRange_nat, Nat.add_sub_cancel_left, List.foldl_map]
    rfl
  · intro i hi h
    rw [mem_cRange] at hi
    obtain ⟨k, rfl⟩ : ∃ k : Nat, i = k := ⟨i.toNat, by omega⟩
    rw [cByte_get (by omega)]
    rfl

theorem cFnv64a_ok (buf : Bytes) (h : UInt64) : cFnv64a buf buf.length h = .ok (fnv64aBuf buf h) := by
  unfold cFnv64a
  rw [cFor_foldl _ _ _ (fun h i => fnv64aStep h ((buf[i.toNat]?).getD 0))]
  · have := cRange_nat 0 buf.length
    rw [Nat.zero_add] at this
    show Except.ok (List.foldl _ h (cRange ((0 : Nat) : Int) _)) = _
    rw [this, List.foldl_map]
    have := foldl_range'_get buf (fun h c => fnv64aStep h (c.getD 0)) buf.length 0 h (by omega)
    rw [List.drop_zero, List.take_length] at this
    exact congrArg _ this
  · intro i hi h
    rw [mem_cRange] at hi
    obtain ⟨k, rfl⟩ : ∃ k : Nat, i = k := ⟨i.toNat, by omega⟩
    rw [cByte_get (by omega)]
    rfl

theorem cFifuHash_ok (w : PyStr) (i j : Nat) (h : i + j ≤ w.length) (hw : w.length < 2 ^ 62) :
    cFifuHash w i j = .ok (fifuHashNgram w i j) := by
  unfold cFifuHash
  rw [cU64_nat j (by omega)]
  have h8 := cFnv64a_ok (le 8 j) fnv1a64Init
  rw [length_le] at h8
  rw [show cFnv64a (le 8 j) 8 fnv1a64Init = _ from h8, cm_ok, ssize_ok (by omega) (by omega), cm_ok]
  rw [cFor_foldl _ _ _ (fun h i => fnv64aBuf (le 4 ((w[i.toNat]?.map Fin.val).getD 0)) h)]
  · have := cRange_nat i j
    rw [show ((i + j : Nat) : Int) = i + j by omega] at this
    rw [this, List.foldl_map]
    rfl
  · intro k hk h
    rw [mem_cRange] at hk
    obtain ⟨k, rfl⟩ : ∃ n : Nat, k = n := ⟨k.toNat, by omega⟩
    rw [if_neg (by omega)]
    have hc : (w[k]?.map Fin.val).getD 0 < 2 ^ 32 := by
      rw [List.getElem?_eq_getElem (by omega)]
      have := (w[k]'(by omega)).isLt
      show (w[k]'(by omega)).val < _
      omega
    have h4 := cFnv64a_ok (le 4 ((w[k]?.map Fin.val).getD 0)) h
    rw [length_le] at h4
    show cFnv64a (le 4 (cU32 ((w[k]?.map Fin.val).getD 0 : Nat)).toNat) 4 h = _
    rw [cU32_nat _ hc]
    exact h4

/-! ### The loops over n-grams -/

/-- The lengths of n-grams -/
theorem lengths_pos {hi : Nat} {lo : UInt32} (h : lo ≠ 0) :
    cRangeDown hi (lo - 1).toNat = (rangeDown hi lo.toNat).map fun i : Nat => (i : Int) := by
  have h0 : 0 < lo.toNat := by
    rcases Nat.eq_zero_or_pos lo.toNat with h' | h'
    · exact absurd (UInt32.toNat_inj.1 (h'.trans rfl)) h
    · exact h'
  have h1 : (lo - 1).toNat = lo.toNat - 1 := by
    have h3 : (1 : UInt32) ≤ lo := by
      rw [UInt32.le_iff_toNat_le]
      exact h0
    rw [UInt32.toNat_sub_of_le _ _ h3]
    rfl
  rw [h1]
  exact cRangeDown_lengths hi lo.toNat h0

/-- With `min_n = 0`, `min_n - 1` is the largest `uint32_t`. -/
theorem lengths_zero {hi : Nat} (h : hi < 2 ^ 32) : cRangeDown hi ((0 : UInt32) - 1).toNat = [] := by
  have h1 : ((0 : UInt32) - 1).toNat = 4294967295 := rfl
  rw [h1]
  unfold cRangeDown
  have : ((hi : Int) - (4294967295 : Nat)).toNat = 0 := by omega
  rw [this]
  rfl

/-- The n-grams of a word of `len` characters, `f i j` for the one of length `j` at `i` -/
def grid {β : Type} (len lo hi : Nat) (f : Nat → Nat → List β) : List β :=
  (List.range (len + 1 - lo)).flatMap fun i => (rangeDown hi lo).flatMap fun j => if j + i ≤ len then f i j else []

theorem cInner {β : Type} {len hi : Nat} {lo : UInt32} (h0 : lo ≠ 0) (i : Nat) (body : Int → List β → CM (List β))
    (f : Nat → List β) (h : ∀ j : Nat, j ≤ hi → ∀ out, body j out = .ok (out ++ if j + i ≤ len then f j else []))
    (out : List β) : cFor (cRangeDown hi (lo - 1).toNat) out body =
      .ok (out ++ (rangeDown hi lo.toNat).flatMap fun j => if j + i ≤ len then f j else []) := by
  rw [cFor_flatMap _ _ _ (fun j => if j.toNat + i ≤ len then f j.toNat else [])]
  · rw [lengths_pos h0, List.flatMap_map]
    rfl
  · intro j hj out
    rw [mem_cRangeDown] at hj
    obtain ⟨k, rfl⟩ : ∃ n : Nat, j = n := ⟨j.toNat, by omega⟩
    exact h k (by omega) out

theorem cLoops {β : Type} {len : Nat} {hi : Nat} {lo : UInt32} (h0 : lo ≠ 0)
    (body : Int → Int → List β → CM (List β)) (f : Nat → Nat → List β)
    (h : ∀ i j : Nat, i ≤ len → j ≤ hi → ∀ out, body i j out = .ok (out ++ if j + i ≤ len then f i j else [])) :
    (cFor (cRange 0 ((len : Int) + 1 - lo.toNat)) [] fun i out =>
      cFor (cRangeDown hi (lo - 1).toNat) out fun j out => body i j out) = .ok (grid len lo.toNat hi f) := by
  rw [cFor_flatMap _ _ _ (fun i => (rangeDown hi lo.toNat).flatMap fun j =>
    if j + i.toNat ≤ len then f i.toNat j else [])]
  · rw [cRange_starts, List.flatMap_map]
    rfl
  · intro i hi' out
    rw [mem_cRange] at hi'
    obtain ⟨k, rfl⟩ : ∃ n : Nat, i = n := ⟨i.toNat, by omega⟩
    exact cInner h0 k (body k) (f k) (fun j hj out => h k j (by omega) hj out) out

/-- With `min_n = 0` nothing is found. -/
theorem cLoops_zero {β : Type} {len : Nat} {hi : Nat} (h : hi < 2 ^ 32) (body : Int → Int → List β → CM (List β)) :
    (cFor (cRange 0 ((len : Int) + 1 - (0 : UInt32).toNat)) [] fun i out =>
      cFor (cRangeDown hi ((0 : UInt32) - 1).toNat) out fun j out => body i j out) = .ok [] := by
  rw [lengths_zero h, cFor_flatMap _ _ _ (fun _ => [])]
  · simp
  · intro i _ out
    rw [List.append_nil]
    rfl

theorem u64_mod (h : UInt32) (n : UInt64) : h.toUInt64 % n = UInt64.ofNat (h.toNat % n.toNat) := by
  apply UInt64.toNat_inj.1
  have h1 := h.toNat_lt
  have h2 := Nat.mod_le h.toNat n.toNat
  rw [UInt64.toNat_mod, UInt32.toNat_toUInt64, UInt64.toNat_ofNat']
  omega

theorem maxN_min (maxN : UInt32) (len : Nat) : (cU32 (min (maxN.toNat : Int) len)).toNat = min maxN.toNat len := by
  have h := maxN.toNat_lt
  have : min (maxN.toNat : Int) len = (min maxN.toNat len : Nat) := by omega
  rw [this]
  exact cU32_nat _ (by omega)

theorem utf8_take_le (w : PyStr) (k : Nat) : (utf8 (w.take k)).length ≤ (utf8 w).length := by
  conv_rhs => rw [← List.take_append_drop k w, utf8_append]
  rw [List.length_append]
  omega

theorem utf8_take_mono (w : PyStr) (i j : Nat) : (utf8 (w.take i)).length ≤ (utf8 (w.take (i + j))).length := by
  rw [List.take_add, utf8_append, List.length_append]
  omega

theorem length_le_utf8 (w : PyStr) : w.length ≤ (utf8 w).length := by
  induction w with
  | nil => simp
  | cons c w ih =>
    obtain ⟨b, bs, h, -⟩ := encCode_shape c
    show _ ≤ (encCode c ++ utf8 w).length
    rw [h, List.length_append, List.length_cons, List.length_cons]
    omega

theorem load_boundary (w : PyStr) (hw : (utf8 w).length < 2 ^ 32) (k : Nat) (h : k ≤ w.length) :
    ∃ x, CArr.load (cFilled ((utf8 w).length + 1) (findUtf8Boundaries (utf8 w))) k = .ok x ∧
      x.toNat = ((findUtf8Boundaries (utf8 w))[k]?).getD 0 ∧ x.toNat = (utf8 (w.take k)).length := by
  have h1 := boundary_at w k h
  have h2 := utf8_take_le w k
  obtain ⟨x, hx, hx'⟩ := cFilled_load (m := (utf8 w).length + 1) (s := findUtf8Boundaries (utf8 w)) (k := k)
    (by rw [findUtf8Boundaries_utf8, List.length_map, List.length_range]; omega) (by rw [h1]; omega)
  exact ⟨x, hx, hx', hx'.trans h1⟩

section
variable {β : Type}

theorem cFtSubwords_ok (emit : PyStr → Nat → β) (minN maxN : UInt32) (nBuckets : UInt64) (word : PyStr) (offset : UInt64)
    (bracket : Bool) (h0 : minN ≠ 0) (hn : nBuckets ≠ 0)
    (hw : ∀ b, encode (bracketed bracket word) = .ok b → b.length < 2 ^ 32) :
    cFtSubwords emit minN maxN nBuckets word offset bracket =
      .ok ((⟨nBuckets.toNat, minN.toNat, maxN.toNat⟩ : FtIndexer).subwordLoop emit word offset bracket) := by
  unfold cFtSubwords FtIndexer.subwordLoop
  simp only
  generalize bracketed bracket word = w at hw ⊢
  cases he : encode w with
  | error e => rfl
  | ok b =>
    have hb := hw b he
    obtain ⟨rfl, -⟩ := encode_ok he
    have hlen := length_le_utf8 w
    have hlo := minN.toNat_lt
    have hhi := maxN.toNat_lt
    simp only
    rw [cBoundaries_ok _ hb, cm_ok, ssize_ok (by omega) (by omega), cm_ok, ssize_ok (by omega) (by omega), cm_ok, maxN_min]
    have key : (cFor (cRange 0 ((w.length : Int) + 1 - minN.toNat)) ([] : List β) fun i ngrams => do
        let start ← CArr.load (cFilled ((utf8 w).length + 1) (findUtf8Boundaries (utf8 w))) i
        cFor (cRangeDown (min maxN.toNat w.length : Nat) (minN - 1).toNat) ngrams fun j ngrams => do
          let s ← ssize (j + i)
          if s ≤ w.length then
            let k ← ssize (i + j)
            let stop ← CArr.load (cFilled ((utf8 w).length + 1) (findUtf8Boundaries (utf8 w))) k
            let h ← cFtHash (utf8 w) start.toNat stop.toNat
            let h ← cMod h nBuckets
            return ngrams ++ [emit (pySlice w i.toNat k.toNat) (h + offset).toNat]
          else return ngrams) = .ok (grid w.length minN.toNat (min maxN.toNat w.length) fun i j =>
            [emit (pySlice w i (i + j)) (UInt64.ofNat ((ftHashNgram (utf8 w)
              (((findUtf8Boundaries (utf8 w))[i]?).getD 0) (((findUtf8Boundaries (utf8 w))[i + j]?).getD 0)).toNat %
                nBuckets.toNat) + offset).toNat]) := by
      rw [cFor_flatMap _ _ _ (fun i => (rangeDown (min maxN.toNat w.length) minN.toNat).flatMap fun j =>
        if j + i.toNat ≤ w.length then [emit (pySlice w i.toNat (i.toNat + j)) (UInt64.ofNat ((ftHashNgram (utf8 w)
              (((findUtf8Boundaries (utf8 w))[i.toNat]?).getD 0) (((findUtf8Boundaries (utf8 w))[i.toNat + j]?).getD 0)).toNat %
                nBuckets.toNat) + offset).toNat] else [])]
      · rw [cRange_starts, List.flatMap_map]
        rfl
      · intro i hi out
        rw [mem_cRange] at hi
        obtain ⟨i, rfl⟩ : ∃ n : Nat, i = n := ⟨i.toNat, by omega⟩
        obtain ⟨x, hx, hx1, hx2⟩ := load_boundary w hb i (by omega)
        rw [hx, cm_ok]
        refine cInner h0 i _ _ ?_ out
        intro j hj out
        rw [ssize_ok (by omega) (by omega), cm_ok]
        by_cases hij : j + i ≤ w.length
        · rw [if_pos (by omega), if_pos hij, ssize_ok (by omega) (by omega), cm_ok]
          have hk : ((i : Int) + j) = (i + j : Nat) := by omega
          obtain ⟨y, hy, hy1, hy2⟩ := load_boundary w hb (i + j) (by omega)
          rw [hk, hy, cm_ok, cFtHash_ok _ _ _ (by rw [hx2, hy2]; exact utf8_take_mono w i j)
            (by rw [hy2]; exact utf8_take_le w (i + j)), cm_ok]
          unfold cMod
          rw [if_neg hn, cm_ok, u64_mod, hx1, hy1]
          rfl
        · rw [if_neg (by omega), if_neg hij, List.append_nil]
          rfl
    rw [key]
    rfl

/-- `min_n = 0`: no n-grams, whatever the number of buckets -/
theorem cFtSubwords_zero (emit : PyStr → Nat → β) (maxN : UInt32) (nBuckets : UInt64) (word : PyStr) (offset : UInt64)
    (bracket : Bool) (hw : ∀ b, encode (bracketed bracket word) = .ok b → b.length < 2 ^ 32) :
    cFtSubwords emit 0 maxN nBuckets word offset bracket = .ok ((encode (bracketed bracket word)).map fun _ => []) := by
  unfold cFtSubwords
  simp only
  generalize bracketed bracket word = w at hw ⊢
  cases he : encode w with
  | error e => rfl
  | ok b =>
    have hb := hw b he
    obtain ⟨rfl, -⟩ := encode_ok he
    have hlen := length_le_utf8 w
    have hhi := maxN.toNat_lt
    have h00 : (0 : UInt32).toNat = 0 := rfl
    simp only
    rw [cBoundaries_ok _ hb, cm_ok, ssize_ok (by omega) (by omega), cm_ok, ssize_ok (by omega) (by omega), cm_ok, maxN_min,
      lengths_zero (by omega), cFor_flatMap _ _ _ (fun _ => [])]
    · rw [show ∀ l : List Int, l.flatMap (fun _ => ([] : List β)) = [] by simp]
      rfl
    · intro i hi out
      rw [mem_cRange] at hi
      obtain ⟨i, rfl⟩ : ∃ n : Nat, i = n := ⟨i.toNat, by omega⟩
      obtain ⟨x, hx, -⟩ := load_boundary w hb i (by omega)
      rw [hx, cm_ok, List.append_nil]
      rfl

theorem cFor_error {σ : Type} {i : Int} {is : List Int} {s : σ} {body : Int → σ → CM σ} {e : CFault}
    (h : body i s = .error e) : cFor (i :: is) s body = .error e := by
  show (body i s) >>= _ = _
  rw [h, cm_error]

theorem rangeDown_cons {hi lo : Nat} (h : lo ≤ hi) : ∃ is, rangeDown hi lo = hi :: is := by
  unfold rangeDown
  rw [show hi + 1 - lo = (hi - lo) + 1 by omega, List.range_succ_eq_map, List.map_cons]
  exact ⟨_, rfl⟩

/-- No buckets and an n-gram: division by zero -/
theorem cFtSubwords_div (emit : PyStr → Nat → β) (minN maxN : UInt32) (word : PyStr) (offset : UInt64)
    (bracket : Bool) (h0 : minN ≠ 0) (b : Bytes) (he : encode (bracketed bracket word) = .ok b) (hb : b.length < 2 ^ 32)
    (h1 : minN ≤ maxN) (h2 : minN.toNat ≤ (bracketed bracket word).length) :
    cFtSubwords emit minN maxN 0 word offset bracket = .error .divZero := by
  unfold cFtSubwords
  simp only
  generalize bracketed bracket word = w at he h2 ⊢
  rw [he]
  obtain ⟨rfl, -⟩ := encode_ok he
  have hlen := length_le_utf8 w
  have hlo := minN.toNat_lt
  have hhi := maxN.toNat_lt
  rw [UInt32.le_iff_toNat_le] at h1
  simp only
  rw [cBoundaries_ok _ hb, cm_ok, ssize_ok (by omega) (by omega), cm_ok, ssize_ok (by omega) (by omega), cm_ok, maxN_min,
    cRange_starts, lengths_pos h0]
  obtain ⟨is, his⟩ := rangeDown_cons (hi := min maxN.toNat w.length) (lo := minN.toNat) (by omega)
  rw [his, show w.length + 1 - minN.toNat = (w.length - minN.toNat) + 1 by omega, List.range_succ_eq_map, List.map_cons,
    List.map_cons, cFor_error, cm_error]
  obtain ⟨x, hx, hx1, hx2⟩ := load_boundary w hb 0 (by omega)
  rw [hx, cm_ok]
  apply cFor_error
  rw [ssize_ok (by omega) (by omega), cm_ok, if_pos (by omega), ssize_ok (by omega) (by omega), cm_ok]
  obtain ⟨y, hy, hy1, hy2⟩ := load_boundary w hb (0 + min maxN.toNat w.length) (by omega)
  have hk : (((0 : Nat) : Int) + (min maxN.toNat w.length : Nat)) = (0 + min maxN.toNat w.length : Nat) := by omega
  rw [hk, hy, cm_ok, cFtHash_ok _ _ _ (by rw [hx2, hy2]; exact utf8_take_mono w 0 _)
    (by rw [hy2]; exact utf8_take_le w _), cm_ok]
  unfold cMod
  rw [if_pos rfl, cm_error]

theorem cFtCall_ok (nBuckets : UInt64) (ngram : PyStr) (h : nBuckets ≠ 0) (minN maxN : Nat) :
    cFtCall nBuckets ngram = .ok ((⟨nBuckets.toNat, minN, maxN⟩ : FtIndexer).call ngram) := by
  unfold cFtCall FtIndexer.call
  cases he : encode ngram with
  | error e => rfl
  | ok b =>
    simp only
    have := cFtHash_ok b 0 b.length (Nat.zero_le _) (Nat.le_refl _)
    rw [Nat.cast_zero] at this
    rw [this, cm_ok, if_neg h]
    show Except.ok (Except.ok (UInt64.toNat (_ % _))) = Except.ok (Except.ok _)
    rw [UInt64.toNat_mod, UInt32.toNat_toUInt64]

theorem cFifuSubwords_ok (emit : PyStr → Nat → β) (ix : FifuIndexer) (minN maxN : UInt32) (word : PyStr) (offset : UInt64)
    (bracket : Bool) (h0 : minN ≠ 0) (h1 : ix.minN = minN.toNat) (h2 : ix.maxN = maxN.toNat)
    (hw : (bracketed bracket word).length < 2 ^ 62) :
    cFifuSubwords emit minN maxN ix.mask word offset bracket = .ok (ix.subwordLoop emit word offset bracket) := by
  unfold cFifuSubwords FifuIndexer.subwordLoop
  simp only
  rw [h1, h2]
  generalize bracketed bracket word = w at hw ⊢
  have hlo := minN.toNat_lt
  have hhi := maxN.toNat_lt
  by_cases hlt : w.length < minN.toNat
  · rw [if_pos (by omega), if_pos hlt]
  · rw [if_neg (by omega), if_neg hlt, ssize_ok (by omega) (by omega), cm_ok, ssize_ok (by omega) (by omega), cm_ok,
      min_comm, maxN_min, min_comm w.length]
    refine cLoops h0 _ (fun i j => [emit (pySlice w i (i + j)) ((fifuHashNgram w i j &&& ix.mask) + offset).toNat]) ?_
    intro i j hi hj out
    rw [ssize_ok (by omega) (by omega), cm_ok]
    by_cases hij : j + i ≤ w.length
    · rw [if_pos (by omega), if_pos hij, cFifuHash_ok w i j (by omega) hw, cm_ok, ssize_ok (by omega) (by omega), cm_ok]
      rfl
    · rw [if_neg (by omega), if_neg hij, List.append_nil]
      rfl

theorem cFifuSubwords_zero (emit : PyStr → Nat → β) (maxN : UInt32) (mask : UInt64) (word : PyStr) (offset : UInt64)
    (bracket : Bool) (hw : (bracketed bracket word).length < 2 ^ 62) :
    cFifuSubwords emit 0 maxN mask word offset bracket = .ok [] := by
  unfold cFifuSubwords
  simp only
  generalize bracketed bracket word = w at hw ⊢
  have h00 : (0 : UInt32).toNat = 0 := rfl
  have hhi := maxN.toNat_lt
  rw [if_neg (by omega), ssize_ok (by omega) (by omega), cm_ok, ssize_ok (by omega) (by omega), cm_ok, min_comm, maxN_min]
  exact cLoops_zero (by omega) _

theorem cFifuCall_ok (ix : FifuIndexer) (ngram : PyStr) (hw : ngram.length < 2 ^ 62) :
    cFifuCall ix.mask ngram = .ok (ix.call ngram) := by
  unfold cFifuCall FifuIndexer.call
  have := cFifuHash_ok ngram 0 ngram.length (by omega) hw
  rw [Nat.cast_zero] at this
  rw [this, cm_ok]
  rfl

theorem cExplSubwords_ok (emit : PyStr → Int → β) (ix : ExplIndexer) (minN maxN : UInt32) (word : PyStr) (offset : UInt64)
    (bracket : Bool) (h0 : minN ≠ 0) (h1 : ix.minN = minN.toNat) (h2 : ix.maxN = maxN.toNat)
    (hw : (bracketed bracket word).length < 2 ^ 62) :
    cExplSubwords emit minN maxN ix.index word offset bracket = .ok (ix.subwordLoop emit word offset.toNat bracket) := by
  unfold cExplSubwords ExplIndexer.subwordLoop
  simp only
  rw [h1, h2]
  generalize bracketed bracket word = w at hw ⊢
  have hlo := minN.toNat_lt
  have hhi := maxN.toNat_lt
  by_cases hlt : w.length < minN.toNat
  · rw [if_pos (by omega), if_pos hlt]
  · have hm : min (maxN.toNat : Int) w.length = (min maxN.toNat w.length : Nat) := by omega
    rw [if_neg (by omega), if_neg hlt, ssize_ok (by omega) (by omega), cm_ok, ssize_ok (by omega) (by omega), cm_ok, hm]
    refine cLoops h0 _ (fun i j => match Dict.get? ix.index (pySlice w i (i + j)) with
      | none => []
      | some idx => [emit (pySlice w i (i + j)) (idx + offset.toNat)]) ?_
    intro i j hi hj out
    rw [ssize_ok (by omega) (by omega), cm_ok]
    by_cases hij : j + i ≤ w.length
    · rw [if_pos (by omega), if_pos hij, ssize_ok (by omega) (by omega), cm_ok]
      have hk : ((i : Int) + j).toNat = i + j := by omega
      rw [hk, Int.toNat_natCast]
      cases Dict.get? ix.index (pySlice w i (i + j)) with
      | none => simp only; rw [List.append_nil]; rfl
      | some idx => rfl
    · rw [if_neg (by omega), if_neg hij, List.append_nil]
      rfl

theorem cExplSubwords_zero (emit : PyStr → Int → β) (maxN : UInt32) (index : Dict PyStr Int) (word : PyStr) (offset : UInt64)
    (bracket : Bool) (hw : (bracketed bracket word).length < 2 ^ 62) :
    cExplSubwords emit 0 maxN index word offset bracket = .ok [] := by
  unfold cExplSubwords
  simp only
  generalize bracketed bracket word = w at hw ⊢
  have h00 : (0 : UInt32).toNat = 0 := rfl
  have hhi := maxN.toNat_lt
  have hm : min (maxN.toNat : Int) w.length = (min maxN.toNat w.length : Nat) := by omega
  rw [if_neg (by omega), ssize_ok (by omega) (by omega), cm_ok, ssize_ok (by omega) (by omega), cm_ok, hm]
  exact cLoops_zero (by omega) _

theorem cNgrams_ok (word : PyStr) (minN maxN : UInt32) (bracket : Bool) (hw : (bracketed bracket word).length < 2 ^ 62) :
    cNgrams word minN maxN bracket = .ok (ngrams word minN.toNat maxN.toNat bracket) := by
  unfold cNgrams ngrams
  have hlo := minN.toNat_lt
  have hhi := maxN.toNat_lt
  have h00 : (0 : UInt32).toNat = 0 := rfl
  by_cases hc : maxN ≥ minN ∧ minN > 0
  · have hc' := hc
    rw [ge_iff_le, gt_iff_lt, UInt32.le_iff_toNat_le, UInt32.lt_iff_toNat_lt, h00] at hc'
    have h0 : minN ≠ 0 := by
      rintro rfl
      omega
    rw [if_pos hc, if_pos (show maxN.toNat ≥ minN.toNat ∧ minN.toNat > 0 from ⟨hc'.1, hc'.2⟩)]
    simp only
    generalize bracketed bracket word = w at hw ⊢
    by_cases hlt : w.length < minN.toNat
    · rw [if_pos (by omega), if_pos hlt]
    · rw [if_neg (by omega), if_neg hlt, ssize_ok (by omega) (by omega), cm_ok, ssize_ok (by omega) (by omega), cm_ok, maxN_min]
      rw [cLoops h0 _ (fun i j => [pySlice w i (i + j)])]
      · rfl
      · intro i j hi hj out
        rw [ssize_ok (by omega) (by omega), cm_ok]
        by_cases hij : j + i ≤ w.length
        · rw [if_pos (by omega), if_pos hij, ssize_ok (by omega) (by omega), cm_ok]
          rfl
        · rw [if_neg (by omega), if_neg hij, List.append_nil]
          rfl
  · rw [if_neg hc, if_neg]
    rintro ⟨h1, h2⟩
    exact hc ⟨UInt32.le_iff_toNat_le.2 h1, UInt32.lt_iff_toNat_lt.2 (by omega)⟩

end

end FF
