import Verif.Lemmas.Boundaries
import Verif.Lemmas.Explicit
import Verif.Lemmas.Bytes
import Verif.Spec.Ngrams
/-! The hash functions against their specification. -/

namespace FF

theorem fnv64aStep_toNat (h : UInt64) (b : UInt8) :
    (fnv64aStep h b).toNat = (h.toNat ^^^ b.toNat) * 1099511628211 % 2 ^ 64 := by
  unfold fnv64aStep
  simp only
  have hx : (h ^^^ b.toUInt64).toNat = h.toNat ^^^ b.toNat := by
    rw [UInt64.toNat_xor]; rfl
  generalize h ^^^ b.toUInt64 = x at hx
  rw [← hx]
  have hlt := x.toNat_lt
  simp only [UInt64.toNat_add, UInt64.toNat_shiftLeft, Nat.shiftLeft_eq]
  have e1 : (1 : UInt64).toNat % 64 = 1 := rfl
  have e4 : (4 : UInt64).toNat % 64 = 4 := rfl
  have e5 : (5 : UInt64).toNat % 64 = 5 := rfl
  have e7 : (7 : UInt64).toNat % 64 = 7 := rfl
  have e8 : (8 : UInt64).toNat % 64 = 8 := rfl
  have e40 : (40 : UInt64).toNat % 64 = 40 := rfl
  rw [e1, e4, e5, e7, e8, e40]
  omega

theorem fnv64aBuf_toNat (buf : Bytes) : ∀ h : UInt64, (fnv64aBuf buf h).toNat =
    (buf.map UInt8.toNat).foldl (fun h b => (h ^^^ b) * 1099511628211 % 2 ^ 64) h.toNat := by
  induction buf with
  | nil => intro h; rfl
  | cons b bs ih =>
    intro h
    unfold fnv64aBuf at ih ⊢
    rw [List.foldl_cons, ih, fnv64aStep_toNat, List.map_cons, List.foldl_cons]

theorem le_leBytes (w : Nat) : ∀ n, (le w n).map UInt8.toNat = leBytes w n := by
  induction w with
  | zero => intro n; rfl
  | succ w ih =>
    intro n
    show (UInt8.ofNat n).toNat :: (le w (n / 256)).map UInt8.toNat = _
    rw [ih]
    unfold leBytes
    rw [List.range_succ_eq_map, List.map_cons, List.map_map]
    congr 1
    · simp
    · apply List.map_congr_left
      intro i _
      simp only [Function.comp]
      rw [Nat.div_div_eq_div_mul, Nat.pow_succ', Nat.mul_comm]

/-- The Finalfusion hash of a whole n-gram. -/
theorem fifuHash_spec (g : PyStr) : (fifuHashNgram g 0 g.length).toNat =
    fnv1a64 (leBytes 8 g.length ++ g.flatMap fun c => leBytes 4 c.val) := by
  rw [fifuHash_eq g 0 g.length (by omega), List.drop_zero, List.take_of_length_le (Nat.le_refl _)]
  have : ∀ (g : PyStr) (h : UInt64),
      (g.foldl (fun h c => fnv64aBuf (le 4 c.val) h) h).toNat =
      (g.flatMap fun c => leBytes 4 c.val).foldl
        (fun h b => (h ^^^ b) * 1099511628211 % 2 ^ 64) h.toNat := by
    intro g
    induction g with
    | nil => intro h; rfl
    | cons c g ih =>
      intro h
      rw [List.foldl_cons, ih, fnv64aBuf_toNat, le_leBytes, List.flatMap_cons, List.foldl_append]
  rw [this, fnv64aBuf_toNat, le_leBytes]
  unfold fnv1a64
  rw [List.foldl_append]
  rfl

theorem signExtend_toNat (b : UInt8) : (signExtend b).toNat = sext b.toNat := by
  have := b.toNat_lt
  unfold signExtend sext
  split
  · rw [UInt32.toNat_ofNat']; omega
  · rw [UInt32.toNat_ofNat']; omega

/-- The fastText hash of a whole n-gram. -/
theorem ftHash_spec (b : Bytes) : (ftHashNgram b 0 b.length).toNat =
    fnv1a32 (b.map fun x => sext x.toNat) := by
  rw [ftHash_eq b 0 b.length (by omega) (Nat.le_refl _), List.drop_zero, Nat.sub_zero,
    List.take_of_length_le (Nat.le_refl _)]
  have : ∀ (b : Bytes) (h : UInt32),
      (b.foldl (fun h c => (h ^^^ signExtend c) * prime32) h).toNat =
      (b.map fun x => sext x.toNat).foldl (fun h b => (h ^^^ b) * 16777619 % 2 ^ 32) h.toNat := by
    intro b
    induction b with
    | nil => intro h; rfl
    | cons c b ih =>
      intro h
      have hp : prime32.toNat = 16777619 := rfl
      rw [List.foldl_cons, ih, UInt32.toNat_mul, UInt32.toNat_xor, signExtend_toNat, hp,
        List.map_cons, List.foldl_cons]
  rw [this]
  rfl

theorem and_mask_toNat (ix : FifuIndexer) (h : ix.bucketsExp < 64) (x : UInt64) :
    (x &&& ix.mask).toNat = x.toNat % 2 ^ ix.bucketsExp := by
  unfold FifuIndexer.mask
  have hp : 2 ^ ix.bucketsExp < 2 ^ 64 := Nat.pow_lt_pow_right (by omega) h
  rw [UInt64.toNat_and, UInt64.toNat_ofNat', Nat.mod_eq_of_lt (by omega),
    Nat.and_two_pow_sub_one_eq_mod]

theorem fifuCall_lt (ix : FifuIndexer) (h : ix.bucketsExp < 64) (g : PyStr) :
    ix.call g < ix.upperBound := by
  unfold FifuIndexer.call FifuIndexer.upperBound
  rw [and_mask_toNat ix h]
  exact Nat.mod_lt _ (Nat.two_pow_pos _)

/-- Bulk lookup against single lookups. -/
theorem fifuSub_call {β : Type} (emit : PyStr → Nat → β) (ix : FifuIndexer)
    (h0 : 0 < ix.minN) (hb : ix.bucketsExp < 64) (word : PyStr) (off : Nat)
    (ho : off + ix.upperBound ≤ 2 ^ 64) (b : Bool) :
    ix.subwordLoop emit word (UInt64.ofNat off) b =
      ((occs (bracketed b word).length ix.minN ix.maxN).map fun p =>
        ((bracketed b word).drop p.1).take p.2).map fun g => emit g (off + ix.call g) := by
  rw [fifuSub_eq, List.map_map]
  apply List.map_congr_left
  rintro ⟨i, j⟩ hp
  rw [mem_occs h0] at hp
  simp only [Function.comp]
  congr 1
  rw [fifuHash_slice _ _ _ hp.2.2, UInt64.toNat_add, UInt64.toNat_ofNat']
  have := fifuCall_lt ix hb (((bracketed b word).drop i).take j)
  unfold FifuIndexer.call at this ⊢
  have hu : 0 < ix.upperBound := Nat.two_pow_pos _
  rw [Nat.mod_eq_of_lt (a := off) (by omega), Nat.mod_eq_of_lt (by omega), Nat.add_comm]

theorem ftCall_lt {ix : FtIndexer} (h : 0 < ix.nBuckets) {g : PyStr} {n : Nat}
    (hc : ix.call g = .ok n) : n < ix.upperBound := by
  unfold FtIndexer.call at hc
  obtain ⟨b, _, hc⟩ := res_bind_inv hc
  cases hc
  exact Nat.mod_lt _ h

theorem encode_eq {w : PyStr} (h : w.any isSurrogate = false) : encode w = .ok (utf8 w) := by
  unfold encode; rw [h]; rfl

theorem encode_err {w : PyStr} (h : w.any isSurrogate = true) :
    encode w = .error .unicodeEncodeError := by
  unfold encode; rw [h]; rfl

theorem ftCall_eq {ix : FtIndexer} {g : PyStr} (h : g.any isSurrogate = false) :
    ix.call g = .ok ((ftHashNgram (utf8 g) 0 (utf8 g).length).toNat % ix.nBuckets) := by
  unfold FtIndexer.call
  rw [encode_eq h]
  rfl

/-- The index of an n-gram that can be encoded. -/
def ftIdx (ix : FtIndexer) (g : PyStr) : Nat :=
  (ftHashNgram (utf8 g) 0 (utf8 g).length).toNat % ix.nBuckets

/-- Bulk lookup against single lookups. -/
theorem ftSub_call {β : Type} (emit : PyStr → Nat → β) (ix : FtIndexer)
    (h0 : 0 < ix.minN) (hb : 0 < ix.nBuckets) (word : PyStr) (off : Nat)
    (ho : off + ix.upperBound ≤ 2 ^ 64) (b : Bool)
    (hs : (bracketed b word).any isSurrogate = false) :
    ix.subwordLoop emit word (UInt64.ofNat off) b =
      .ok (((occs (bracketed b word).length ix.minN ix.maxN).map fun p =>
        ((bracketed b word).drop p.1).take p.2).map fun g => emit g (off + ftIdx ix g)) := by
  rw [ftSub_eq, encode_eq hs, List.map_map]
  show Except.ok _ = Except.ok _
  congr 1
  apply List.map_congr_left
  rintro ⟨i, j⟩ hp
  rw [mem_occs h0] at hp
  simp only [Function.comp]
  congr 1
  rw [ftHash_slice _ _ _ hp.2.2, UInt64.toNat_add, UInt64.toNat_ofNat', UInt64.toNat_ofNat']
  unfold ftIdx
  have : (ftHashNgram (utf8 (((bracketed b word).drop i).take j)) 0
    (utf8 (((bracketed b word).drop i).take j)).length).toNat % ix.nBuckets < ix.nBuckets :=
    Nat.mod_lt _ hb
  unfold FtIndexer.upperBound at ho
  rw [Nat.mod_eq_of_lt (a := off) (by omega), Nat.mod_eq_of_lt (b := 2 ^ 64) (by omega),
    Nat.mod_eq_of_lt (b := 2 ^ 64) (by omega), Nat.add_comm]

end FF
