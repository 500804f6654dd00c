import Verif.Lemmas.HashSpec
/-! C21: the hash functions match their published definitions. -/

namespace FF

/-- Finalfusion: 64-bit FNV-1a over the 8-byte little-endian length and the 4-byte little-endian
code points; the bucket is the low `bucket_exp` bits. -/
theorem C21_fifu (b mn mx : Int) (ix : FifuIndexer) (h : FifuIndexer.new b mn mx = .ok ix)
    (g : PyStr) :
    ix.call g = fnv1a64 (leBytes 8 g.length ++ g.flatMap fun c => leBytes 4 c.val) %
      2 ^ b.toNat := by
  obtain ⟨hb, _, _, _, _, _, _, h2⟩ := fifuNew_ok.mp h
  unfold FifuIndexer.call
  rw [and_mask_toNat ix h2, fifuHash_spec]
  congr 2
  omega

/-- One step of the shift-and-add code is one FNV-1a step. -/
theorem C21_step (h : UInt64) (b : UInt8) :
    (fnv64aStep h b).toNat = (h.toNat ^^^ b.toNat) * 1099511628211 % 2 ^ 64 :=
  fnv64aStep_toNat h b

/-- fastText: 32-bit FNV-1a over the sign-extended UTF-8 bytes, modulo the bucket count. -/
theorem C21_ft (b mn mx : Int) (ix : FtIndexer) (h : FtIndexer.new b mn mx = .ok ix)
    (g : PyStr) (enc : Bytes) (he : encode g = .ok enc) :
    ix.call g = .ok (fnv1a32 (enc.map fun x => sext x.toNat) % b.toNat) := by
  obtain ⟨hb, _⟩ := ftNew_ok.mp h
  unfold FtIndexer.call
  rw [he]
  show Except.ok _ = Except.ok _
  rw [ftHash_spec]
  congr 2
  omega

/-- Sign extension matters for bytes from 128 on: "é" and the plain FNV-1a value differ. -/
example : ∃ ix, FtIndexer.new 2000000 3 6 = .ok ix ∧
    ix.call [⟨0xE9, by decide⟩] = .ok 1043777 ∧
    fnv1a32 [0xC3, 0xA9] % 2000000 ≠ 1043777 :=
  ⟨⟨2000000, 3, 6⟩, by decide +kernel, by decide +kernel, by decide +kernel⟩

example : ∃ ix, FifuIndexer.new 21 3 6 = .ok ix ∧ ix.call [⟨97, by decide⟩] = 1014421 :=
  ⟨⟨21, 3, 6⟩, by decide +kernel, by decide +kernel⟩

end FF
