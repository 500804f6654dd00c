import Verif.Lemmas.DamageBuckets
import Verif.Props.C109
import Verif.Model.Optimized
/-! C110: damage to the number of buckets in a file is noticed. -/

namespace FF
open Fifu

/-- On any file with buckets that loads, other bytes in the place of the number of buckets, or of its exponent, make
loading fail with an `AssertionError`. -/
theorem C110_buckets (T : Toml) (mmap : Bool) (bs : Bytes) (e : Embeddings F32)
    (hbs : bs.length + 4 < 2 ^ 63) (h : Rd.run (loadFinalfusion T mmap) bs = .ok e)
    (ix : Indexer) (hix : e.vocab.sub = some ix) (n : Nat) (hn : ix.StoresBuckets n) :
    ∃ pos, HasAt bs pos (uint 4 n) ∧ ∀ bs', DiffersWithin bs bs' pos (pos + 4) → bs' ≠ bs →
      Rd.run (loadFinalfusion T mmap) bs' = .error .assertionError := by
  obtain ⟨p1, p2, p3, p4, a1, a2, a3, a4, a5, a6⟩ := (loadFinalfusion_iff T mmap bs e hbs).mp h
  obtain ⟨pos, v1, v2, v3, v4⟩ := vocab_buckets a3 hix hn
  refine ⟨pos, v3, fun bs' hd hne => ?_⟩
  obtain ⟨n', l1, l2, hat⟩ := exists_uint v3 hd hne
  obtain ⟨hb, hf, hc⟩ := v4 bs' n' hd l1 l2 hat
  have hbs' : bs'.length + 4 < 2 ^ 63 := by rw [hd.1]; exact hbs
  have b1 := hb.header a1 (metaAt_le a2)
  have b2 := hb.meta a2 (Nat.le_refl _)
  rcases hc with ⟨v', rows', k1, k2, k3⟩ | ⟨c, k1, k2, k3⟩
  · refine load_rows_error (norms := e.norms) hbs' b1 b2 k3 (hf.storage a4 (Nat.le_refl _)) ?_ ?_ k2
    · rw [k1]
      exact hf.norms a5 (storageAt_le a4)
    · intro hm h0
      rw [hf.1]
      exact a6 hm h0
  · exact load_vocab_error hbs' b1 b2 k1 k2 k3

/-! ### The hypotheses can be met -/

/-- The exponent 1 of the file of C109 with another byte -/
example : ∃ bs pos, (C109_sample.write Sample.toml).file = (.ok (), bs) ∧
    Rd.run (loadFinalfusion Sample.toml false) bs = .ok C109_sample ∧ bs[pos]? = some 1 ∧
    ∀ b, b ≠ 1 → Rd.run (loadFinalfusion Sample.toml false) (bs.set pos b) = .error .assertionError := by
  have hw : (C109_sample.write Sample.toml).file = (.ok (), (C109_sample.write Sample.toml).file.2) :=
    Sample.file_ok (by decide +kernel)
  have hbs : (C109_sample.write Sample.toml).file.2.length + 4 < 2 ^ 63 := by decide +kernel
  generalize (C109_sample.write Sample.toml).file.2 = bs at hw hbs
  have hl := C01_roundtrip_eq Sample.toml C109_sample bs C109_sample_built (by intro m s h; cases h) hw
    (by intro ix h; cases h)
  obtain ⟨pos, hat, hall⟩ := C110_buckets Sample.toml false bs _ hbs hl _ rfl 1 rfl
  have h0 : bs[pos]? = some 1 := hasAt_iff_get.mp hat 0 (by decide)
  have hlt := (List.getElem?_eq_some_iff.mp h0).1
  refine ⟨bs, pos, hw, hl, h0, fun b hb => hall _ ⟨by simp, fun i hi => List.getElem?_set_ne (by omega)⟩ fun he => ?_⟩
  have : (bs.set pos b)[pos]? = some b := List.getElem?_set_self hlt
  rw [he, h0] at this
  exact hb (Option.some.inj this).symm

/-- Without assertions (`python -O`), it is not noticed: with the exponent 2, the file of C109 loads with four buckets, two
of which are not in the matrix. -/
theorem C110_optimized_refuted : ∃ (bs bs' : Bytes) (e' : Embeddings F32), bs.length + 4 < 2 ^ 63 ∧
    Rd.run (loadFinalfusion Sample.toml false) bs = .ok C109_sample ∧ HasAt bs 48 (uint 4 1) ∧
    DiffersWithin bs bs' 48 52 ∧ bs' ≠ bs ∧ Rd.run (Opt.loadFinalfusion Sample.toml false) bs' = .ok e' ∧
    e'.vocab.upperBound = 5 ∧ e'.storage.nRows = 3 := by
  have hw : (C109_sample.write Sample.toml).file = (.ok (), (C109_sample.write Sample.toml).file.2) :=
    Sample.file_ok (by decide +kernel)
  have hl := C01_roundtrip_eq Sample.toml C109_sample _ C109_sample_built (by intro m s h; cases h) hw
    (by intro ix h; cases h)
  have key : ∀ (r : Res (Embeddings F32)),
      (match r with | .ok e => decide (e.vocab.upperBound = 5 ∧ e.storage.nRows = 3) | .error _ => false) = true →
      ∃ e, r = .ok e ∧ e.vocab.upperBound = 5 ∧ e.storage.nRows = 3 := by
    intro r h
    cases r with
    | error x => simp at h
    | ok e => exact ⟨e, rfl, by simpa using h⟩
  obtain ⟨e', h1, h2⟩ := key (Rd.run (Opt.loadFinalfusion Sample.toml false)
    ((C109_sample.write Sample.toml).file.2.set 48 2)) (by decide +kernel)
  refine ⟨_, (C109_sample.write Sample.toml).file.2.set 48 2, e', by decide +kernel, hl, by unfold HasAt; decide +kernel,
    ⟨by simp, fun i hi => List.getElem?_set_ne (by omega)⟩, by decide +kernel, h1, h2⟩

end FF
