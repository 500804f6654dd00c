import Verif.Lemmas.DamageFields
import Verif.Props.C104
/-! C112: damage to the number of rows of a matrix and to types of numbers is noticed. -/

namespace FF
open Fifu

/-- On any file that loads, other bytes in the place of the number of rows of the matrix make loading fail. -/
theorem C112_rows (T : Toml) (mmap : Bool) (bs : Bytes) (e : Embeddings F32)
    (hbs : bs.length + 4 < 2 ^ 63) (h : Rd.run (loadFinalfusion T mmap) bs = .ok e) :
    ∃ pos, HasAt bs pos (uint 8 e.storage.nRows) ∧ Notices (loadFinalfusion T mmap) bs pos 8 := by
  obtain ⟨p1, p2, p3, p4, a1, a2, a3, a4, a5, a6⟩ := (loadFinalfusion_iff T mmap bs e hbs).mp h
  obtain ⟨f1, _⟩ := storage_fields a4
  refine ⟨_, f1, fun bs' hd hne => not_ok_error fun e' h' => hne ?_⟩
  have hbs' : bs'.length + 4 < 2 ^ 63 := by rw [hd.1]; exact hbs
  obtain ⟨q1, q2, q3, q4, b1, b2, b3, b4, b5, b6⟩ := (loadFinalfusion_iff T mmap bs' e' hbs').mp h'
  have hb : EqBelow bs bs' (p3 + 12) := fun j hj => hd.2 j (Or.inl (by have := field_ge e.storage; omega))
  have l1 := metaAt_le a2
  have l2 := vocabAt_le a3
  obtain ⟨rfl, hrows⟩ := before_storage_unique hbs' (hb.header a1 (by omega)) (hb.meta a2 (by omega))
    (hb.vocab a3 (by omega)) b1 b2 b3
  obtain ⟨k1, _, _⟩ := storage_kind a4 b4 hb
  obtain ⟨f1', _⟩ := storage_fields b4
  rw [← k1, ← hrows] at f1'
  exact DiffersWithin.eq_of_hasAt (by rw [length_uint]; exact hd) f1 f1'

/-- So do other bytes in the place of the types of a matrix. -/
theorem C112_types (T : Toml) (mmap : Bool) (bs : Bytes) (e : Embeddings F32)
    (hbs : bs.length + 4 < 2 ^ 63) (h : Rd.run (loadFinalfusion T mmap) bs = .ok e) :
    ∃ pos, HasAt bs pos e.storage.types ∧ Notices (loadFinalfusion T mmap) bs pos e.storage.types.length := by
  obtain ⟨p1, p2, p3, p4, a1, a2, a3, a4, a5, a6⟩ := (loadFinalfusion_iff T mmap bs e hbs).mp h
  obtain ⟨_, f1⟩ := storage_fields a4
  refine ⟨_, f1, fun bs' hd hne => not_ok_error fun e' h' => hne ?_⟩
  have hbs' : bs'.length + 4 < 2 ^ 63 := by rw [hd.1]; exact hbs
  obtain ⟨q1, q2, q3, q4, b1, b2, b3, b4, b5, b6⟩ := (loadFinalfusion_iff T mmap bs' e' hbs').mp h'
  have hb : EqBelow bs bs' (p3 + 12) := fun j hj => hd.2 j (Or.inl (by have := field_ge e.storage; omega))
  have l1 := metaAt_le a2
  have l2 := vocabAt_le a3
  obtain ⟨rfl, hrows⟩ := before_storage_unique hbs' (hb.header a1 (by omega)) (hb.meta a2 (by omega))
    (hb.vocab a3 (by omega)) b1 b2 b3
  obtain ⟨_, k1, k2⟩ := storage_kind a4 b4 hb
  obtain ⟨_, f1'⟩ := storage_fields b4
  rw [← k1, ← k2] at f1'
  exact DiffersWithin.eq_of_hasAt hd f1 f1'

/-- So do other bytes in the place of the type of the norms. -/
theorem C112_norms (T : Toml) (mmap : Bool) (bs : Bytes) (e : Embeddings F32)
    (hbs : bs.length + 4 < 2 ^ 63) (h : Rd.run (loadFinalfusion T mmap) bs = .ok e) (hn : e.norms.isSome) :
    ∃ pos, HasAt bs pos (uint 4 10) ∧ Notices (loadFinalfusion T mmap) bs pos 4 := by
  obtain ⟨p1, p2, p3, p4, a1, a2, a3, a4, a5, a6⟩ := (loadFinalfusion_iff T mmap bs e hbs).mp h
  obtain ⟨xs, hxs⟩ := Option.isSome_iff_exists.mp hn
  rw [hxs] at a5
  obtain ⟨_, _, hhead, hfields, _⟩ := a5
  rw [hasAt_append, length_uint] at hfields
  have hl : p4 + 12 ≤ bs.length := head_fits hhead
  refine ⟨p4 + 20, hfields.2, fun bs' hd hne => not_ok_error fun e' h' => hne ?_⟩
  have hbs' : bs'.length + 4 < 2 ^ 63 := by rw [hd.1]; exact hbs
  obtain ⟨q1, q2, q3, q4, b1, b2, b3, b4, b5, b6⟩ := (loadFinalfusion_iff T mmap bs' e' hbs').mp h'
  have hb : EqBelow bs bs' (p4 + 12) := fun j hj => hd.2 j (Or.inl (by omega))
  have l1 := metaAt_le a2
  have l2 := vocabAt_le a3
  have l3 := storageAt_le a4
  obtain ⟨rfl, _⟩ := before_storage_unique hbs' (hb.header a1 (by omega)) (hb.meta a2 (by omega))
    (hb.vocab a3 (by omega)) b1 b2 b3
  have := storageAt_unique hbs' (hb.storage a4 (by omega)) b4
  subst this
  unfold NormsAt at b5
  cases he : e'.norms with
  | none =>
    rw [he] at b5
    simp only at b5
    rw [hd.1] at b5
    omega
  | some ys =>
    rw [he] at b5
    obtain ⟨_, _, _, hfields', _⟩ := b5
    rw [hasAt_append, length_uint] at hfields'
    exact DiffersWithin.eq_of_hasAt (enc := uint 4 10) (by rw [length_uint]; exact hd) hfields.2 hfields'.2

/-! ### The hypotheses can be met -/

/-- Any other byte in the place of the lowest of the number of rows, 3 -/
example : ∃ bs pos, Rd.run (loadFinalfusion Sample.toml false) bs = .ok Sample.embSimple ∧
    Sample.embSimple.norms.isSome ∧ bs[pos]? = some 3 ∧
    ∀ b, b ≠ 3 → ∃ x, Rd.run (loadFinalfusion Sample.toml false) (bs.set pos b) = .error x := by
  obtain ⟨bs, h1, h2, _⟩ := Sample.simpleFile
  obtain ⟨pos, hat, hall⟩ := C112_rows Sample.toml false bs _ h1 h2
  have h0 : bs[pos]? = some 3 := hasAt_iff_get.mp hat 0 (by decide)
  have hlt := (List.getElem?_eq_some_iff.mp h0).1
  refine ⟨bs, pos, h2, rfl, h0, fun b hb => hall _ ⟨by simp, fun i hi => List.getElem?_set_ne (by omega)⟩ fun he => ?_⟩
  have : (bs.set pos b)[pos]? = some b := List.getElem?_set_self hlt
  rw [he, h0] at this
  exact hb (Option.some.inj this).symm

end FF
