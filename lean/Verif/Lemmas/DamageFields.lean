import Verif.Spec.DamageFields
import Verif.Lemmas.DamageIds
/-! Replacing fields of a matrix whose value is determined by the rest of the file. -/

namespace FF
open Fifu

/-- The bytes that were there. -/
theorem DiffersWithin.eq_of_hasAt {bs bs' enc : Bytes} {pos : Nat} (hd : DiffersWithin bs bs' pos (pos + enc.length))
    (h : HasAt bs pos enc) (h' : HasAt bs' pos enc) : bs' = bs := by
  refine List.ext_getElem? fun i => ?_
  by_cases hi : i < pos ∨ pos + enc.length ≤ i
  · exact hd.2 i hi
  · have hlt : i - pos < enc.length := by omega
    have h1 := hasAt_iff_get.mp h (i - pos) hlt
    have h2 := hasAt_iff_get.mp h' (i - pos) hlt
    rw [show pos + (i - pos) = i by omega] at h1 h2
    rw [h1, h2]

/-- The parts before the matrix can be read in one way only. -/
theorem before_storage_unique {T : Toml} {bs : Bytes} {p1 p2 p3 rows q1 q2 q3 rows' : Nat} {md md' : Option Meta}
    {v v' : Vocab} (hlen : bs.length + 4 < 2 ^ 63) (hh : HeaderAt bs p1) (m1 : MetaAt T bs p1 md p2)
    (v1 : VocabAt bs p2 v rows p3) (hh' : HeaderAt bs q1) (m1' : MetaAt T bs q1 md' q2)
    (v1' : VocabAt bs q2 v' rows' q3) : p3 = q3 ∧ rows = rows' := by
  obtain ⟨ids, h1⟩ := readHeader_iff.mpr ⟨p1, hh, rfl⟩
  obtain ⟨ids', h1'⟩ := readHeader_iff.mpr ⟨q1, hh', rfl⟩
  rw [h1] at h1'
  cases h1'
  obtain ⟨c, hc, hd, h3⟩ := loadVocabPart_of v1
  obtain ⟨c', hc', hd', h3'⟩ := loadVocabPart_of v1'
  have h2 := loadMetaPart_of hlen hc hd m1
  have h2' := loadMetaPart_of hlen hc' hd' m1'
  rw [h2] at h2'
  simp only [Except.ok.injEq, Prod.mk.injEq, RFile.mk.injEq, true_and] at h2'
  obtain ⟨⟨rfl, _⟩, h2'⟩ := h2'
  have : p2 = q2 := by omega
  subst this
  rw [h3] at h3'
  cases h3'
  have e1 := (vocabAt_rows v1).1
  have e2 := (vocabAt_rows v1').1
  refine ⟨rfl, ?_⟩
  omega

/-- The matrix can be read in one way only. -/
theorem storageAt_unique {bs : Bytes} {p q q' : Nat} {st st' : Storage F32} (hlen : bs.length + 4 < 2 ^ 63)
    (h : StorageAt bs p st q) (h' : StorageAt bs p st' q') : q = q' := by
  have h1 := (loadStoragePart_at hlen).mpr ⟨q, h, rfl⟩
  have h2 := (loadStoragePart_at hlen).mpr ⟨q', h', rfl⟩
  rw [h1] at h2
  cases h2
  rfl

theorem not_ok_error {load : Rd (Embeddings F32)} {bs : Bytes} (h : ∀ e, Rd.run load bs ≠ .ok e) :
    ∃ x, Rd.run load bs = .error x := by
  cases hr : Rd.run load bs with
  | error x => exact ⟨x, rfl⟩
  | ok e => exact absurd hr (h e)

theorem head_hasAt {bs : Bytes} {p id : Nat} (h : Head bs p id) : HasAt bs p (uint 4 id) := by
  obtain ⟨_, _, h⟩ := h
  exact (hasAt_append.mp h).1

theorem storage_heads {bs : Bytes} {p : Nat} (h : Head bs p 2) (h' : Head bs p 4) : False := by
  have h1 := hasAt_iff_get.mp (head_hasAt h) 0 (by decide)
  have h2 := hasAt_iff_get.mp (head_hasAt h') 0 (by decide)
  rw [h1] at h2
  exact absurd (Option.some.inj h2) (by decide)

/-- Where the number of rows is, relative to the chunk. -/
def Storage.rowsField : Storage F32 → Nat
  | .nd _ => 12
  | .quant _ => 32

/-- Where the types are. -/
def Storage.typesField : Storage F32 → Nat
  | .nd _ => 24
  | .quant _ => 40

theorem field_ge (st : Storage F32) : 12 ≤ st.rowsField ∧ 12 ≤ st.typesField := by
  cases st <;> simp [Storage.rowsField, Storage.typesField]


theorem storage_fields {bs : Bytes} {p q : Nat} {st : Storage F32} (h : StorageAt bs p st q) :
    HasAt bs (p + st.rowsField) (uint 8 st.nRows) ∧
    HasAt bs (p + st.typesField) st.types := by
  cases h with
  | nd head fields =>
    simp only [hasAt_append, length_uint, List.length_append] at fields
    exact ⟨fields.1.1, fields.2⟩
  | quant head fields =>
    simp only [hasAt_append, length_uint, List.length_append] at fields
    refine ⟨fields.1.1.2, ?_⟩
    unfold Storage.types
    simp only [hasAt_append, length_uint]
    exact ⟨fields.1.2, fields.2⟩

/-- A matrix of the same kind. -/
theorem storage_kind {bs bs' : Bytes} {p q q' : Nat} {st st' : Storage F32} (h : StorageAt bs p st q)
    (h' : StorageAt bs' p st' q') (hb : EqBelow bs bs' (p + 12)) :
    st.rowsField = st'.rowsField ∧
    st.typesField = st'.typesField ∧
    st.types = st'.types := by
  cases h with
  | nd head =>
    cases h' with
    | nd => exact ⟨rfl, rfl, rfl⟩
    | quant head' => exact (storage_heads (hb.head head (Nat.le_refl _)) head').elim
  | quant head =>
    cases h' with
    | nd head' => exact (storage_heads head' (hb.head head (Nat.le_refl _))).elim
    | quant => exact ⟨rfl, rfl, rfl⟩

end FF
