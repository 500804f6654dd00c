import Verif.Lemmas.FfStorage
/-! Exactly which files `load_finalfusion` accepts. -/

namespace FF
open Fifu (HasAt Pad Head HeaderAt MetaAt WordsAt VocabAt StorageAt NormsAt)

theorem readQuantizedHeader_at {p : Nat} {bs : Bytes} {s' : RFile}
    {r : PQ F32 × Nat × Nat × Option (List F32)} :
    readQuantizedHeader ⟨bs, p⟩ = .ok (r, s') ↔ ∃ pf nf ql rl nc n,
      (pf < 2 ^ 32 ∧ nf < 2 ^ 32 ∧ ql < 2 ^ 32 ∧ rl < 2 ^ 32 ∧ nc < 2 ^ 32 ∧ n < 2 ^ 64) ∧
      HasAt bs p (le 4 pf ++ le 4 nf ++ le 4 ql ++ le 4 rl ++ le 4 nc ++ le 8 n ++ le 4 1 ++ le 4 10) ∧
      ql ≠ 0 ∧ rl % ql = 0 ∧ readQuantizedTail pf nf ql rl nc n ⟨bs, p + 36⟩ = .ok (r, s') := by
  simp only [hasAt_append, List.length_append, length_le, ← pow_32, ← pow_64]
  unfold readQuantizedHeader
  constructor
  · intro h
    rw [rd_bind_iff] at h
    obtain ⟨pf, s1, h1, h⟩ := h
    obtain ⟨a1, b1, rfl⟩ := (readOne_iff (by decide) (by decide)).mp h1
    rw [rd_bind_iff] at h
    obtain ⟨nf, s1, h1, h⟩ := h
    obtain ⟨a2, b2, rfl⟩ := (readOne_iff (by decide) (by decide)).mp h1
    rw [rd_bind_iff] at h
    obtain ⟨ql, s1, h1, h⟩ := h
    obtain ⟨a3, b3, rfl⟩ := (readOne_iff (by decide) (by decide)).mp h1
    rw [rd_bind_iff] at h
    obtain ⟨rl, s1, h1, h⟩ := h
    obtain ⟨a4, b4, rfl⟩ := (readOne_iff (by decide) (by decide)).mp h1
    rw [rd_bind_iff] at h
    obtain ⟨nc, s1, h1, h⟩ := h
    obtain ⟨a5, b5, rfl⟩ := (readOne_iff (by decide) (by decide)).mp h1
    rw [rd_bind_iff] at h
    obtain ⟨n, s1, h1, h⟩ := h
    obtain ⟨a6, b6, rfl⟩ := (readOne_iff (by decide) (by decide)).mp h1
    split at h
    · cases h
    next hq =>
    beta_reduce at h
    rw [rd_bind_iff] at h
    obtain ⟨_, s1, h1, h⟩ := h
    rw [rd_lift_iff] at h1
    obtain ⟨h1, rfl⟩ := h1
    have hm := pyAssert_ok h1
    simp only [decide_eq_true_eq] at hm
    rw [rd_bind_iff] at h
    obtain ⟨t, s1, h1, h⟩ := h
    obtain ⟨_, b7, rfl⟩ := (readOne_iff (by decide) (by decide)).mp h1
    split at h
    · cases h
    next ht =>
    rw [not_not] at ht
    subst ht
    beta_reduce at h
    rw [rd_bind_iff] at h
    obtain ⟨t, s1, h1, h⟩ := h
    obtain ⟨_, b8, rfl⟩ := (readOne_iff (by decide) (by decide)).mp h1
    split at h
    · cases h
    next ht =>
    rw [not_not] at ht
    subst ht
    beta_reduce at h
    exact ⟨pf, nf, ql, rl, nc, n, ⟨a1, a2, a3, a4, a5, a6⟩,
      ⟨⟨⟨⟨⟨⟨⟨b1, b2⟩, b3⟩, b4⟩, b5⟩, b6⟩, b7⟩, b8⟩, hq, hm, h⟩
  · rintro ⟨pf, nf, ql, rl, nc, n, ⟨a1, a2, a3, a4, a5, a6⟩,
      ⟨⟨⟨⟨⟨⟨⟨b1, b2⟩, b3⟩, b4⟩, b5⟩, b6⟩, b7⟩, b8⟩, hq, hm, h⟩
    rw [rd_bind_ok ((readOne_iff (by decide) (by decide)).mpr ⟨a1, b1, rfl⟩)]
    rw [rd_bind_ok ((readOne_iff (by decide) (by decide)).mpr ⟨a2, b2, rfl⟩)]
    rw [rd_bind_ok ((readOne_iff (by decide) (by decide)).mpr ⟨a3, b3, rfl⟩)]
    rw [rd_bind_ok ((readOne_iff (by decide) (by decide)).mpr ⟨a4, b4, rfl⟩)]
    rw [rd_bind_ok ((readOne_iff (by decide) (by decide)).mpr ⟨a5, b5, rfl⟩)]
    rw [rd_bind_ok ((readOne_iff (by decide) (by decide)).mpr ⟨a6, b6, rfl⟩)]
    rw [if_neg hq]
    beta_reduce
    rw [rd_bind_ok (rd_lift_iff.mpr ⟨pyAssert_true (by simpa using hm), rfl⟩)]
    have b7' : HasAt bs (p + (4 + 4 + 4 + 4 + 4 + 8)) (le 4 TypeId.u8.toNat) := b7
    have b8' : HasAt bs (p + (4 + 4 + 4 + 4 + 4 + 8 + 4)) (le 4 TypeId.f32.toNat) := b8
    rw [rd_bind_ok ((readOne_iff (by decide) (by decide)).mpr ⟨by decide, b7', rfl⟩)]
    rw [if_neg (by simp)]
    beta_reduce
    rw [rd_bind_ok ((readOne_iff (by decide) (by decide)).mpr ⟨by decide, b8', rfl⟩)]
    rw [if_neg (by simp)]
    beta_reduce
    exact h

theorem optFloats_eq : Fifu.optFloats = optF32 := by
  funext o
  cases o with
  | none => rfl
  | some xs => exact floats_eq xs

theorem quantAt_eq (q : QArr F32) :
    Fifu.optFloats (q.pq.projection.map fun m => m.rows.flatten) ++
      Fifu.floats (q.pq.quantizers.map List.flatten).flatten ++ Fifu.optFloats q.norms ++
      q.codes.flatten =
    optF32 (q.pq.projection.map Mat.flat) ++
      f32sLE (q.pq.quantizers.map List.flatten).flatten ++ optF32 q.norms ++ q.codes.flatten := by
  rw [optFloats_eq, floats_eq]
  rfl

theorem loadStoragePart_at {p : Nat} {bs : Bytes} {st : Storage F32} {s' : RFile}
    (hlen : bs.length + 4 < 2 ^ 63) :
    loadStoragePart false ⟨bs, p⟩ = .ok (st, s') ↔ ∃ stop, StorageAt bs p st stop ∧ s' = ⟨bs, stop⟩ := by
  constructor
  · intro h
    unfold loadStoragePart at h
    rw [rd_bind_iff] at h
    obtain ⟨⟨c, n⟩, s1, h1, h⟩ := h
    have hh := head_iff.mp ⟨n, s1, h1⟩
    rw [readRequiredChunkHeader_iff] at h1
    obtain ⟨_, _, rfl⟩ := h1
    simp only at h
    cases c with
    | ndArray =>
      simp only at h
      unfold loadNd at h
      rw [if_neg (by decide), rd_bind_iff] at h
      obtain ⟨m, s1, h1, h⟩ := h
      cases h
      rw [readNdArray_at hlen] at h1
      obtain ⟨k1, ⟨k2, k3⟩, k4, k5, rfl⟩ := h1
      refine ⟨_, .nd hh (by rw [uint_eq]; exact k4) k2 k3 k1.1 k1.2 (pad_iff.mpr rfl)
        (by rw [floats_eq]; exact k5) rfl, rfl⟩
    | quantizedArray =>
      simp only at h
      unfold loadQuant at h
      rw [if_neg (by decide), rd_bind_iff] at h
      obtain ⟨q, s1, h1, h⟩ := h
      cases h
      rw [readQuantized_eq, rd_bind_iff] at h1
      obtain ⟨r, s1, h1, h2⟩ := h1
      rw [readQuantizedHeader_at] at h1
      obtain ⟨pf, nf, ql, rl, nc, n, ⟨a1, a2, a3, a4, a5, a6⟩, hb, hq, hm, h1⟩ := h1
      have hle := hasAt_le hb (by intro h; have := congrArg List.length h; simp at this)
      simp only [List.length_append, length_le] at hle
      have h3 := (quantRest_at (by omega) (by
        have : padFloat32 (p + 12 + 36) ≤ 4 := by unfold padFloat32; omega
        unfold maxSize; omega) hq hm).mp (rd_bind_iff.mpr ⟨r, s1, h1, h2⟩)
      obtain ⟨hw, rfl, rfl, rfl, rfl, k1, k2, k3, rfl⟩ := h3
      refine ⟨_, .quant hh (by rw [uint_eq]; exact hb) a1 a2 a3 a4 a5 a6 k1 k2 hw (pad_iff.mpr rfl)
        (by rw [quantAt_eq]; exact k3) rfl, by rw [quantAt_eq]⟩
    | _ => cases h
  · rintro ⟨stop, h, rfl⟩
    cases h with
    | @nd m pad stop head fields h1 h2 h3 hfit h4 h5 h6 =>
      subst h6
      obtain ⟨n, s1, k⟩ := (head_iff (c := .ndArray)).mpr head
      have k' := (readRequiredChunkHeader_iff.mp k).2.2
      subst k'
      rw [pad_iff] at h4
      subst h4
      rw [uint_eq] at fields
      rw [floats_eq] at h5
      unfold loadStoragePart
      rw [rd_bind_ok k]
      simp only
      unfold loadNd
      rw [if_neg (by decide), rd_bind_ok ((readNdArray_at hlen).mpr ⟨⟨h3, hfit⟩, ⟨h1, h2⟩, fields, h5, rfl⟩)]
      rfl
    | @quant q pf nf pad stop head fields a1 a2 a3 a4 a5 a6 k1 k2 hw h4 h5 h6 =>
      subst h6
      obtain ⟨n, s1, k⟩ := (head_iff (c := .quantizedArray)).mpr head
      have k' := (readRequiredChunkHeader_iff.mp k).2.2
      subst k'
      rw [pad_iff] at h4
      subst h4
      rw [uint_eq] at fields
      rw [quantAt_eq] at h5 ⊢
      have hle := hasAt_le fields (by intro h; have := congrArg List.length h; simp at this)
      simp only [List.length_append, length_le] at hle
      unfold loadStoragePart
      rw [rd_bind_ok k]
      simp only
      unfold loadQuant
      rw [if_neg (by decide)]
      have hq : q.qlen ≠ 0 := by have := hw.qpos; omega
      have hm : q.pq.reconstructedLen % q.qlen = 0 := by
        unfold PQ.reconstructedLen
        rw [← hw.qlen]
        exact Nat.mul_mod_right _ _
      have h3 := (quantRest_at (pf := pf) (nf := nf) (nc := q.pq.nCentroids) (n := q.codes.length)
        (q := q) (bs := bs) (p := p + 12 + 36) (by omega) (by
        have : padFloat32 (p + 12 + 36) ≤ 4 := by unfold padFloat32; omega
        unfold maxSize; omega) hq hm).mpr ⟨hw, rfl, rfl, rfl, rfl, k1, k2, h5, rfl⟩
      rw [rd_bind_iff] at h3
      obtain ⟨r, s1, h1, h2⟩ := h3
      rw [readQuantized_eq, rd_bind_ok ((rd_bind_ok (readQuantizedHeader_at.mpr
        ⟨pf, nf, _, _, _, _, ⟨a1, a2, a3, a4, a5, a6⟩, fields, hq, hm, h1⟩)).trans h2)]
      rfl

theorem readNorms_at {p words : Nat} {bs : Bytes} {xs : List F32} (hlen : bs.length + 4 < 2 ^ 63)
    (hx : xs.length = words) :
    (∃ s', readNorms ⟨bs, p⟩ = .ok (xs, s')) ↔ ∃ n, HasAt bs p (le 8 n ++ le 4 10) ∧
      HasAt bs (p + 12 + padFloat32 (p + 12)) (f32sLE xs) ∧
      4 * n < 2 ^ 63 ∧ (n = words ∨ words < n ∧
        bs.length < p + 12 + padFloat32 (p + 12) + 4 * words + 4) := by
  subst hx
  unfold readNorms
  constructor
  · rintro ⟨s', h⟩
    rw [rd_bind_iff] at h
    obtain ⟨vs, s1, h1, h⟩ := h
    have hl := readRequired_length (by decide) h1
    match vs, hl with
    | [n, t], _ =>
      obtain ⟨⟨k1, k2⟩, k3, rfl⟩ := (readRequired2_iff (by decide) (by decide)).mp h1
      simp only at h
      rw [rd_bind_iff] at h
      obtain ⟨ty, s1, h2, h⟩ := h
      rw [rd_lift_iff, typeId_fromNat_iff] at h2
      obtain ⟨rfl, rfl⟩ := h2
      split at h
      · cases h
      next hty =>
      rw [not_not] at hty
      subst hty
      beta_reduce at h
      rw [rd_bind_iff] at h
      obtain ⟨q, s1, h2, h⟩ := h
      rw [rd_tell_iff] at h2
      obtain ⟨rfl, rfl⟩ := h2
      rw [rd_bind_iff] at h
      obtain ⟨u, s1, h2, h⟩ := h
      rw [seekCur_iff] at h2
      obtain ⟨h2, rfl⟩ := h2
      by_cases hx : xs.length = n
      · rw [fromFileF32_iff hx] at h
        obtain ⟨j1, j2, _⟩ := h
        exact ⟨n, k3, j2, j1, Or.inl hx.symm⟩
      · rw [fromFileF32_short_iff hx] at h
        obtain ⟨j1, j2, j3, j4, _⟩ := h
        exact ⟨n, k3, j3, j1, Or.inr ⟨j2, j4⟩⟩
  · rintro ⟨n, h1, h2, h3, h4⟩
    have hle := hasAt_le h1 (by intro h; have := congrArg List.length h; simp at this)
    simp only [List.length_append, length_le] at hle
    have hread : ∃ s', fromFileF32 n ⟨bs, p + 12 + padFloat32 (p + 12)⟩ = .ok (xs, s') := by
      obtain rfl | ⟨h4, h5⟩ := h4
      · exact ⟨_, (fromFileF32_iff rfl).mpr ⟨h3, h2, rfl⟩⟩
      · exact ⟨_, (fromFileF32_short_iff (by omega)).mpr ⟨h3, h4, h2, h5, rfl⟩⟩
    obtain ⟨s', hread⟩ := hread
    refine ⟨s', ?_⟩
    have h1' : HasAt bs p (le 8 n ++ le 4 TypeId.f32.toNat) := h1
    rw [rd_bind_ok ((readRequired2_iff (by decide) (by decide)).mpr
      ⟨⟨by omega, by decide⟩, h1', rfl⟩)]
    simp only
    rw [rd_bind_ok (rd_lift_iff.mpr ⟨typeId_fromNat_iff.mpr rfl, rfl⟩)]
    rw [if_neg (by simp)]
    beta_reduce
    rw [rd_bind_ok (rd_tell_iff.mpr ⟨rfl, rfl⟩)]
    rw [rd_bind_ok ((seekCur_iff (u := ())).mpr ⟨?_, rfl⟩)]
    · exact hread
    · show p + (8 + 4) + padFloat32 (p + (8 + 4)) < maxSize
      have : padFloat32 (p + (8 + 4)) ≤ 4 := by unfold padFloat32; omega
      unfold maxSize
      omega

theorem loadNormsPart_at {p words : Nat} {bs : Bytes} {o : Option (List F32)}
    (hlen : bs.length + 4 < 2 ^ 63) (ho : ∀ xs, o = some xs → xs.length = words) :
    (∃ s', loadNormsPart ⟨bs, p⟩ = .ok (o, s')) ↔ NormsAt bs p words o := by
  unfold NormsAt
  rw [uint_eq]
  cases o with
  | none =>
    simp only
    constructor
    · rintro ⟨s', h⟩
      unfold loadNormsPart at h
      rw [rd_bind_iff] at h
      obtain ⟨oc, s1, h1, h⟩ := h
      cases oc with
      | none => exact (readChunkHeader_none.mp h1).1
      | some v =>
        obtain ⟨c, n⟩ := v
        cases c <;> simp only at h <;> try cases h
        rw [rd_bind_iff] at h
        obtain ⟨_, _, _, h⟩ := h
        cases h
    · intro h
      exact ⟨_, loadNormsPart_eof _ h⟩
  | some xs =>
    have hx := ho xs rfl
    simp only
    constructor
    · rintro ⟨s', h⟩
      unfold loadNormsPart at h
      rw [rd_bind_iff] at h
      obtain ⟨oc, s1, h1, h⟩ := h
      cases oc with
      | none => cases h
      | some v =>
        obtain ⟨c, n⟩ := v
        cases c <;> simp only at h <;> try cases h
        have hh : Head bs p 6 := (head_iff (c := .ndNorms)).mp
          ⟨n, s1, readRequiredChunkHeader_iff.mpr (readChunkHeader_some.mp h1)⟩
        obtain ⟨_, _, rfl⟩ := readChunkHeader_some.mp h1
        rw [rd_bind_iff] at h
        obtain ⟨ys, s1, h2, h⟩ := h
        cases h
        obtain ⟨n, k1, k2, k3, k4⟩ := (readNorms_at hlen hx).mp ⟨s', h2⟩
        exact ⟨n, _, hh, k1, pad_iff.mpr rfl, hx, by rw [floats_eq]; exact k2, k3, k4⟩
    · rintro ⟨n, pad, hh, k1, k2, _, k4, k5, k6⟩
      rw [pad_iff] at k2
      subst k2
      rw [floats_eq] at k4
      obtain ⟨l, s1, k⟩ := (head_iff (c := .ndNorms)).mpr hh
      rw [readRequiredChunkHeader_iff, ← readChunkHeader_some] at k
      have := (readChunkHeader_some.mp k).2.2
      subst this
      obtain ⟨s', h⟩ := (readNorms_at (p := p + 12) hlen hx).mpr ⟨n, k1, k4, k5, k6⟩
      refine ⟨s', ?_⟩
      unfold loadNormsPart
      rw [rd_bind_ok k]
      simp only
      rw [rd_bind_ok h]
      rfl

theorem empty_iff {st : Storage F32} : Fifu.Empty st ↔ ¬ st.nonempty := by
  cases st <;> simp [Fifu.Empty, Storage.nonempty, Mat.size] <;> tauto

theorem storageAt_stop {bs : Bytes} {p stop : Nat} {st : Storage F32} (h : StorageAt bs p st stop) :
    stop ≤ bs.length + 4 := by
  cases h with
  | @nd m pad stop head fields h1 h2 h3 hfit h4 h5 h6 =>
    have hle := hasAt_le fields (by rw [uint_eq]; intro h; have := congrArg List.length h; simp at this)
    rw [uint_eq] at hle
    simp only [List.length_append, length_le] at hle
    have hl := List.IsPrefix.length_le h5
    have := h4.2.1
    have e : (Fifu.floats m.rows.flatten).length = 4 * (m.rows.length * m.cols) := by
      rw [floats_eq, length_f32sLE, ← flat_length h3]; rfl
    rw [e, List.length_drop] at hl
    omega
  | @quant q pf nf pad stop head fields a1 a2 a3 a4 a5 a6 k1 k2 hw h4 h5 h6 =>
    have hle := hasAt_le fields (by rw [uint_eq]; intro h; have := congrArg List.length h; simp at this)
    rw [uint_eq] at hle
    simp only [List.length_append, length_le] at hle
    have hl := List.IsPrefix.length_le h5
    have := h4.2.1
    rw [List.length_drop] at hl
    omega

/-- Mapping differs from reading only for matrices without elements. -/
theorem loadStoragePart_mmap_at {p : Nat} {bs : Bytes} {st : Storage F32} {s' : RFile}
    (hlen : bs.length + 4 < 2 ^ 63) :
    loadStoragePart true ⟨bs, p⟩ = .ok (st, s') ↔
      ∃ stop, StorageAt bs p st stop ∧ Fifu.Mappable bs st stop ∧ s' = ⟨bs, stop⟩ := by
  have hl : bs.length < maxSize := by unfold maxSize; omega
  constructor
  · intro h
    have h1 := loadStoragePart_mmap_read h
    obtain ⟨stop, h2, rfl⟩ := (loadStoragePart_at hlen).mp h1
    refine ⟨stop, h2, ?_, rfl⟩
    intro he
    rw [empty_iff] at he
    have := loadStoragePart_mmap_empty h1 he (by
      have := storageAt_stop h2
      unfold maxSize
      simp only
      omega)
    rw [h] at this
    split at this
    next hm =>
      simp only [memmapOk, granularity, Nat.add_zero, Bool.and_eq_true, decide_eq_true_eq,
        Bool.or_eq_true, Nat.lt_irrefl, false_or] at hm
      exact ⟨hm.1, hm.2.imp (fun h => of_decide_eq_true h) id⟩
    · cases this
  · rintro ⟨stop, h2, h3, rfl⟩
    have h1 := (loadStoragePart_at hlen).mpr ⟨stop, h2, rfl⟩
    by_cases he : st.nonempty
    · exact loadStoragePart_read_mmap h1 he hl
    · rw [loadStoragePart_mmap_empty h1 he (by
        have := storageAt_stop h2
        unfold maxSize
        simp only
        omega)]
      have := h3 (empty_iff.mpr he)
      rw [if_pos]
      simp only [memmapOk, granularity, Nat.add_zero, Bool.and_eq_true, decide_eq_true_eq,
        Bool.or_eq_true, Nat.lt_irrefl, false_or]
      exact ⟨this.1, this.2.imp (fun h => decide_eq_true h) id⟩

/-- Which files load, and what they contain. -/
theorem loadFinalfusion_iff (T : Toml) (mmap : Bool) (bs : Bytes) (e : Embeddings F32)
    (hlen : bs.length + 4 < 2 ^ 63) :
    Rd.run (loadFinalfusion T mmap) bs = .ok e ↔ Fifu.File T mmap bs e := by
  have hstore : ∀ {p st s'}, loadStoragePart mmap ⟨bs, p⟩ = .ok (st, s') ↔
      ∃ stop, StorageAt bs p st stop ∧ (mmap → Fifu.Mappable bs st stop) ∧ s' = ⟨bs, stop⟩ := by
    intro p st s'
    cases mmap with
    | false => rw [loadStoragePart_at hlen]; simp
    | true => rw [loadStoragePart_mmap_at hlen]; simp
  rw [rd_run_iff]
  unfold Fifu.File loadFinalfusion
  constructor
  · rintro ⟨s', h⟩
    rw [rd_bind_iff] at h
    obtain ⟨ids, s1, h1, h⟩ := h
    obtain ⟨p1, hh, rfl⟩ := readHeader_iff.mp ⟨ids, h1⟩
    rw [rd_bind_iff] at h
    obtain ⟨⟨c, md⟩, s1, h2, h⟩ := h
    have hmeta : ∃ p2, MetaAt T bs p1 md p2 ∧ Head bs p2 c.toNat ∧ s1 = ⟨bs, p2 + 12⟩ := by
      unfold loadMetaPart at h2
      rw [rd_bind_iff] at h2
      obtain ⟨⟨c', n⟩, s2, h3, h2⟩ := h2
      simp only at h2
      have hd := head_iff.mp ⟨n, s2, h3⟩
      rw [readRequiredChunkHeader_iff] at h3
      obtain ⟨_, _, rfl⟩ := h3
      split at h2
      · rw [rd_bind_iff] at h2
        obtain ⟨m, s2, h3, h2⟩ := h2
        obtain ⟨p2, h4, rfl⟩ := (readMetadata_iff (by omega)).mp h3
        rw [rd_bind_iff] at h2
        obtain ⟨⟨c'', n'⟩, s2, h5, h2⟩ := h2
        cases h2
        have hd' := head_iff.mp ⟨n', _, h5⟩
        rw [readRequiredChunkHeader_iff] at h5
        exact ⟨p2, h4, hd', h5.2.2⟩
      · cases h2
        exact ⟨p1, rfl, hd, rfl⟩
    obtain ⟨p2, m1, m2, rfl⟩ := hmeta
    rw [rd_bind_iff] at h
    obtain ⟨v, s1, h3, h⟩ := h
    rw [rd_bind_iff] at h
    obtain ⟨st, s2, h4, h⟩ := h
    rw [rd_bind_iff] at h
    obtain ⟨nrm, s3, h5, h⟩ := h
    rw [rd_lift_iff, embNew_ok, check_parts] at h
    obtain ⟨⟨⟨c1, c2⟩, rfl⟩, rfl⟩ := h
    obtain ⟨rows, p3, v1, rfl⟩ | ⟨v1, v2⟩ := loadVocabPart_at m2 h3
    · obtain ⟨p4, t1, t2, rfl⟩ := hstore.mp h4
      obtain ⟨u1, u2, u3⟩ := vocabAt_rows v1
      have hr : st.nRows = rows := by rw [u1] at c1; omega
      refine ⟨p1, p2, p3, p4, hh, m1, by rw [hr]; exact v1, t1, ?_, t2⟩
      refine (loadNormsPart_at hlen ?_).mp ⟨_, h5⟩
      intro xs hxs
      rw [← (c2 xs hxs).2, u2]
    · obtain ⟨e, he⟩ := loadStoragePart_eof mmap s1 (by rw [v1]; exact v2)
      rw [he] at h4
      cases h4
  · rintro ⟨p1, p2, p3, p4, hh, m1, v1, t1, n1, t2⟩
    obtain ⟨ids, h1⟩ := readHeader_iff.mpr ⟨p1, hh, rfl⟩
    obtain ⟨c, hc, hd, h3⟩ := loadVocabPart_of v1
    have hmeta : loadMetaPart T ⟨bs, p1⟩ = .ok ((c, e.metadata), ⟨bs, p2 + 12⟩) := by
      unfold loadMetaPart
      obtain ⟨n, s1, k⟩ := head_iff.mpr hd
      have := (readRequiredChunkHeader_iff.mp k).2.2
      subst this
      cases hmd : e.metadata with
      | none =>
        rw [hmd] at m1
        have : p2 = p1 := m1
        subst this
        rw [rd_bind_ok k]
        simp only
        rw [if_neg hc]
        rfl
      | some m =>
        rw [hmd] at m1
        have h4 := (readMetadata_iff (by omega)).mpr ⟨p2, m1, rfl⟩
        have hk : ∃ n s, readRequiredChunkHeader ⟨bs, p1⟩ = .ok ((.metadata, n), s) := by
          rw [head_iff]
          obtain ⟨text, _, _, h6, _⟩ := m1
          refine ⟨(utf8 text).length, ?_, ?_⟩
          · have := List.IsPrefix.length_le h6
            simp only [List.length_append, List.length_drop] at this
            omega
          · rw [hasAt_append] at h6
            exact h6.1
        obtain ⟨n', s1, k'⟩ := hk
        have := (readRequiredChunkHeader_iff.mp k').2.2
        subst this
        rw [rd_bind_ok k']
        simp only
        rw [if_pos trivial, rd_bind_ok h4, rd_bind_ok k]
        rfl
    obtain ⟨u1, u2, u3⟩ := vocabAt_rows v1
    have hn : ∀ xs, e.norms = some xs → xs.length = e.vocab.words.length := by
      intro xs hxs
      unfold NormsAt at n1
      rw [hxs] at n1
      obtain ⟨_, _, _, _, _, h, _⟩ := n1
      exact h
    obtain ⟨s', h5⟩ := (loadNormsPart_at hlen hn).mpr n1
    refine ⟨s', ?_⟩
    rw [rd_bind_ok h1, rd_bind_ok hmeta]
    simp only
    rw [rd_bind_ok h3, rd_bind_ok (hstore.mpr ⟨p4, t1, t2, rfl⟩), rd_bind_ok h5]
    rw [rd_lift_iff, embNew_ok, check_parts]
    refine ⟨⟨⟨u1.symm, ?_⟩, rfl⟩, rfl⟩
    intro xs hxs
    rw [hn xs hxs]
    exact ⟨u3, u2⟩

end FF
