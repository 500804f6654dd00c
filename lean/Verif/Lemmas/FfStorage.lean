import Verif.Lemmas.FfVocab
/-! What a successful read says about the bytes of the file: storages and norms. -/

namespace FF
open Fifu (HasAt Pad Head StorageAt NormsAt)

theorem reshape2_iff {K : Type} {n r c : Nat} {xs : List K} {m : Mat K} :
    reshape2 n r c xs = .ok m ↔ m.WF ∧ m.rows.length = r ∧ m.cols = c ∧ xs = m.flat ∧ arrayFits n [r, c] = true := by
  constructor
  · intro h
    obtain ⟨_, h2, h3, h4, h5⟩ := reshape2_inv h
    exact ⟨h5, h4, h3, h2.symm, reshape2_fits h⟩
  · rintro ⟨h, rfl, rfl, rfl, hf⟩
    exact reshape2_flat m h hf

theorem flat_length {K : Type} {m : Mat K} (h : m.WF) : m.flat.length = m.rows.length * m.cols := by
  exact h.flat_length

theorem reshape3_iff {K : Type} {n a b c : Nat} {xs : List K} {t : List (List (List K))} :
    reshape3 n a b c xs = .ok t ↔ t.length = a ∧ (∀ m ∈ t, m.length = b) ∧
      (∀ m ∈ t, ∀ r ∈ m, r.length = c) ∧ xs = (t.map List.flatten).flatten ∧ arrayFits n [a, b, c] = true := by
  constructor
  · intro h
    obtain ⟨_, h2, h3, h4, h5⟩ := reshape3_inv h
    exact ⟨h3, h4, h5, h2.symm, reshape3_fits h⟩
  · rintro ⟨rfl, h1, h2, rfl, hf⟩
    exact reshape3_flat b c t h1 h2 hf

theorem pqNew_iff {nc sub : Nat} {q : List (List (List F32))} {p : Option (Mat F32)} {pq : PQ F32} :
    PQ.new nc sub q p = .ok pq ↔ pq = ⟨nc, sub, q, p⟩ ∧
      ∀ m, p = some m → m.rows.length = q.length * sub ∧ m.cols = q.length * sub := by
  constructor
  · exact pqNew_inv
  · rintro ⟨rfl, h⟩
    unfold PQ.new
    cases p with
    | none => rfl
    | some m =>
      obtain ⟨h1, h2⟩ := h m rfl
      simp only
      rw [pyAssert_true (by simp [h1, h2])]
      rfl

/-- All requested floats were there, in a file of admissible size. -/
theorem fromFileF32_at {n p : Nat} {bs : Bytes} {xs : List F32} {s' : RFile} (hx : xs.length = n)
    (hlen : bs.length < 2 ^ 63) :
    fromFileF32 n ⟨bs, p⟩ = .ok (xs, s') ↔ HasAt bs p (f32sLE xs) ∧ s' = ⟨bs, p + 4 * n⟩ := by
  rw [fromFileF32_iff hx]
  refine ⟨fun h => h.2, fun h => ⟨?_, h⟩⟩
  have := List.IsPrefix.length_le h.1
  rw [length_f32sLE, List.length_drop] at this
  unfold maxSize
  omega

theorem fromFileU8_at {n p : Nat} {bs xs : Bytes} {s' : RFile} (hx : xs.length = n)
    (hlen : bs.length < 2 ^ 63) :
    fromFileU8 n ⟨bs, p⟩ = .ok (xs, s') ↔ HasAt bs p xs ∧ s' = ⟨bs, p + n⟩ := by
  unfold fromFileU8
  constructor
  · intro h
    split at h
    · simp only at h
      cases h
      exact ⟨hasAt_of_take, by rw [hx]⟩
    · cases h
  · rintro ⟨h, rfl⟩
    have hl := List.IsPrefix.length_le h
    rw [List.length_drop] at hl
    rw [if_pos (by unfold maxSize; omega)]
    simp only
    rw [← hx, hasAt_take h]

/-- A matrix of floats. -/
theorem readMat_at {r c p : Nat} {bs : Bytes} {m : Mat F32} {s' : RFile} (hlen : bs.length < 2 ^ 63) :
    (fromFileF32 (r * c) >>= fun xs => Rd.lift (reshape2 4 r c xs)) ⟨bs, p⟩ = .ok (m, s') ↔
      StorageWF (.nd m) ∧ m.rows.length = r ∧ m.cols = c ∧ HasAt bs p (f32sLE m.flat) ∧
        s' = ⟨bs, p + 4 * (r * c)⟩ := by
  rw [rd_bind_iff]
  constructor
  · rintro ⟨xs, s1, h1, h2⟩
    rw [rd_lift_iff, reshape2_iff] at h2
    obtain ⟨⟨h3, rfl, rfl, rfl, hf⟩, rfl⟩ := h2
    rw [fromFileF32_at (flat_length h3) hlen] at h1
    exact ⟨⟨h3, arrayFits_iff.mp hf⟩, rfl, rfl, h1⟩
  · rintro ⟨h3, rfl, rfl, h1⟩
    exact ⟨m.flat, s', (fromFileF32_at (flat_length h3.1) hlen).mpr h1, rd_lift_iff.mpr
      ⟨reshape2_iff.mpr ⟨h3.1, rfl, rfl, rfl, arrayFits_mat h3.2⟩, rfl⟩⟩

theorem readRequired2_iff {w1 w2 a b p : Nat} {bs : Bytes} {s' : RFile}
    (h0 : 0 < w1 + w2) (hw : w1 + w2 < maxSize) :
    readRequired [w1, w2] ⟨bs, p⟩ = .ok ([a, b], s') ↔
      (a < 256 ^ w1 ∧ b < 256 ^ w2) ∧
      HasAt bs p (le w1 a ++ le w2 b) ∧ s' = ⟨bs, p + (w1 + w2)⟩ := by
  have hc : calcsize [w1, w2] = w1 + w2 := by simp [calcsize]
  rw [readRequired_iff (by omega) (by omega), hc]
  simp [packRaw]

theorem readArrayHeader_at {p r c : Nat} {bs : Bytes} {s' : RFile} (hlen : bs.length + 4 < 2 ^ 63) :
    readArrayHeader ⟨bs, p⟩ = .ok ((r, c), s') ↔
      (r < 2 ^ 64 ∧ c < 2 ^ 32) ∧ HasAt bs p (le 8 r ++ le 4 c ++ le 4 10) ∧
        s' = ⟨bs, p + 16 + padFloat32 (p + 16)⟩ := by
  unfold readArrayHeader
  constructor
  · intro h
    rw [rd_bind_iff] at h
    obtain ⟨vs, s1, h1, h⟩ := h
    have hl := readRequired_length (by decide) h1
    match vs, hl with
    | [a, b], _ =>
      obtain ⟨⟨k1, k2⟩, k3, rfl⟩ := (readRequired2_iff (by decide) (by decide)).mp h1
      simp only at h
      rw [rd_bind_iff] at h
      obtain ⟨t, s1, h2, h⟩ := h
      obtain ⟨k4, k5, rfl⟩ := (readOne_iff (by decide) (by decide)).mp h2
      rw [rd_bind_iff] at h
      obtain ⟨ty, s1, h2, h⟩ := h
      rw [rd_lift_iff, typeId_fromNat_iff] at h2
      obtain ⟨rfl, rfl⟩ := h2
      split at h
      · cases h
      next hty =>
      rw [not_not] at hty
      subst hty
      beta_reduce at h
      rw [rd_bind_iff] at h
      obtain ⟨q, s1, h2, h⟩ := h
      rw [rd_tell_iff] at h2
      obtain ⟨rfl, rfl⟩ := h2
      rw [rd_bind_iff] at h
      obtain ⟨u, s1, h2, h⟩ := h
      rw [seekCur_iff] at h2
      obtain ⟨h2, rfl⟩ := h2
      cases h
      refine ⟨⟨lt_of_lt_of_eq k1 pow_64, lt_of_lt_of_eq k2 pow_32⟩, ?_, ?_⟩
      · rw [hasAt_append]
        refine ⟨k3, ?_⟩
        rw [List.length_append, length_le, length_le]
        exact k5
      · simp only
  · rintro ⟨⟨k1, k2⟩, k3, rfl⟩
    have hle := hasAt_le k3 (by intro h; have := congrArg List.length h; simp at this)
    rw [hasAt_append] at k3
    obtain ⟨k3, k4⟩ := k3
    simp only [List.length_append, length_le] at k4 hle
    rw [rd_bind_ok ((readRequired2_iff (by decide) (by decide)).mpr
      ⟨⟨lt_of_lt_of_eq k1 pow_64.symm, lt_of_lt_of_eq k2 pow_32.symm⟩, k3, rfl⟩)]
    simp only
    have k4' : HasAt bs (p + (8 + 4)) (le 4 TypeId.f32.toNat) := k4
    rw [rd_bind_ok ((readOne_iff (by decide) (by decide)).mpr ⟨by decide, k4', rfl⟩)]
    rw [rd_bind_ok (rd_lift_iff.mpr ⟨typeId_fromNat_iff.mpr rfl, rfl⟩)]
    rw [if_neg (by simp)]
    beta_reduce
    rw [rd_bind_ok (rd_tell_iff.mpr ⟨rfl, rfl⟩)]
    rw [rd_bind_ok ((seekCur_iff (u := ())).mpr ⟨?_, rfl⟩)]
    · rfl
    · show p + (8 + 4) + 4 + padFloat32 (p + (8 + 4) + 4) < maxSize
      have : padFloat32 (p + (8 + 4) + 4) ≤ 4 := by unfold padFloat32; omega
      unfold maxSize
      omega

theorem readNdArray_at {p : Nat} {bs : Bytes} {m : Mat F32} {s' : RFile} (hlen : bs.length + 4 < 2 ^ 63) :
    readNdArray ⟨bs, p⟩ = .ok (m, s') ↔
      StorageWF (.nd m) ∧ (m.rows.length < 2 ^ 64 ∧ m.cols < 2 ^ 32) ∧
      HasAt bs p (le 8 m.rows.length ++ le 4 m.cols ++ le 4 10) ∧
      HasAt bs (p + 16 + padFloat32 (p + 16)) (f32sLE m.flat) ∧
      s' = ⟨bs, p + 16 + padFloat32 (p + 16) + 4 * (m.rows.length * m.cols)⟩ := by
  unfold readNdArray
  rw [rd_bind_iff]
  constructor
  · rintro ⟨⟨r, c⟩, s1, h1, h2⟩
    rw [readArrayHeader_at hlen] at h1
    obtain ⟨k1, k2, rfl⟩ := h1
    simp only at h2
    rw [readMat_at (by omega)] at h2
    obtain ⟨h3, rfl, rfl, h4, h5⟩ := h2
    exact ⟨h3, k1, k2, h4, h5⟩
  · rintro ⟨h3, k1, k2, h4, h5⟩
    refine ⟨(m.rows.length, m.cols), _, (readArrayHeader_at hlen).mpr ⟨k1, k2, rfl⟩, ?_⟩
    simp only
    rw [readMat_at (by omega)]
    exact ⟨h3, rfl, rfl, h4, h5⟩

/-! ### Quantized matrices -/

theorem readProjection_at {flag rl p : Nat} {bs : Bytes} {o : Option (Mat F32)} {s' : RFile}
    (hlen : bs.length < 2 ^ 63) :
    readProjection flag rl ⟨bs, p⟩ = .ok (o, s') ↔ (flag ≠ 0 ↔ o.isSome) ∧
      (∀ m, o = some m → m.WF ∧ m.rows.length = rl ∧ m.cols = rl) ∧
      HasAt bs p (optF32 (o.map Mat.flat)) ∧ s' = ⟨bs, p + (optF32 (o.map Mat.flat)).length⟩ := by
  unfold readProjection
  by_cases hf : flag = 0
  · rw [if_neg (by simpa using hf), rd_pure_iff]
    cases o with
    | none => simp [hf, optF32, hasAt_nil]
    | some m => simp [hf]
  · rw [if_pos hf]
    have e : (rl ^ 2) = rl * rl := by ring
    rw [e]
    constructor
    · intro h
      rw [rd_bind_iff] at h
      obtain ⟨xs, s1, h1, h⟩ := h
      rw [rd_bind_iff] at h
      obtain ⟨m, s2, h2, h⟩ := h
      rw [rd_pure_iff] at h
      obtain ⟨rfl, rfl⟩ := h
      have h3 := (readMat_at (r := rl) (c := rl) (bs := bs) (p := p) (m := m) (s' := s') hlen).mp
        (rd_bind_iff.mpr ⟨xs, s1, h1, h2⟩)
      obtain ⟨⟨j1, _⟩, j2, j3, j4, rfl⟩ := h3
      refine ⟨by simp [hf], ?_, j4, ?_⟩
      · intro m' hm
        cases hm
        exact ⟨j1, j2, j3⟩
      · simp only [Option.map_some, optF32, length_f32sLE, flat_length j1, j2, j3]
    · rintro ⟨h1, h2, h3, rfl⟩
      cases o with
      | none => simp [hf] at h1
      | some m =>
        obtain ⟨j1, j2, j3⟩ := h2 m rfl
        simp only [Option.map_some, optF32] at h3
        have hfit : ShapeOk m.rows.length m.cols := by
          have hl := List.IsPrefix.length_le h3
          rw [length_f32sLE, flat_length j1, List.length_drop, j2, j3] at hl
          rw [j2, j3]
          refine shapeOk_sq ?_
          rw [e]
          unfold maxSize
          omega
        have := (readMat_at (r := rl) (c := rl) (bs := bs) (p := p) (m := m)
          (s' := ⟨bs, p + 4 * (rl * rl)⟩) hlen).mpr ⟨⟨j1, hfit⟩, j2, j3, h3, rfl⟩
        rw [rd_bind_iff] at this
        obtain ⟨xs, s1, k1, k2⟩ := this
        rw [rd_bind_ok k1, rd_bind_ok k2, rd_pure_iff]
        refine ⟨rfl, ?_⟩
        simp only [Option.map_some, optF32, length_f32sLE, flat_length j1, j2, j3]

theorem readQNorms_at {flag n p : Nat} {bs : Bytes} {o : Option (List F32)} {s' : RFile}
    (hlen : bs.length < 2 ^ 63) (ho : ∀ xs, o = some xs → xs.length = n) :
    readQNorms flag n ⟨bs, p⟩ = .ok (o, s') ↔ (flag ≠ 0 ↔ o.isSome) ∧
      HasAt bs p (optF32 o) ∧ s' = ⟨bs, p + (optF32 o).length⟩ := by
  unfold readQNorms
  by_cases hf : flag = 0
  · rw [if_neg (by simpa using hf), rd_pure_iff]
    cases o with
    | none => simp [hf, optF32, hasAt_nil]
    | some m => simp [hf]
  · rw [if_pos hf]
    constructor
    · intro h
      rw [rd_bind_iff] at h
      obtain ⟨xs, s1, h1, h⟩ := h
      cases h
      have hx := ho xs rfl
      rw [fromFileF32_at hx hlen] at h1
      refine ⟨by simp [hf], h1.1, ?_⟩
      simp only [optF32, length_f32sLE, hx, h1.2]
    · rintro ⟨h1, h2, rfl⟩
      cases o with
      | none => simp [hf] at h1
      | some xs =>
        have hx := ho xs rfl
        simp only [optF32] at h2
        rw [rd_bind_ok ((fromFileF32_at hx hlen).mpr ⟨h2, rfl⟩), rd_pure_iff]
        simp only [optF32, length_f32sLE, hx, and_self]

/-- Norms that were cut off leave the file at its end. -/
theorem readQNorms_short {flag n p : Nat} {bs : Bytes} {xs : List F32} {s' : RFile}
    (h : readQNorms flag n ⟨bs, p⟩ = .ok (some xs, s')) (hx : xs.length ≠ n) :
    xs.length < n ∧ s'.data = bs ∧ bs.length ≤ s'.pos := by
  unfold readQNorms at h
  split at h
  · rw [rd_bind_iff] at h
    obtain ⟨ys, s1, h1, h⟩ := h
    cases h
    rw [fromFileF32_short_iff hx] at h1
    obtain ⟨_, h2, _, _, rfl⟩ := h1
    exact ⟨h2, rfl, Nat.le_max_right _ _⟩
  · cases h

/-- `readQuantized` after the fixed fields. -/
theorem quantRest_at {pf nf ql rl nc n p : Nat} {bs : Bytes} {q : QArr F32} {s' : RFile}
    (hlen : bs.length < 2 ^ 63) (hp : p + padFloat32 p < maxSize) (hq : ql ≠ 0) (hm : rl % ql = 0) :
    (readQuantizedTail pf nf ql rl nc n >>= fun r => readCodes r.1 r.2.1 r.2.2.1 r.2.2.2) ⟨bs, p⟩ =
        .ok (q, s') ↔
      QWF q ∧ q.qlen = ql ∧ q.pq.reconstructedLen = rl ∧ q.pq.nCentroids = nc ∧ q.codes.length = n ∧
      (pf ≠ 0 ↔ q.pq.projection.isSome) ∧ (nf ≠ 0 ↔ q.norms.isSome) ∧
      HasAt bs (p + padFloat32 p) (optF32 (q.pq.projection.map Mat.flat) ++
        f32sLE (q.pq.quantizers.map List.flatten).flatten ++ optF32 q.norms ++ q.codes.flatten) ∧
      s' = ⟨bs, p + padFloat32 p + (optF32 (q.pq.projection.map Mat.flat) ++
        f32sLE (q.pq.quantizers.map List.flatten).flatten ++ optF32 q.norms ++
        q.codes.flatten).length⟩ := by
  unfold readQuantizedTail readCodes
  constructor
  · intro h
    rw [rd_bind_iff] at h
    obtain ⟨⟨pq, n', ql', norms⟩, s1, h1, h2⟩ := h
    rw [rd_bind_iff] at h1
    obtain ⟨q0, s2, h3, h1⟩ := h1
    rw [rd_tell_iff] at h3
    obtain ⟨rfl, rfl⟩ := h3
    rw [rd_bind_iff] at h1
    obtain ⟨u, s2, h3, h1⟩ := h1
    rw [seekCur_iff] at h3
    obtain ⟨_, rfl⟩ := h3
    rw [rd_bind_iff] at h1
    obtain ⟨proj, s2, h3, h1⟩ := h1
    rw [readProjection_at hlen] at h3
    obtain ⟨a1, a2, a3, rfl⟩ := h3
    rw [rd_bind_iff] at h1
    obtain ⟨xs, s2, h3, h1⟩ := h1
    rw [rd_bind_iff] at h1
    obtain ⟨qs, s3, h4, h1⟩ := h1
    rw [rd_lift_iff, reshape3_iff] at h4
    obtain ⟨⟨b1, b2, b3, b4, b5⟩, rfl⟩ := h4
    have hxl : xs.length = ql * nc * (rl / ql) := by
      have := (reshape3_inv (reshape3_iff.mpr ⟨b1, b2, b3, b4, b5⟩)).1
      rw [this]; ring
    rw [fromFileF32_at hxl hlen] at h3
    obtain ⟨c1, rfl⟩ := h3
    rw [rd_bind_iff] at h1
    obtain ⟨nrm, s3, h3, h1⟩ := h1
    rw [rd_bind_iff] at h1
    obtain ⟨pq', s4, h4, h1⟩ := h1
    rw [rd_lift_iff, pqNew_iff] at h4
    obtain ⟨⟨rfl, d1⟩, rfl⟩ := h4
    cases h1
    simp only at h2
    rw [rd_bind_iff] at h2
    obtain ⟨ys, s4, h4, h2⟩ := h2
    rw [rd_bind_iff] at h2
    obtain ⟨m, s5, h5, h2⟩ := h2
    rw [rd_lift_iff, reshape2_iff] at h5
    obtain ⟨⟨e1, e2, e3, e4, e5⟩, rfl⟩ := h5
    cases h2
    have hyl : ys.length = n * ql := by rw [e4, flat_length e1, e2, e3]
    have hn : ∀ zs, norms = some zs → zs.length = n := by
      rintro zs rfl
      by_contra hz
      obtain ⟨f1, f2, f3⟩ := readQNorms_short h3 hz
      obtain ⟨d, pos⟩ := s1
      simp only at f2 f3
      subst f2
      rw [fromFileU8_at hyl hlen] at h4
      have h0 := List.IsPrefix.length_le h4.1
      rw [hyl, List.length_drop] at h0
      have : 0 < n * ql := Nat.mul_pos (by omega) (by omega)
      omega
    rw [readQNorms_at hlen hn] at h3
    obtain ⟨g1, g2, rfl⟩ := h3
    rw [fromFileU8_at hyl hlen] at h4
    obtain ⟨i1, rfl⟩ := h4
    have hrl : qs.length * (rl / ql) = rl := by
      rw [b1]; exact Nat.mul_div_cancel' (Nat.dvd_of_mod_eq_zero hm)
    refine ⟨⟨?_, ?_, b2, b3, ?_, ?_, ?_, ?_, ?_⟩, rfl, ?_, rfl, ?_, a1, g1, ?_, ?_⟩
    · simp only; omega
    · simp only; exact b1.symm
    · intro m' hm'
      obtain ⟨j1, j2, j3⟩ := a2 m' hm'
      unfold PQ.reconstructedLen
      simp only
      rw [hrl]
      exact ⟨j1, j2, j3⟩
    · intro zs hz
      simp only
      rw [hn zs hz, e2]
    · intro c hc
      simp only
      rw [← e3]
      exact e1 c hc
    · simp only
      rw [b1]
      exact arrayFits_three.mp b5
    · simp only
      simp only [arrayFits, List.map_cons, List.map_nil, List.prod_cons, List.prod_nil, Nat.mul_one, Nat.one_mul,
        decide_eq_true_eq, Nat.max_eq_right (Nat.pos_of_ne_zero hq)] at e5
      rw [e2]
      exact e5
    · unfold PQ.reconstructedLen
      exact hrl
    · simp only; exact e2
    · simp only
      rw [hasAt_append, hasAt_append, hasAt_append]
      simp only [List.length_append, length_f32sLE, ← Nat.add_assoc]
      subst b4
      rw [← hxl] at g2 i1
      refine ⟨⟨⟨a3, c1⟩, g2⟩, ?_⟩
      rw [e4] at i1
      exact i1
    · simp only [List.length_append, length_f32sLE, RFile.mk.injEq, true_and]
      have : m.rows.flatten.length = n * ql := by rw [← hyl, e4]; rfl
      rw [← b4, hxl, this]
      omega
  · rintro ⟨hw, rfl, rfl, rfl, rfl, h1, h2, h3, rfl⟩
    rw [hasAt_append, hasAt_append, hasAt_append] at h3
    obtain ⟨⟨⟨b1, b2⟩, b3⟩, b4⟩ := h3
    simp only [List.length_append, length_f32sLE, ← Nat.add_assoc] at b2 b3 b4
    have hql := quant_flat_length q hw
    have hr : readQuantizedTail pf nf q.qlen q.pq.reconstructedLen q.pq.nCentroids q.codes.length
        ⟨bs, p⟩ = .ok ((q.pq, q.codes.length, q.qlen, q.norms), ⟨bs, p + padFloat32 p +
          (optF32 (q.pq.projection.map Mat.flat) ++
            f32sLE (q.pq.quantizers.map List.flatten).flatten ++ optF32 q.norms).length⟩) := by
      unfold readQuantizedTail
      rw [rd_bind_ok (rd_tell_iff.mpr ⟨rfl, rfl⟩)]
      simp only
      rw [rd_bind_ok ((seekCur_iff (u := ())).mpr ⟨hp, rfl⟩)]
      rw [rd_bind_ok ((readProjection_at hlen).mpr ⟨h1, fun m hm => hw.proj m hm, b1, rfl⟩)]
      rw [sub_eq q hw]
      rw [rd_bind_ok ((fromFileF32_at hql hlen).mpr ⟨b2, rfl⟩)]
      rw [rd_bind_ok (rd_lift_iff.mpr ⟨quant_reshape q hw, rfl⟩)]
      rw [← hql]
      rw [rd_bind_ok ((readQNorms_at hlen (fun xs hx => hw.norms xs hx)).mpr ⟨h2, b3, rfl⟩)]
      rw [rd_bind_ok (rd_lift_iff.mpr ⟨PQ_new_self q hw, rfl⟩)]
      rw [rd_pure_iff]
      refine ⟨rfl, ?_⟩
      simp only [List.length_append, length_f32sLE, ← Nat.add_assoc]
    unfold readQuantizedTail at hr
    rw [rd_bind_ok hr]
    simp only
    have hcl : q.codes.flatten.length = q.codes.length * q.qlen :=
      (reshape2_inv (codes_reshape q hw)).1
    have b5 : HasAt bs (p + padFloat32 p + (optF32 (q.pq.projection.map Mat.flat) ++
        f32sLE (q.pq.quantizers.map List.flatten).flatten ++ optF32 q.norms).length)
        q.codes.flatten := by
      simp only [List.length_append, length_f32sLE, ← Nat.add_assoc]
      exact b4
    rw [rd_bind_ok ((fromFileU8_at hcl hlen).mpr ⟨b5, rfl⟩)]
    rw [rd_bind_ok (rd_lift_iff.mpr ⟨codes_reshape q hw, rfl⟩)]
    rw [rd_pure_iff]
    refine ⟨rfl, ?_⟩
    simp only [List.length_append, length_f32sLE, hcl, ← Nat.add_assoc]

end FF
