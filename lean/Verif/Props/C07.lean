import Verif.Lemmas.ReadInv
import Verif.Lemmas.FfStorage
import Verif.Lemmas.FfVocab
import Verif.Spec.Samples
/-! C07: float arrays are aligned to four bytes. -/

namespace FF

/-! ### Writing -/

/-- `NdArray`: whatever precedes the chunk, the matrix starts at a multiple of four. -/
theorem C07_write_nd (m : Mat F32) (pre out : Bytes) (h : writeNdArray m pre = (.ok (), out)) :
    ∃ head, out = pre ++ head ++ f32sLE m.flat ∧ (pre ++ head).length % 4 = 0 := by
  obtain ⟨h1, _⟩ := ndWrite_inv h
  refine ⟨chunkHead .ndArray (ndLen (padFloat32 (pre.length + 4)) m) ++
    (packRaw [(8, m.rows.length), (4, m.cols), (4, 10)] ++ zeros (padFloat32 (pre.length + 4))), ?_, ?_⟩
  · rw [h1]; simp [ndBody, packRaw]
  · have := padFloat32_dvd (pre.length + 4)
    simp [calcsize]
    omega

/-- `Norms` -/
theorem C07_write_norms (n : List F32) (pre out : Bytes) (h : writeNorms n pre = (.ok (), out)) :
    ∃ head, out = pre ++ head ++ f32sLE n ∧ (pre ++ head).length % 4 = 0 := by
  obtain ⟨h1, _⟩ := normsWrite_inv h
  refine ⟨chunkHead .ndNorms (normsLen (padFloat32 (pre.length + 4)) n) ++
    (packRaw [(8, n.length), (4, 10)] ++ zeros (padFloat32 (pre.length + 4))), ?_, ?_⟩
  · rw [h1]; simp [normsBody]
  · have := padFloat32_dvd (pre.length + 4)
    simp [calcsize]
    omega

/-- `QuantizedArray`: projection (if any), centroids and norms (if any) all start at multiples
of four. -/
theorem C07_write_quantized (q : QArr F32) (pre out : Bytes)
    (h : writeQuantized q pre = (.ok (), out)) :
    ∃ head proj norms,
      out = pre ++ head ++ f32sLE proj ++ f32sLE (q.pq.quantizers.map List.flatten).flatten ++
        f32sLE norms ++ q.codes.flatten ∧
      (∀ p, q.pq.projection = some p → proj = p.flat) ∧ (∀ n, q.norms = some n → norms = n) ∧
      (q.pq.projection = none → proj = []) ∧ (q.norms = none → norms = []) ∧
      (pre ++ head).length % 4 = 0 ∧ (pre ++ head ++ f32sLE proj).length % 4 = 0 ∧
      (pre ++ head ++ f32sLE proj ++
        f32sLE (q.pq.quantizers.map List.flatten).flatten).length % 4 = 0 := by
  obtain ⟨h1, _⟩ := qWrite_inv h
  have hd := padFloat32_dvd (pre.length + 4)
  have hopt : ∀ o : Option (List F32), optF32 o = f32sLE (o.getD []) := by
    intro o; cases o <;> rfl
  refine ⟨chunkHead .quantizedArray (qLen (padFloat32 (pre.length + 4)) q) ++
    (qHead q ++ zeros (padFloat32 (pre.length + 4))), (q.pq.projection.map Mat.flat).getD [],
    q.norms.getD [], ?_, ?_, ?_, ?_, ?_, ?_, ?_, ?_⟩
  · rw [h1]; simp [qBody, hopt]
  · intro p hp; simp [hp]
  · intro n hn; simp [hn]
  · intro hp; simp [hp]
  · intro hn; simp [hn]
  all_goals
    simp [qHead]
    omega

/-! ### Reading -/

/-- `NdArray.read_chunk` takes the matrix from the bytes at a multiple of four, on any file. -/
theorem C07_read_nd (s s' : RFile) (m : Mat F32) (h : readNdArray s = .ok (m, s')) :
    ∃ p, p % 4 = 0 ∧ m.flat = f32sOf ((s.data.drop p).take (4 * m.size)) ∧
      s'.pos = p + 4 * m.size := by
  unfold readNdArray at h
  obtain ⟨⟨r, c⟩, s1, h1, h⟩ := rd_bind_inv h
  obtain ⟨hd, ha⟩ := readArrayHeader_inv h1
  obtain ⟨xs, s2, h2, h⟩ := rd_bind_inv h
  obtain ⟨hx, hd2, hp, _⟩ := fromFileF32_inv h2
  obtain ⟨h3, rfl⟩ := rd_lift_inv h
  obtain ⟨hl, hf, hc, hr, _⟩ := reshape2_inv h3
  refine ⟨s1.pos, ha, ?_, ?_⟩
  · rw [hf, hx, hd, Mat.size, hr, hc]
  · rw [hp hl, Mat.size, hr, hc]

/-- `Norms.read_chunk`: the norms are taken from the bytes at the next multiple of four behind their number and type. -/
theorem C07_read_norms (s s' : RFile) (n : List F32) (h : readNorms s = .ok (n, s')) :
    ∃ p k, p % 4 = 0 ∧ s.pos + 12 < p ∧ p ≤ s.pos + 16 ∧ n = f32sOf ((s.data.drop p).take (4 * k)) := by
  unfold readNorms at h
  obtain ⟨r, s1, h1, h⟩ := rd_bind_inv h
  have k1 := readRequired_keeps _ _ _ _ h1
  have hl := readRequired_length (by decide) h1
  have hpos : s1.pos = s.pos + 12 := by
    match r, hl with
    | [a, b], _ =>
      have := ((readRequired2_iff (bs := s.data) (p := s.pos) (by decide) (by decide)).mp h1).2.2
      rw [this]
  split at h
  · obtain ⟨_, s3, h3, h⟩ := rd_bind_inv h
    have k3 := (rd_lift_inv h3).2
    split at h
    · obtain ⟨_, _, h4, _⟩ := rd_bind_inv h
      cases h4
    · obtain ⟨_, s4, h4, h⟩ := rd_bind_inv h
      obtain ⟨_, s5, h5, h⟩ := rd_bind_inv h
      cases h4
      obtain ⟨_, _, rfl⟩ := seekCur_inv h5
      obtain ⟨hx, _⟩ := fromFileF32_inv h
      simp only at hx
      rw [k3, k1] at hx
      have hr := padFloat32_pos s3.pos
      rw [k3, hpos] at hr
      rw [hpos] at hx
      have hd := padFloat32_dvd (s.pos + 12)
      exact ⟨_, _, hd, by omega, by omega, hx⟩
  · cases h

/-- `QuantizedArray.read_chunk`: projection, centroids and norms are taken from the bytes at
multiples of four, one after the other. -/
theorem C07_read_quantized (s s' : RFile) (q : QArr F32) (h : readQuantized s = .ok (q, s')) :
    ∃ p1 p2 p3, p1 % 4 = 0 ∧ p2 % 4 = 0 ∧ p3 % 4 = 0 ∧
      (∀ m, q.pq.projection = some m → m.flat = f32sOf ((s.data.drop p1).take (4 * m.size)) ∧
        p2 = p1 + 4 * m.size) ∧
      (q.pq.projection = none → p2 = p1) ∧
      (q.pq.quantizers.map List.flatten).flatten = f32sOf ((s.data.drop p2).take (p3 - p2)) ∧
      p2 ≤ p3 ∧
      (∀ n, q.norms = some n → n = f32sOf ((s.data.drop p3).take (4 * q.codes.length))) := by
  obtain ⟨_, rl, s0, p1, p2, p3, T⟩ := readQuantized_inv h
  exact ⟨p1, p2, p3, T.a1, T.a2, T.a3, fun m hm => ⟨(T.proj m hm).1, (T.proj m hm).2.1⟩, T.noproj,
    T.quant, T.le, fun n hn => (T.norms n hn).1⟩

/-! ### The hypotheses can be met -/

example : ∃ out, writeNdArray Sample.nd3 [1, 2, 3] = (.ok (), out) ∧
    ∃ m s', readNdArray ⟨out, 15⟩ = .ok (m, s') := by
  refine ⟨_, Sample.wr_ok (by decide +kernel), ?_⟩
  obtain ⟨⟨m, s'⟩, h⟩ := Sample.ok_of_errOf
    (r := readNdArray ⟨(writeNdArray Sample.nd3 [1, 2, 3]).2, 15⟩) (by decide +kernel)
  exact ⟨m, s', h⟩

example : ∃ out, writeNorms [1, 2, 3] [1, 2, 3] = (.ok (), out) ∧
    ∃ m s', readNorms ⟨out, 15⟩ = .ok (m, s') := by
  refine ⟨_, Sample.wr_ok (by decide +kernel), ?_⟩
  obtain ⟨⟨m, s'⟩, h⟩ := Sample.ok_of_errOf
    (r := readNorms ⟨(writeNorms [1, 2, 3] [1, 2, 3]).2, 15⟩) (by decide +kernel)
  exact ⟨m, s', h⟩

example : ∃ out, writeQuantized Sample.q5 [1, 2, 3] = (.ok (), out) ∧
    ∃ m s', readQuantized ⟨out, 15⟩ = .ok (m, s') := by
  refine ⟨_, Sample.wr_ok (by decide +kernel), ?_⟩
  obtain ⟨⟨m, s'⟩, h⟩ := Sample.ok_of_errOf
    (r := readQuantized ⟨(writeQuantized Sample.q5 [1, 2, 3]).2, 15⟩) (by decide +kernel)
  exact ⟨m, s', h⟩

end FF
