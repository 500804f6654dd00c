import Verif.Lemmas.EmbIO
import Verif.Lemmas.Mmap
/-! What is known about values returned by the storage readers, on arbitrary files. -/

namespace FF

theorem padFloat32_dvd (p : Nat) : (p + padFloat32 p) % 4 = 0 := by
  unfold padFloat32; omega

theorem splitRows_flat {K : Type} (r c : Nat) (xs : List K) (h : xs.length = r * c) :
    (splitRows r c xs).flatten = xs ∧ ∀ x ∈ splitRows r c xs, x.length = c := by
  induction r generalizing xs with
  | zero =>
    simp at h; subst h
    exact ⟨rfl, by simp [splitRows]⟩
  | succ r ih =>
    have e : (r + 1) * c = r * c + c := by ring
    obtain ⟨h1, h2⟩ := ih (xs.drop c) (by simp; omega)
    refine ⟨by simp [splitRows, h1], fun x hx => ?_⟩
    simp only [splitRows, List.mem_cons] at hx
    rcases hx with rfl | hx
    · simp; omega
    · exact h2 x hx

theorem reshape2_fits {K : Type} {n r c : Nat} {xs : List K} {m : Mat K} (h : reshape2 n r c xs = .ok m) :
    arrayFits n [r, c] = true := by
  unfold reshape2 at h
  split at h
  · rename_i hl
    exact hl.2
  · cases h

theorem reshape3_fits {K : Type} {n a b c : Nat} {xs : List K} {t : List (List (List K))}
    (h : reshape3 n a b c xs = .ok t) : arrayFits n [a, b, c] = true := by
  unfold reshape3 at h
  split at h
  · rename_i hl
    exact hl.2
  · cases h

theorem reshape2_inv {K : Type} {n r c : Nat} {xs : List K} {m : Mat K} (h : reshape2 n r c xs = .ok m) :
    xs.length = r * c ∧ m.flat = xs ∧ m.cols = c ∧ m.rows.length = r ∧ m.WF := by
  unfold reshape2 at h
  split at h
  · rename_i hl
    obtain ⟨hl, _⟩ := hl
    cases h
    obtain ⟨h1, h2⟩ := splitRows_flat r c xs hl
    exact ⟨hl, h1, rfl, length_splitRows r c xs, h2⟩
  · cases h

theorem reshape2_wf {K : Type} {r c : Nat} {xs : List K} {m : Mat K} (h : reshape2 4 r c xs = .ok m) :
    StorageWF (.nd m) := by
  have hi := reshape2_inv h
  exact ⟨hi.2.2.2.2, by rw [hi.2.2.1, hi.2.2.2.1]; exact arrayFits_iff.mp (reshape2_fits h)⟩

theorem reshape3_inv {K : Type} {n a b c : Nat} {xs : List K} {t : List (List (List K))}
    (h : reshape3 n a b c xs = .ok t) :
    xs.length = a * (b * c) ∧ (t.map List.flatten).flatten = xs ∧ t.length = a ∧
      (∀ m ∈ t, m.length = b) ∧ ∀ m ∈ t, ∀ r ∈ m, r.length = c := by
  unfold reshape3 at h
  split at h
  · rename_i hl
    obtain ⟨hl, _⟩ := hl
    cases h
    obtain ⟨h1, h2⟩ := splitRows_flat a (b * c) xs hl
    refine ⟨hl, ?_, by simp [length_splitRows], ?_, ?_⟩
    · have : ((splitRows a (b * c) xs).map (splitRows b c)).map List.flatten =
          splitRows a (b * c) xs := by
        rw [List.map_map]
        conv_rhs => rw [← List.map_id (splitRows a (b * c) xs)]
        exact List.map_congr_left fun x hx => (splitRows_flat b c x (h2 x hx)).1
      rw [this, h1]
    · intro m hm
      obtain ⟨x, _, rfl⟩ := List.mem_map.mp hm
      exact length_splitRows _ _ _
    · intro m hm r hr
      obtain ⟨x, hx, rfl⟩ := List.mem_map.mp hm
      exact (splitRows_flat b c x (h2 x hx)).2 r hr
  · cases h

theorem fromFileF32_inv {n : Nat} {s s' : RFile} {xs : List F32}
    (h : fromFileF32 n s = .ok (xs, s')) :
    xs = f32sOf ((s.data.drop s.pos).take (4 * n)) ∧ s'.data = s.data ∧
      (xs.length = n → s'.pos = s.pos + 4 * n) ∧ (xs.length = n ∨ s'.data.length ≤ s'.pos) := by
  unfold fromFileF32 at h
  split at h
  · simp only at h
    split at h
    · cases h
      refine ⟨rfl, rfl, fun _ => rfl, Or.inl ?_⟩
      rw [length_f32sOf, List.length_take]
      omega
    · rename_i hlt
      cases h
      rw [List.take_of_length_le (by omega)]
      refine ⟨rfl, rfl, fun hx => ?_, Or.inr (by simp)⟩
      rw [length_f32sOf] at hx
      omega
  · split at h
    · cases h
    · cases h

theorem readArrayHeader_inv {s s' : RFile} {p : Nat × Nat} (h : readArrayHeader s = .ok (p, s')) :
    s'.data = s.data ∧ s'.pos % 4 = 0 := by
  refine ⟨readArrayHeader_keeps _ _ _ h, ?_⟩
  unfold readArrayHeader at h
  obtain ⟨r, s1, h1, h⟩ := rd_bind_inv h
  split at h
  · obtain ⟨_, s2, _, h⟩ := rd_bind_inv h
    obtain ⟨_, s3, _, h⟩ := rd_bind_inv h
    split at h
    · obtain ⟨_, _, h4, _⟩ := rd_bind_inv h
      cases h4
    · obtain ⟨_, s4, h4, h⟩ := rd_bind_inv h
      obtain ⟨_, s5, h5, h⟩ := rd_bind_inv h
      cases h4
      obtain ⟨_, _, rfl⟩ := seekCur_inv h5
      cases h
      exact padFloat32_dvd _
  · cases h

theorem readQuantizedHeader_inv {s s' : RFile} {r : PQ F32 × Nat × Nat × Option (List F32)}
    (h : readQuantizedHeader s = .ok (r, s')) :
    ∃ proj rn qlen recLen nc n s0, s0.data = s.data ∧ qlen ≠ 0 ∧ recLen % qlen = 0 ∧
      readQuantizedTail proj rn qlen recLen nc n s0 = .ok (r, s') := by
  unfold readQuantizedHeader at h
  obtain ⟨proj, t1, k1, h⟩ := rd_bind_inv h
  obtain ⟨rn, t2, k2, h⟩ := rd_bind_inv h
  obtain ⟨ql, t3, k3, h⟩ := rd_bind_inv h
  obtain ⟨rl, t4, k4, h⟩ := rd_bind_inv h
  obtain ⟨nc, t5, k5, h⟩ := rd_bind_inv h
  obtain ⟨n, t6, k6, h⟩ := rd_bind_inv h
  simp only at h
  split at h
  · obtain ⟨_, _, h', _⟩ := rd_bind_inv h; cases h'
  · rename_i hq
    obtain ⟨_, t7, k7, h⟩ := rd_bind_inv h
    obtain ⟨_, t8, k8, h⟩ := rd_bind_inv h
    split at h
    · obtain ⟨_, _, h', _⟩ := rd_bind_inv h; cases h'
    · obtain ⟨_, t9, k9, h⟩ := rd_bind_inv h
      split at h
      · obtain ⟨_, _, h', _⟩ := rd_bind_inv h; cases h'
      · obtain ⟨ha, hs⟩ := rd_lift_inv k7
        refine ⟨proj, rn, ql, rl, nc, n, t9, ?_, hq, ?_, h⟩
        · rw [readOne_keeps _ _ _ _ k9, readOne_keeps _ _ _ _ k8, hs, readOne_keeps _ _ _ _ k6,
            readOne_keeps _ _ _ _ k5, readOne_keeps _ _ _ _ k4, readOne_keeps _ _ _ _ k3,
            readOne_keeps _ _ _ _ k2, readOne_keeps _ _ _ _ k1]
        · unfold pyAssert at ha
          split at ha
          · simpa using ‹decide _ = true›
          · cases ha

theorem pqNew_inv {nc sub : Nat} {q : List (List (List F32))} {p : Option (Mat F32)} {pq : PQ F32}
    (h : PQ.new nc sub q p = .ok pq) : pq = ⟨nc, sub, q, p⟩ ∧
      ∀ m, p = some m → m.rows.length = q.length * sub ∧ m.cols = q.length * sub := by
  unfold PQ.new at h
  cases p with
  | none => cases h; exact ⟨rfl, by simp⟩
  | some m =>
    simp only at h
    by_cases hc : m.rows.length = q.length * sub ∧ q.length * sub = m.cols
    · have : pyAssert (decide (m.rows.length = q.length * sub ∧ q.length * sub = m.cols)) = .ok () := by
        simp [pyAssert, hc]
      rw [this] at h
      cases h
      refine ⟨rfl, ?_⟩
      rintro m' ⟨⟩
      exact ⟨hc.1, hc.2.symm⟩
    · have : pyAssert (decide (m.rows.length = q.length * sub ∧ q.length * sub = m.cols)) =
          .error .assertionError := by simp [pyAssert, hc]
      rw [this] at h
      cases h

/-- Where the arrays of a quantized storage were read, and their shapes. -/
structure QTail (data : Bytes) (qlen recLen n : Nat) (pq : PQ F32) (norms : Option (List F32))
    (s' : RFile) (p1 p2 p3 : Nat) : Prop where
  a1 : p1 % 4 = 0
  a2 : p2 % 4 = 0
  a3 : p3 % 4 = 0
  keep : s'.data = data
  sub : pq.sub = recLen / qlen
  qlen : pq.quantizers.length = qlen
  cents : ∀ m ∈ pq.quantizers, m.length = pq.nCentroids
  subs : ∀ m ∈ pq.quantizers, ∀ r ∈ m, r.length = pq.sub
  proj : ∀ m, pq.projection = some m → m.flat = f32sOf ((data.drop p1).take (4 * m.size)) ∧
    p2 = p1 + 4 * m.size ∧ m.WF ∧ m.rows.length = pq.reconstructedLen ∧ m.cols = pq.reconstructedLen
  noproj : pq.projection = none → p2 = p1
  quant : (pq.quantizers.map List.flatten).flatten = f32sOf ((data.drop p2).take (p3 - p2))
  le : p2 ≤ p3
  norms : ∀ xs, norms = some xs → xs = f32sOf ((data.drop p3).take (4 * n)) ∧
    (xs.length = n ∨ s'.data.length ≤ s'.pos)
  fits : arrayFits 4 [pq.quantizers.length, pq.nCentroids, pq.sub] = true

theorem readQuantizedTail_inv {proj rn ql rl nc n : Nat} {s s' : RFile} {pq : PQ F32} {n' qlen : Nat}
    {norms : Option (List F32)}
    (h : readQuantizedTail proj rn ql rl nc n s = .ok ((pq, n', qlen, norms), s')) :
    n' = n ∧ qlen = ql ∧ ∃ p1 p2 p3, QTail s.data ql rl n pq norms s' p1 p2 p3 := by
  unfold readQuantizedTail at h
  obtain ⟨_, t1, k1, h⟩ := rd_bind_inv h
  obtain ⟨_, t2, k2, h⟩ := rd_bind_inv h
  obtain ⟨P, t3, k3, h⟩ := rd_bind_inv h
  obtain ⟨xs, t4, k4, h⟩ := rd_bind_inv h
  obtain ⟨Q, t5, k5, h⟩ := rd_bind_inv h
  obtain ⟨N, t6, k6, h⟩ := rd_bind_inv h
  obtain ⟨pq', t7, k7, h⟩ := rd_bind_inv h
  cases h
  cases k1
  obtain ⟨_, _, rfl⟩ := seekCur_inv k2
  obtain ⟨k5', rfl⟩ := rd_lift_inv k5
  obtain ⟨k7', rfl⟩ := rd_lift_inv k7
  obtain ⟨rfl, hPm⟩ := pqNew_inv k7'
  obtain ⟨hx, hd4, hp4, _⟩ := fromFileF32_inv k4
  obtain ⟨hl, hf, hql, hc, hr⟩ := reshape3_inv k5'
  have hfit := reshape3_fits k5'
  have hd3 := readProjection_keeps _ _ _ _ _ k3
  have hd6 := readQNorms_keeps _ _ _ _ _ k6
  have hl' : xs.length = ql * nc * (rl / ql) := by rw [hl]; ring
  have hp3 : t5.pos = t3.pos + 4 * (ql * nc * (rl / ql)) := hp4 hl'
  have ha1 := padFloat32_dvd s.pos
  simp only at hd3
  have hproj : (P = none ∧ t3.pos = s.pos + padFloat32 s.pos) ∨ ∃ m, P = some m ∧ m.WF ∧
      m.flat = f32sOf ((s.data.drop (s.pos + padFloat32 s.pos)).take (4 * m.size)) ∧
      t3.pos = s.pos + padFloat32 s.pos + 4 * m.size := by
    unfold readProjection at k3
    split at k3
    · obtain ⟨ys, u1, j1, k3⟩ := rd_bind_inv k3
      obtain ⟨m, u2, j2, k3⟩ := rd_bind_inv k3
      cases k3
      obtain ⟨j2', rfl⟩ := rd_lift_inv j2
      obtain ⟨i1, i2, i3, i4, i5⟩ := reshape2_inv j2'
      obtain ⟨g1, g2, g3, _⟩ := fromFileF32_inv j1
      have hsz : m.size = rl ^ 2 := by rw [Mat.size, i3, i4]; ring
      refine Or.inr ⟨m, rfl, i5, ?_, ?_⟩
      · rw [i2, g1, hsz]
      · rw [g3 (by rw [i1]; ring), hsz]
    · cases k3; exact Or.inl ⟨rfl, rfl⟩
  have ha2 : t3.pos % 4 = 0 := by
    rcases hproj with ⟨_, h⟩ | ⟨m, _, _, _, h⟩ <;> rw [h] <;> omega
  refine ⟨rfl, rfl, s.pos + padFloat32 s.pos, t3.pos, t5.pos, ⟨ha1, ha2, by omega, ?_, rfl, hql, hc,
    hr, ?_, ?_, ?_, by omega, ?_, ?_⟩⟩
  · rw [hd6, hd4, hd3]
  · intro m hm
    simp only at hm
    rcases hproj with ⟨h, _⟩ | ⟨m', h, hw, h1, h2⟩
    · rw [h] at hm; cases hm
    · rw [h] at hm; cases hm
      exact ⟨h1, h2, hw, (hPm m h).1, (hPm m h).2⟩
  · intro hm
    simp only at hm
    rcases hproj with ⟨_, h⟩ | ⟨m', h, _⟩
    · exact h
    · rw [h] at hm; cases hm
  · simp only
    rw [hf, hx, hd3, hp3]
    congr 2
    omega
  · intro ys hy
    subst hy
    unfold readQNorms at k6
    split at k6
    · obtain ⟨zs, u1, j1, k6⟩ := rd_bind_inv k6
      cases k6
      obtain ⟨g1, g2, _, g4⟩ := fromFileF32_inv j1
      refine ⟨?_, g4⟩
      rw [g1, hd4, hd3]
    · cases k6
  · simp only
    rw [hql]; exact hfit

theorem fromFileU8_inv {n : Nat} {s s' : RFile} {xs : List UInt8}
    (h : fromFileU8 n s = .ok (xs, s')) : xs = (s.data.drop s.pos).take n ∧ s'.data = s.data := by
  unfold fromFileU8 at h
  split at h
  · cases h; exact ⟨rfl, rfl⟩
  · cases h

/-- Anything `QuantizedArray.read_chunk` returns. -/
theorem readQuantized_inv {s s' : RFile} {q : QArr F32} (h : readQuantized s = .ok (q, s')) :
    QWF q ∧ ∃ rl s0 p1 p2 p3, QTail s.data q.qlen rl q.codes.length q.pq q.norms s0 p1 p2 p3 := by
  unfold readQuantized at h
  obtain ⟨⟨pq, n, qlen, norms⟩, s1, h1, h⟩ := rd_bind_inv h
  simp only at h
  obtain ⟨codes, s2, h2, h⟩ := rd_bind_inv h
  obtain ⟨m, s3, h3, h⟩ := rd_bind_inv h
  obtain ⟨hre, _⟩ := rd_lift_inv h3
  obtain ⟨hcl, _, hcols, hrows, hmw⟩ := reshape2_inv hre
  cases h
  obtain ⟨proj, rn, ql, rl, nc, n', s0, hd0, hq0, hmod, ht⟩ := readQuantizedHeader_inv h1
  obtain ⟨rfl, rfl, p1, p2, p3, T⟩ := readQuantizedTail_inv ht
  rw [hd0] at T
  refine ⟨⟨Nat.pos_of_ne_zero hq0, T.qlen.symm, T.cents, T.subs, ?_, ?_, ?_, arrayFits_three.mp T.fits, ?_⟩, rl, s1, p1, p2, p3, ?_⟩
  · intro p hp
    exact (T.proj p hp).2.2
  · intro xs hxs
    obtain ⟨h1, h4 | h4⟩ := T.norms xs hxs
    · rw [h4]; exact hrows.symm
    · obtain ⟨hu, _⟩ := fromFileU8_inv h2
      rw [List.drop_of_length_le h4, List.take_nil] at hu
      rw [hu, List.length_nil] at hcl
      have : n = 0 := by
        rcases Nat.mul_eq_zero.mp hcl.symm with h | h
        · exact h
        · exact absurd h hq0
      rw [this] at h1 hrows
      simp only
      rw [h1, hrows]; rfl
  · intro c hc
    rw [hmw c hc]; exact hcols
  · have hf := reshape2_fits hre
    simp only [arrayFits, List.map_cons, List.map_nil, List.prod_cons, List.prod_nil, Nat.mul_one, Nat.one_mul,
      decide_eq_true_eq, Nat.max_eq_right (Nat.pos_of_ne_zero hq0)] at hf
    simp only
    rw [hrows]; exact hf
  · simp only
    rw [hrows]; exact T

end FF
