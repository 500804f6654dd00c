import Verif.Lemmas.Keeps
import Verif.Spec.Built
/-! Memory mapping against reading. -/

namespace FF

theorem seekCur_inv {n : Nat} {s s' : RFile} {u : Unit} (h : seekCur n s = .ok (u, s')) :
    n < maxSize ∧ s.pos + n < maxSize ∧ s' = ⟨s.data, s.pos + n⟩ := by
  unfold seekCur at h
  split at h
  · split at h
    · cases h; exact ⟨‹_›, ‹_›, rfl⟩
    · cases h
  · cases h

theorem seekCur_ok {n : Nat} {s : RFile} (h : s.pos + n < maxSize) :
    seekCur n s = .ok ((), ⟨s.data, s.pos + n⟩) := by
  unfold seekCur
  rw [if_pos (by omega), if_pos h]

theorem length_splitRows {K : Type} (r c : Nat) (xs : List K) : (splitRows r c xs).length = r := by
  induction r generalizing xs with
  | zero => rfl
  | succ n ih => simp [splitRows, ih]

theorem memmapF32_inv {o r c : Nat} {s s' : RFile} {m : Mat F32}
    (h : memmapF32 o r c s = .ok (m, s')) : o + 4 * (r * c) ≤ s.data.length ∧ s' = s ∧
      m = ⟨c, splitRows r c (f32sOf ((s.data.drop o).take (4 * (r * c))))⟩ ∧ arrayFits 4 [r, c] = true := by
  unfold memmapF32 at h
  simp only at h
  split at h
  · rename_i hm
    cases h
    simp only [memmapOk, Bool.and_eq_true, decide_eq_true_eq] at hm
    exact ⟨hm.1.1, rfl, rfl, hm.2⟩
  · cases h

theorem mmapNd_read {s s' : RFile} {m : Mat F32} (h : mmapNdArray s = .ok (m, s')) :
    readNdArray s = .ok (m, s') := by
  unfold mmapNdArray at h
  obtain ⟨⟨r, c⟩, s1, h1, h⟩ := rd_bind_inv h
  simp only at h
  obtain ⟨o, s2, h2, h⟩ := rd_bind_inv h
  cases h2
  obtain ⟨u, s3, h3, h⟩ := rd_bind_inv h
  obtain ⟨hn, hp, rfl⟩ := seekCur_inv h3
  obtain ⟨hlen, rfl, rfl, hfit⟩ := memmapF32_inv h
  simp only at hlen
  unfold readNdArray
  rw [rd_bind_ok h1]
  simp only
  have hav : 4 * (r * c) ≤ (s1.data.drop s1.pos).length := by
    rw [List.length_drop]; omega
  have hf : fromFileF32 (r * c) s1 = .ok (f32sOf ((s1.data.drop s1.pos).take (4 * (r * c))),
      ⟨s1.data, s1.pos + r * c * 4⟩) := by
    unfold fromFileF32
    rw [if_pos (by omega)]
    simp only
    rw [if_pos hav, Nat.mul_comm (r * c) 4]
  rw [rd_bind_ok hf]
  have hl : (f32sOf ((s1.data.drop s1.pos).take (4 * (r * c)))).length = r * c := by
    rw [length_f32sOf, List.length_take]
    omega
  unfold reshape2
  rw [if_pos ⟨hl, hfit⟩]
  rfl

theorem readNd_mmap {s s' : RFile} {m : Mat F32} (h : readNdArray s = .ok (m, s'))
    (h0 : m.size ≠ 0) (hlen : s.data.length < maxSize) : mmapNdArray s = .ok (m, s') := by
  unfold readNdArray at h
  obtain ⟨⟨r, c⟩, s1, h1, h⟩ := rd_bind_inv h
  simp only at h
  obtain ⟨xs, s2, h2, h⟩ := rd_bind_inv h
  have hd := readArrayHeader_keeps _ _ _ h1
  obtain ⟨h3, rfl⟩ := rd_lift_inv h
  unfold reshape2 at h3
  split at h3
  · rename_i hx
    obtain ⟨hx, hfit⟩ := hx
    cases h3
    have hs : r * c ≠ 0 := by
      intro h
      apply h0
      simp only [Mat.size]
      rw [length_splitRows]
      exact h
    unfold fromFileF32 at h2
    split at h2
    · rename_i hn
      simp only at h2
      split at h2
      · rename_i hav
        cases h2
        rw [List.length_drop] at hav
        unfold mmapNdArray
        rw [rd_bind_ok h1]
        simp only
        rw [rd_bind_ok (rd_tell _), rd_bind_ok (seekCur_ok (by rw [← hd] at hlen; omega))]
        unfold memmapF32
        simp only
        rw [if_pos, Nat.mul_comm (r * c) 4]
        simp only [memmapOk, Bool.and_eq_true, decide_eq_true_eq, Bool.or_eq_true]
        exact ⟨⟨by omega, Or.inl (Or.inl (by omega))⟩, hfit⟩
      · rename_i hav
        cases h2
        rw [length_f32sOf] at hx
        omega
    · split at h2
      · cases h2
      · cases h2
  · cases h3

theorem memmapU8_inv {o r c : Nat} {s s' : RFile} {m : Mat UInt8}
    (h : memmapU8 o r c s = .ok (m, s')) : o + r * c ≤ s.data.length ∧ s' = s ∧
      m = ⟨c, splitRows r c ((s.data.drop o).take (r * c))⟩ ∧ arrayFits 1 [r, c] = true := by
  unfold memmapU8 at h
  simp only at h
  split at h
  · rename_i hm
    cases h
    simp only [memmapOk, Bool.and_eq_true, decide_eq_true_eq] at hm
    exact ⟨hm.1.1, rfl, rfl, hm.2⟩
  · cases h

theorem mmapQuant_read {s s' : RFile} {q : QArr F32} (h : mmapQuantized s = .ok (q, s')) :
    readQuantized s = .ok (q, s') := by
  unfold mmapQuantized at h
  obtain ⟨⟨pq, n, qlen, norms⟩, s1, h1, h⟩ := rd_bind_inv h
  simp only at h
  obtain ⟨o, s2, h2, h⟩ := rd_bind_inv h
  cases h2
  obtain ⟨u, s3, h3, h⟩ := rd_bind_inv h
  obtain ⟨hn, hp, rfl⟩ := seekCur_inv h3
  obtain ⟨m, s4, h4, h⟩ := rd_bind_inv h
  obtain ⟨hlen, rfl, rfl, hfit⟩ := memmapU8_inv h4
  simp only at hlen
  cases h
  unfold readQuantized
  rw [rd_bind_ok h1]
  simp only
  have hl : ((s1.data.drop s1.pos).take (n * qlen)).length = n * qlen := by
    rw [List.length_take, List.length_drop]; omega
  have hf : fromFileU8 (n * qlen) s1 = .ok ((s1.data.drop s1.pos).take (n * qlen),
      ⟨s1.data, s1.pos + n * qlen⟩) := by
    unfold fromFileU8
    rw [if_pos hn]
    simp only
    rw [hl]
  rw [rd_bind_ok hf]
  unfold reshape2
  rw [if_pos ⟨hl, hfit⟩]
  rfl

theorem readQuant_mmap {s s' : RFile} {q : QArr F32} (h : readQuantized s = .ok (q, s'))
    (h0 : q.codes.length * q.qlen ≠ 0) (hlen : s.data.length < maxSize) :
    mmapQuantized s = .ok (q, s') := by
  unfold readQuantized at h
  obtain ⟨⟨pq, n, qlen, norms⟩, s1, h1, h⟩ := rd_bind_inv h
  simp only at h
  obtain ⟨xs, s2, h2, h⟩ := rd_bind_inv h
  have hd := readQuantizedHeader_keeps _ _ _ h1
  obtain ⟨m, s3, h3, h⟩ := rd_bind_inv h
  obtain ⟨h3, rfl⟩ := rd_lift_inv h3
  unfold reshape2 at h3
  split at h3
  · rename_i hx
    obtain ⟨hx, hfit⟩ := hx
    cases h3
    cases h
    have hs : n * qlen ≠ 0 := by
      intro h
      apply h0
      simp only
      rw [length_splitRows]
      exact h
    unfold fromFileU8 at h2
    split at h2
    · rename_i hn
      simp only at h2
      cases h2
      have hx' := hx
      rw [List.length_take, List.length_drop] at hx
      unfold mmapQuantized
      rw [rd_bind_ok h1]
      simp only
      rw [rd_bind_ok (rd_tell _), rd_bind_ok (seekCur_ok (by rw [← hd] at hlen; omega))]
      have hm : memmapU8 s1.pos n qlen ⟨s1.data, s1.pos + n * qlen⟩ =
          .ok (⟨qlen, splitRows n qlen ((s1.data.drop s1.pos).take (n * qlen))⟩,
            ⟨s1.data, s1.pos + n * qlen⟩) := by
        unfold memmapU8
        simp only
        rw [if_pos]
        simp only [memmapOk, Bool.and_eq_true, decide_eq_true_eq, Bool.or_eq_true]
        exact ⟨⟨by omega, Or.inl (Or.inl (by omega))⟩, hfit⟩
      rw [rd_bind_ok hm, hx']
      rfl
    · cases h2
  · cases h3

/-- `quantized_len` is positive in every header that is accepted. -/
theorem readQuantizedHeader_qlen {s s' : RFile} {pq : PQ F32} {n qlen : Nat}
    {norms : Option (List F32)} (h : readQuantizedHeader s = .ok ((pq, n, qlen, norms), s')) :
    qlen ≠ 0 := by
  unfold readQuantizedHeader at h
  obtain ⟨_, _, _, h⟩ := rd_bind_inv h
  obtain ⟨_, _, _, h⟩ := rd_bind_inv h
  obtain ⟨ql, _, _, h⟩ := rd_bind_inv h
  obtain ⟨_, _, _, h⟩ := rd_bind_inv h
  obtain ⟨_, _, _, h⟩ := rd_bind_inv h
  obtain ⟨_, _, _, h⟩ := rd_bind_inv h
  simp only at h
  split at h
  · obtain ⟨_, _, h', _⟩ := rd_bind_inv h; cases h'
  · rename_i hq
    obtain ⟨_, _, _, h⟩ := rd_bind_inv h
    obtain ⟨_, _, _, h⟩ := rd_bind_inv h
    split at h
    · obtain ⟨_, _, h', _⟩ := rd_bind_inv h; cases h'
    · obtain ⟨_, _, _, h⟩ := rd_bind_inv h
      split at h
      · obtain ⟨_, _, h', _⟩ := rd_bind_inv h; cases h'
      · unfold readQuantizedTail at h
        obtain ⟨_, _, _, h⟩ := rd_bind_inv h
        obtain ⟨_, _, _, h⟩ := rd_bind_inv h
        obtain ⟨_, _, _, h⟩ := rd_bind_inv h
        obtain ⟨_, _, _, h⟩ := rd_bind_inv h
        obtain ⟨_, _, _, h⟩ := rd_bind_inv h
        obtain ⟨_, _, _, h⟩ := rd_bind_inv h
        obtain ⟨_, _, _, h⟩ := rd_bind_inv h
        cases h
        exact hq

theorem readQuantized_qlen {s s' : RFile} {q : QArr F32} (h : readQuantized s = .ok (q, s')) :
    q.qlen ≠ 0 := by
  unfold readQuantized at h
  obtain ⟨⟨pq, n, qlen, norms⟩, s1, h1, h⟩ := rd_bind_inv h
  simp only at h
  obtain ⟨xs, s2, h2, h⟩ := rd_bind_inv h
  obtain ⟨m, s3, h3, h⟩ := rd_bind_inv h
  cases h
  exact readQuantizedHeader_qlen h1

/-! ### Storages -/

theorem loadNd_mmap_read {s s' : RFile} {st : Storage F32} (h : loadNd true s = .ok (st, s')) :
    loadNd false s = .ok (st, s') := by
  unfold loadNd at h ⊢
  obtain ⟨m, s1, h1, h⟩ := rd_bind_inv h
  exact (rd_bind_ok (mmapNd_read h1)).trans h

theorem loadQuant_mmap_read {s s' : RFile} {st : Storage F32}
    (h : loadQuant true s = .ok (st, s')) : loadQuant false s = .ok (st, s') := by
  unfold loadQuant at h ⊢
  obtain ⟨m, s1, h1, h⟩ := rd_bind_inv h
  exact (rd_bind_ok (mmapQuant_read h1)).trans h

theorem loadNd_read_mmap {s s' : RFile} {st : Storage F32} (h : loadNd false s = .ok (st, s'))
    (h0 : st.nonempty) (hlen : s.data.length < maxSize) : loadNd true s = .ok (st, s') := by
  unfold loadNd at h ⊢
  obtain ⟨m, s1, h1, h⟩ := rd_bind_inv h
  cases h
  exact rd_bind_ok (readNd_mmap h1 h0 hlen)

theorem loadQuant_read_mmap {s s' : RFile} {st : Storage F32}
    (h : loadQuant false s = .ok (st, s'))
    (h0 : st.nonempty) (hlen : s.data.length < maxSize) : loadQuant true s = .ok (st, s') := by
  unfold loadQuant at h ⊢
  obtain ⟨m, s1, h1, h⟩ := rd_bind_inv h
  cases h
  exact rd_bind_ok (readQuant_mmap h1 (Nat.mul_ne_zero h0 (readQuantized_qlen h1)) hlen)

theorem loadStoragePart_mmap_read {s s' : RFile} {st : Storage F32}
    (h : loadStoragePart true s = .ok (st, s')) : loadStoragePart false s = .ok (st, s') := by
  unfold loadStoragePart at h ⊢
  obtain ⟨⟨c, n⟩, s1, h1, h⟩ := rd_bind_inv h
  rw [rd_bind_ok h1]
  cases c
  case ndArray => exact loadNd_mmap_read h
  case quantizedArray => exact loadQuant_mmap_read h
  all_goals exact h

theorem loadStoragePart_read_mmap {s s' : RFile} {st : Storage F32}
    (h : loadStoragePart false s = .ok (st, s'))
    (h0 : st.nonempty) (hlen : s.data.length < maxSize) :
    loadStoragePart true s = .ok (st, s') := by
  unfold loadStoragePart at h ⊢
  obtain ⟨⟨c, n⟩, s1, h1, h⟩ := rd_bind_inv h
  rw [rd_bind_ok h1]
  have hd := readRequiredChunkHeader_keeps _ _ _ h1
  cases c
  case ndArray => exact loadNd_read_mmap h h0 (by rw [hd]; exact hlen)
  case quantizedArray => exact loadQuant_read_mmap h h0 (by rw [hd]; exact hlen)
  all_goals exact h

theorem loadStorage_mmap_read {s s' : RFile} {st : Storage F32}
    (h : loadStorage true s = .ok (st, s')) : loadStorage false s = .ok (st, s') := by
  unfold loadStorage at h ⊢
  obtain ⟨c, s1, h1, h⟩ := rd_bind_inv h
  rw [rd_bind_ok h1]
  rcases c with _ | c
  · exact h
  · cases c
    case ndArray => exact loadNd_mmap_read h
    case quantizedArray => exact loadQuant_mmap_read h
    all_goals exact h

theorem loadStorage_read_mmap {s s' : RFile} {st : Storage F32}
    (h : loadStorage false s = .ok (st, s'))
    (h0 : st.nonempty) (hlen : s.data.length < maxSize) :
    loadStorage true s = .ok (st, s') := by
  unfold loadStorage at h ⊢
  obtain ⟨c, s1, h1, h⟩ := rd_bind_inv h
  rw [rd_bind_ok h1]
  have hd := findChunk_keeps _ _ _ _ h1
  rcases c with _ | c
  · exact h
  · cases c
    case ndArray => exact loadNd_read_mmap h h0 (by rw [hd]; exact hlen)
    case quantizedArray => exact loadQuant_read_mmap h h0 (by rw [hd]; exact hlen)
    all_goals exact h

theorem rd_run_ok {α : Type} {m : Rd α} {bs : Bytes} {a : α} (h : Rd.run m bs = .ok a) :
    ∃ s', m ⟨bs, 0⟩ = .ok (a, s') := by
  unfold Rd.run at h
  cases hm : m ⟨bs, 0⟩ with
  | error e => rw [hm] at h; cases h
  | ok p => obtain ⟨x, s'⟩ := p; rw [hm] at h; cases h; exact ⟨s', rfl⟩

theorem rd_run_of {α : Type} {m : Rd α} {bs : Bytes} {a : α} {s' : RFile}
    (h : m ⟨bs, 0⟩ = .ok (a, s')) : Rd.run m bs = .ok a := by
  unfold Rd.run; rw [h]

theorem loadFinalfusion_mmap_read {T : Toml} {s s' : RFile} {e : Embeddings F32}
    (h : loadFinalfusion T true s = .ok (e, s')) : loadFinalfusion T false s = .ok (e, s') := by
  unfold loadFinalfusion at h ⊢
  obtain ⟨_, s1, h1, h⟩ := rd_bind_inv h
  obtain ⟨⟨c, md⟩, s2, h2, h⟩ := rd_bind_inv h
  obtain ⟨v, s3, h3, h⟩ := rd_bind_inv h
  obtain ⟨st, s4, h4, h⟩ := rd_bind_inv h
  rw [rd_bind_ok h1, rd_bind_ok h2]
  simp only
  rw [rd_bind_ok h3, rd_bind_ok (loadStoragePart_mmap_read h4)]
  exact h

theorem loadFinalfusion_read_mmap {T : Toml} {s s' : RFile} {e : Embeddings F32}
    (h : loadFinalfusion T false s = .ok (e, s')) (h0 : e.storage.nonempty)
    (hlen : s.data.length < maxSize) : loadFinalfusion T true s = .ok (e, s') := by
  unfold loadFinalfusion at h ⊢
  obtain ⟨_, s1, h1, h⟩ := rd_bind_inv h
  obtain ⟨⟨c, md⟩, s2, h2, h⟩ := rd_bind_inv h
  obtain ⟨v, s3, h3, h⟩ := rd_bind_inv h
  obtain ⟨st, s4, h4, h⟩ := rd_bind_inv h
  obtain ⟨n, s5, h5, h⟩ := rd_bind_inv h
  obtain ⟨h6, rfl⟩ := rd_lift_inv h
  obtain ⟨_, rfl⟩ := embNew_ok.mp h6
  rw [rd_bind_ok h1, rd_bind_ok h2]
  simp only
  have hd : s3.data = s.data := by
    rw [loadVocabPart_keeps _ _ _ _ h3, loadMetaPart_keeps _ _ _ _ h2, readHeader_keeps _ _ _ h1]
  rw [rd_bind_ok h3, rd_bind_ok (loadStoragePart_read_mmap h4 h0 (by rw [hd]; exact hlen)),
    rd_bind_ok h5]
  exact h

end FF
