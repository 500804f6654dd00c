import Verif.Lemmas.Mmap
import Verif.Lemmas.Built
/-! Mapping matrices without elements. -/

namespace FF

theorem fromFileF32_zero {s : RFile} : fromFileF32 0 s = .ok ([], s) := by
  unfold fromFileF32
  rw [if_pos (by decide)]
  simp [f32sOf]

theorem readNd_mmap_empty {s s' : RFile} {m : Mat F32} (h : readNdArray s = .ok (m, s'))
    (h0 : m.size = 0) (hpos : s'.pos < maxSize) :
    mmapNdArray s = if memmapOk s'.data.length s'.pos 0 then .ok (m, s') else .error .valueError := by
  unfold readNdArray at h
  obtain ⟨⟨r, c⟩, s1, h1, h⟩ := rd_bind_inv h
  simp only at h
  obtain ⟨xs, s2, h2, h⟩ := rd_bind_inv h
  obtain ⟨h3, rfl⟩ := rd_lift_inv h
  unfold reshape2 at h3
  split at h3
  · rename_i hx
    obtain ⟨_, hfit⟩ := hx
    cases h3
    have hs : r * c = 0 := by
      simp only [Mat.size, length_splitRows] at h0
      exact h0
    rw [hs, fromFileF32_zero] at h2
    cases h2
    unfold mmapNdArray
    rw [rd_bind_ok h1]
    simp only
    rw [rd_bind_ok (rd_tell _), hs, Nat.zero_mul, rd_bind_ok (seekCur_ok (by omega))]
    unfold memmapF32
    simp only [hs, hfit, Bool.and_true, Nat.mul_zero, Nat.add_zero, List.take_zero]
    rfl
  · cases h3

theorem readQuant_mmap_empty {s s' : RFile} {q : QArr F32} (h : readQuantized s = .ok (q, s'))
    (h0 : q.codes.length = 0) (hpos : s'.pos < maxSize) :
    mmapQuantized s = if memmapOk s'.data.length s'.pos 0 then .ok (q, s') else .error .valueError := by
  unfold readQuantized at h
  obtain ⟨⟨pq, n, qlen, norms⟩, s1, h1, h⟩ := rd_bind_inv h
  simp only at h
  obtain ⟨xs, s2, h2, h⟩ := rd_bind_inv h
  obtain ⟨m, s3, h3, h⟩ := rd_bind_inv h
  obtain ⟨h3, rfl⟩ := rd_lift_inv h3
  unfold reshape2 at h3
  split at h3
  · rename_i hx
    obtain ⟨_, hfit⟩ := hx
    cases h3
    cases h
    have hn : n = 0 := by
      simp only [length_splitRows] at h0
      exact h0
    subst hn
    rw [Nat.zero_mul] at h2
    have : fromFileU8 0 s1 = .ok ([], s1) := by
      unfold fromFileU8
      rw [if_pos (by decide)]
      simp
    rw [this] at h2
    cases h2
    unfold mmapQuantized
    rw [rd_bind_ok h1]
    simp only
    rw [rd_bind_ok (rd_tell _), Nat.zero_mul, rd_bind_ok (seekCur_ok (by omega))]
    have hm : memmapU8 s'.pos 0 qlen ⟨s'.data, s'.pos + 0⟩ =
        if memmapOk s'.data.length s'.pos 0 then .ok (⟨qlen, []⟩, s') else .error .valueError := by
      unfold memmapU8
      simp only [hfit, Bool.and_true, Nat.zero_mul, Nat.add_zero]
      rfl
    by_cases hk : memmapOk s'.data.length s'.pos 0
    · rw [if_pos hk] at hm ⊢
      rw [rd_bind_ok hm]
      rfl
    · rw [if_neg hk] at hm ⊢
      exact rd_bind_error hm
  · cases h3

theorem loadStoragePart_mmap_empty {s s' : RFile} {st : Storage F32}
    (h : loadStoragePart false s = .ok (st, s')) (h0 : ¬ st.nonempty) (hpos : s'.pos < maxSize) :
    loadStoragePart true s =
      if memmapOk s'.data.length s'.pos 0 then .ok (st, s') else .error .valueError := by
  unfold loadStoragePart at h ⊢
  obtain ⟨⟨c, n⟩, s1, h1, h⟩ := rd_bind_inv h
  rw [rd_bind_ok h1]
  cases c
  case ndArray =>
    change loadNd false s1 = _ at h
    change loadNd true s1 = _
    unfold loadNd at h ⊢
    obtain ⟨m, s2, h2, h⟩ := rd_bind_inv h
    cases h
    have hm := readNd_mmap_empty h2 (not_not.mp h0) hpos
    by_cases hk : memmapOk s'.data.length s'.pos 0
    · rw [if_pos hk] at hm ⊢
      exact (rd_bind_ok hm).trans rfl
    · rw [if_neg hk] at hm ⊢
      exact rd_bind_error hm
  case quantizedArray =>
    change loadQuant false s1 = _ at h
    change loadQuant true s1 = _
    unfold loadQuant at h ⊢
    obtain ⟨m, s2, h2, h⟩ := rd_bind_inv h
    cases h
    have hm := readQuant_mmap_empty h2 (not_not.mp h0) hpos
    by_cases hk : memmapOk s'.data.length s'.pos 0
    · rw [if_pos hk] at hm ⊢
      exact (rd_bind_ok hm).trans rfl
    · rw [if_neg hk] at hm ⊢
      exact rd_bind_error hm
  all_goals cases h

/-- Mapping a written file whose matrix has no elements. -/
theorem embLoad_mmap_empty {T : Toml} {e : Embeddings F32} {mb bs : Bytes} (h : EmbBytes T e mb bs)
    (hw : EmbWF e)
    (hT : ∀ m str, e.metadata = some m → T.dumps m = .ok str → T.loads str = .ok m)
    (h0 : ¬ e.storage.nonempty) :
    Rd.run (loadFinalfusion T true) bs =
      if e.norms = none ∧ bs.length % granularity = 0 then .error .valueError
      else .ok (canonEmb e) := by
  have hi0 := chunkIds_ne e
  have hi1 := chunkIds_len e
  have hi2 := chunkIds_lt e
  have hsz := h.size
  obtain ⟨hmeta, heq, hvf, hvl, hsf, hsl, hnl, _⟩ := h
  generalize hH : headerEnc _ = H at *
  generalize hV : vocabEnc e.vocab = V at *
  generalize hS : storageEnc (H ++ mb ++ V).length e.storage = S at *
  generalize hN : normsEnc (H ++ mb ++ V ++ S).length e.norms = N at *
  have hlen : bs.length = (H ++ mb ++ V ++ S).length + N.length := by
    rw [heq]; simp only [List.length_append]; omega
  have hsz' : H.length + mb.length + V.length + S.length + N.length < maxSize := by
    rw [heq] at hsz; simp only [List.length_append] at hsz; omega
  unfold Rd.run loadFinalfusion
  have h1 := readHeader_parses _ [] hi0 hi1 hi2
  rw [hH] at h1
  have h2 := loadMetaPart_parses hmeta hT H e.vocab.chunkId (vocabChunkId_ne _) _ hvl (by omega)
  have h3 := vocabRead_parses hw.vocab hvf hw.expl (H ++ (mb ++ chunkHead e.vocab.chunkId
    (vocabLen e.vocab)))
  rw [← loadVocabPart_eq] at h3
  have h4 := Steps.parses (loadStoragePart_head e.storage _ (H ++ mb ++ V) hsl)
    (readStorage_parses e.storage hw.storage hsf (H ++ mb ++ V) (by
      rw [hS]; simp only [List.length_append]; omega))
  rw [show chunkHead e.storage.chunkId (storageLen (padFloat32 ((H ++ mb ++ V).length + 4)) e.storage)
    ++ storageBody (padFloat32 ((H ++ mb ++ V).length + 4)) e.storage = S from hS] at h4
  have h4' := loadStoragePart_mmap_empty (h4 N) h0 (by
    simp only [List.length_append]; omega)
  simp only at h4'
  have hmm : memmapOk (H ++ mb ++ V ++ S ++ N).length (H ++ mb ++ V ++ S).length 0 =
      decide (¬ (e.norms = none ∧ bs.length % granularity = 0)) := by
    rw [Bool.eq_iff_iff]
    simp only [memmapOk, Bool.and_eq_true, Bool.or_eq_true, decide_eq_true_eq, hlen,
      List.length_append (as := H ++ mb ++ V ++ S)]
    cases hn : e.norms with
    | none =>
      have : N = [] := by rw [← hN, hn]; rfl
      rw [this]
      simp
    | some n =>
      have : 0 < N.length := by rw [← hN, hn]; simp [normsEnc]
      simp
      omega
  rw [hmm] at h4'
  obtain ⟨s', h5⟩ := loadNormsPart_ok e.norms (H ++ mb ++ V ++ S) hnl (by
    rw [hN]; simp only [List.length_append]; omega)
  rw [hN] at h5
  have hb : bs = [] ++ H ++ ((mb ++ chunkHead e.vocab.chunkId (vocabLen e.vocab)) ++
      (vocabBody e.vocab ++ (S ++ N))) := by
    rw [heq, ← hV]; simp [vocabEnc]
  rw [show ((⟨bs, 0⟩ : RFile)) = ⟨[] ++ H ++ ((mb ++ chunkHead e.vocab.chunkId (vocabLen e.vocab)) ++
      (vocabBody e.vocab ++ (S ++ N))), ([] : Bytes).length⟩ by rw [hb]; rfl]
  rw [rd_bind_ok (h1 _)]
  rw [List.nil_append, ← List.append_assoc, rd_bind_ok (h2 _)]
  simp only
  rw [← List.append_assoc, rd_bind_ok (h3 _)]
  have e4 : H ++ (mb ++ chunkHead e.vocab.chunkId (vocabLen e.vocab)) ++ vocabBody e.vocab
      = H ++ mb ++ V := by
    rw [← hV]; simp [vocabEnc]
  rw [e4, ← List.append_assoc]
  by_cases hc : e.norms = none ∧ bs.length % granularity = 0
  · rw [if_pos hc]
    rw [if_neg (by rw [decide_eq_true_eq]; exact not_not.mpr hc)] at h4'
    rw [rd_bind_error h4']
  · rw [if_neg hc]
    rw [if_pos (decide_eq_true hc)] at h4'
    rw [rd_bind_ok h4', rd_bind_ok h5, embNew_canon hw]
    rfl

end FF
