import Verif.Lemmas.MemoryCost
import Verif.Lemmas.FfFile
import Verif.Spec.Memory
/-!
# What loading a file requests
-/

namespace FF

open Fifu

variable {α β : Type}

/-! ### `find_chunk` -/

namespace Costs

theorem findChunkLoop (ids : List ChunkId) (fuel : Nat) :
    Full 12 (FF.findChunkLoop ids fuel) (Mem.findChunkLoop ids fuel) := by
  induction fuel with
  | zero => exact weaken (fail _) (by omega) fun _ h => h
  | succ fuel ih =>
    intro s a s' h
    obtain ⟨o, s1, h1, h2⟩ := rd_bind_inv h
    obtain ⟨d, p, c, hc, hs⟩ := readChunkHeader s s1 o h1
    rcases o with _ | ⟨ci, size⟩
    · cases h2
      exact ⟨d, p, .inr ⟨c, by simpa using hc, Spends.bind (d := 0) hs fun _ _ => rfl⟩⟩
    · simp only [Option.isSome_some, if_true, Nat.add_zero] at hc
      simp only at h2
      have hi : Full 12 (if ci ∈ ids then (Pure.pure (some ci) : Rd _) else
          (FF.seekCur size >>= fun _ => FF.findChunkLoop ids fuel))
          (if ci ∈ ids then (Pure.pure (some ci) : MRd _) else
          (MRd.of (FF.seekCur size) >>= fun _ => Mem.findChunkLoop ids fuel)) :=
        ite (weaken (pure _) (by omega) fun _ h => h) (free_bind (seekCur _) fun _ => ih)
      obtain ⟨d2, p2, h3⟩ := hi s1 a s' h2
      rcases h3 with ⟨_, hf⟩ | ⟨c', hc', hs'⟩
      · exact hf.elim
      · rw [d] at d2 hc'
        exact ⟨d2, by omega, .inr ⟨c + c', by omega, hs.bind hs'⟩⟩

theorem findChunk (ids : List ChunkId) {bs : Bytes} {o : Option ChunkId} {s' : RFile}
    (h : FF.findChunk ids ⟨bs, 0⟩ = .ok (o, s')) : s'.data = bs ∧
      ∃ c, c ≤ min s'.pos bs.length + 12 ∧ Spends (Mem.findChunk ids) ⟨bs, 0⟩ o s' c := by
  have hc : Full 12 (FF.readHeader >>= fun _ => FF.findChunkLoop ids (bs.length + 1))
      (Mem.readHeader >>= fun _ => Mem.findChunkLoop ids (bs.length + 1)) :=
    free_bind readHeader fun _ => findChunkLoop ids _
  obtain ⟨u, s1, h1, h2⟩ := rd_bind_inv (show (FF.seekSet 0 >>= fun _ => FF.readHeader >>= fun _ =>
    FF.findChunkLoop ids (bs.length + 1)) ⟨bs, 0⟩ = _ from h)
  have h1' := h1
  have e : FF.seekSet 0 ⟨bs, 0⟩ = .ok ((), ⟨bs, 0⟩) := rfl
  rw [e] at h1
  cases h1
  obtain ⟨d, p, hh⟩ := hc _ _ _ h2
  rcases hh with ⟨_, hf⟩ | ⟨c, hc, hs⟩
  · exact hf.elim
  · refine ⟨d, c, by simpa using hc, ?_⟩
    intro b hb
    have h3 := Spends.bind (g := fun _ => Mem.readHeader >>= fun _ => Mem.findChunkLoop ids (bs.length + 1))
      (Spends.of h1') hs
    rw [Nat.zero_add] at h3
    exact h3 b hb

theorem after_find {ids : List ChunkId} {f : Option ChunkId → Rd α} {g : Option ChunkId → MRd α} {k : Nat}
    {P : α → Prop} {l : MRd α} (hl : l = (Mem.findChunk ids >>= g)) (hf : ∀ o, Costs k P (f o) (g o)) {bs : Bytes} {a : α} {s' : RFile}
    (h : (FF.findChunk ids >>= f) ⟨bs, 0⟩ = .ok (a, s')) : (bs.length ≤ s'.pos ∧ P a) ∨
      ∃ c, c ≤ min s'.pos bs.length + (12 + k) ∧ Spends l ⟨bs, 0⟩ a s' c := by
  subst hl
  obtain ⟨o, s1, h1, h2⟩ := rd_bind_inv h
  obtain ⟨d, c, hc, hs⟩ := findChunk ids h1
  obtain ⟨d2, p2, h3⟩ := hf o s1 a s' h2
  rw [d] at d2 h3
  rcases h3 with h3 | ⟨c', hc', hs'⟩
  · exact .inl h3
  · exact .inr ⟨c + c', by omega, hs.bind hs'⟩

theorem loadStorage (mmap : Bool) {bs : Bytes} {a : Storage F32} {s' : RFile}
    (h : FF.loadStorage mmap ⟨bs, 0⟩ = .ok (a, s')) :
    ∃ c, c ≤ bs.length + 12 ∧ Spends (Mem.loadStorage mmap) ⟨bs, 0⟩ a s' c := by
  refine (after_find (k := 0) (P := fun _ => False) (show (Mem.loadStorage mmap) = _ from rfl) (fun o => ?_) h).elim ?_ ?_
  · rcases o with _ | c
    · exact fail _
    · cases c <;> first
        | exact Costs.loadNd mmap
        | exact Costs.loadQuant mmap
        | exact fail _
  · rintro ⟨_, hf⟩
    exact hf.elim
  · rintro ⟨c, hc, hs⟩
    exact ⟨c, by omega, hs⟩

theorem loadMetadata (T : Toml) {bs : Bytes} {a : Meta} {s' : RFile}
    (h : FF.loadMetadata T ⟨bs, 0⟩ = .ok (a, s')) :
    ∃ c, c ≤ bs.length + 24 ∧ Spends (Mem.loadMetadata T) ⟨bs, 0⟩ a s' c := by
  refine (after_find (k := 12) (P := fun _ => False) (show (Mem.loadMetadata T) = _ from rfl) (fun o => ?_) h).elim ?_ ?_
  · rcases o with _ | c
    · exact weaken (fail _) (by omega) fun _ h => h
    · cases c <;> first
        | exact weaken (fail _) (by omega) fun _ h => h
        | exact fun s m s' h => by
            obtain ⟨h1, h2, h3⟩ := readMetadata T s m s' h
            exact ⟨h1, h2, .inr h3⟩
  · rintro ⟨_, hf⟩
    exact hf.elim
  · rintro ⟨c, hc, hs⟩
    exact ⟨c, by omega, hs⟩

theorem loadVocab {bs : Bytes} {a : Vocab} {s' : RFile} (h : FF.loadVocab ⟨bs, 0⟩ = .ok (a, s')) :
    bs.length ≤ s'.pos ∨ ∃ c, c ≤ bs.length + 12 ∧ Spends Mem.loadVocab ⟨bs, 0⟩ a s' c := by
  refine (after_find (k := 0) (P := fun _ => True) (show Mem.loadVocab = _ from rfl) (fun o => ?_) h).elim ?_ ?_
  · rcases o with _ | c
    · exact any (fail _)
    · cases c <;> first
        | exact loadVocabPart .simpleVocab
        | exact loadVocabPart .bucketVocab
        | exact loadVocabPart .fastTextVocab
        | exact loadVocabPart .explicitVocab
        | exact any (fail _)
  · rintro ⟨hf, _⟩
    exact .inl hf
  · rintro ⟨c, hc, hs⟩
    exact .inr ⟨c, by omega, hs⟩

end Costs

theorem Spends.run {l : MRd α} {bs : Bytes} {a : α} {s' : RFile} {c M : Nat} (h : Spends l ⟨bs, 0⟩ a s' c)
    (hM : c ≤ M) : l.run M bs = .ok a := by
  unfold MRd.run
  rw [h M hM]

/-! ### The parts of a file -/

/-- How the parts of a file load -/
theorem file_runs {T : Toml} {mmap : Bool} {bs : Bytes} {e : Embeddings F32} (hlen : bs.length + 4 < 2 ^ 63)
    {p1 p2 p3 p4 : Nat} (hh : HeaderAt bs p1) (m1 : MetaAt T bs p1 e.metadata p2)
    (v1 : VocabAt bs p2 e.vocab e.storage.nRows p3) (t1 : StorageAt bs p3 e.storage p4)
    (n1 : NormsAt bs p4 e.vocab.words.length e.norms) (t2 : mmap → Mappable bs e.storage p4) :
    ∃ ids c s5, readHeader ⟨bs, 0⟩ = .ok (ids, ⟨bs, p1⟩) ∧
      loadMetaPart T ⟨bs, p1⟩ = .ok ((c, e.metadata), ⟨bs, p2 + 12⟩) ∧
      loadVocabPart c ⟨bs, p2 + 12⟩ = .ok (e.vocab, ⟨bs, p3⟩) ∧
      loadStoragePart mmap ⟨bs, p3⟩ = .ok (e.storage, ⟨bs, p4⟩) ∧ loadNormsPart ⟨bs, p4⟩ = .ok (e.norms, s5) ∧
      Embeddings.new e.storage e.vocab e.norms e.metadata = .ok e := by
  have hstore : loadStoragePart mmap ⟨bs, p3⟩ = .ok (e.storage, ⟨bs, p4⟩) := by
    cases mmap with
    | false => rw [loadStoragePart_at hlen]; exact ⟨p4, t1, rfl⟩
    | true => rw [loadStoragePart_mmap_at hlen]; exact ⟨p4, t1, t2 rfl, rfl⟩
  obtain ⟨ids, h1⟩ := readHeader_iff.mpr ⟨p1, hh, rfl⟩
  obtain ⟨c, hc, hd, h3⟩ := loadVocabPart_of v1
  have hmeta : loadMetaPart T ⟨bs, p1⟩ = .ok ((c, e.metadata), ⟨bs, p2 + 12⟩) := by
    unfold loadMetaPart
    obtain ⟨n, s1, k⟩ := head_iff.mpr hd
    have := (readRequiredChunkHeader_iff.mp k).2.2
    subst this
    cases hmd : e.metadata with
    | none =>
      rw [hmd] at m1
      have : p2 = p1 := m1
      subst this
      rw [rd_bind_ok k]
      simp only
      rw [if_neg hc]
      rfl
    | some m =>
      rw [hmd] at m1
      have h4 := (readMetadata_iff (by omega)).mpr ⟨p2, m1, rfl⟩
      have hk : ∃ n s, readRequiredChunkHeader ⟨bs, p1⟩ = .ok ((.metadata, n), s) := by
        rw [head_iff]
        obtain ⟨text, _, _, h6, _⟩ := m1
        refine ⟨(utf8 text).length, ?_, ?_⟩
        · have := List.IsPrefix.length_le h6
          simp only [List.length_append, List.length_drop] at this
          omega
        · rw [hasAt_append] at h6
          exact h6.1
      obtain ⟨n', s1, k'⟩ := hk
      have := (readRequiredChunkHeader_iff.mp k').2.2
      subst this
      rw [rd_bind_ok k']
      simp only
      rw [if_pos trivial, rd_bind_ok h4, rd_bind_ok k]
      rfl
  obtain ⟨u1, u2, u3⟩ := vocabAt_rows v1
  have hn : ∀ xs, e.norms = some xs → xs.length = e.vocab.words.length := by
    intro xs hxs
    unfold NormsAt at n1
    rw [hxs] at n1
    obtain ⟨_, _, _, _, _, h, _⟩ := n1
    exact h
  obtain ⟨s', h5⟩ := (loadNormsPart_at hlen hn).mpr n1
  refine ⟨ids, c, s', h1, hmeta, h3, hstore, h5, ?_⟩
  rw [embNew_ok, check_parts]
  refine ⟨⟨u1.symm, ?_⟩, rfl⟩
  intro xs hxs
  rw [hn xs hxs]
  exact ⟨u3, u2⟩

/-- What the norms chunk announces is what is read. -/
theorem announced_read {bs : Bytes} {p n m t len : Nat} {xs : List F32} {s1 s2 : RFile}
    (h : Announced bs p (some xs) n) (h1 : readChunkHeader ⟨bs, p⟩ = .ok (some (.ndNorms, len), s1))
    (h2 : readRequired [8, 4] s1 = .ok ([m, t], s2)) : m = n := by
  obtain ⟨_, _, rfl⟩ := readChunkHeader_some.mp h1
  obtain ⟨⟨k1, k2⟩, k3, rfl⟩ := (readRequired2_iff (by decide) (by decide)).mp h2
  rw [hasAt_append] at k3
  obtain ⟨a1, a2⟩ := h
  rw [uint_eq] at a1
  exact hasAt_le_unique k1 (by simpa using a2) k3.1 a1

/-- What the parts request, if the norms chunk announces at most `k` norms in vain -/
theorem parts_spend {T : Toml} {mmap : Bool} {bs : Bytes} {e : Embeddings F32} {ids : List Nat} {c : ChunkId}
    {p1 p2 p3 p4 k : Nat} {s5 : RFile} (h1 : readHeader ⟨bs, 0⟩ = .ok (ids, ⟨bs, p1⟩))
    (h2 : loadMetaPart T ⟨bs, p1⟩ = .ok ((c, e.metadata), ⟨bs, p2⟩))
    (h3 : loadVocabPart c ⟨bs, p2⟩ = .ok (e.vocab, ⟨bs, p3⟩))
    (h4 : loadStoragePart mmap ⟨bs, p3⟩ = .ok (e.storage, ⟨bs, p4⟩)) (h5 : loadNormsPart ⟨bs, p4⟩ = .ok (e.norms, s5))
    (h6 : Embeddings.new e.storage e.vocab e.norms e.metadata = .ok e)
    (ha : ∀ xs len s1 m t s2, e.norms = some xs → readChunkHeader ⟨bs, p4⟩ = .ok (some (.ndNorms, len), s1) →
      readRequired [8, 4] s1 = .ok ([m, t], s2) → m - xs.length ≤ k) :
    ∃ c s', c ≤ bs.length + 24 + 4 * k ∧ Spends (Mem.loadFinalfusion T mmap) ⟨bs, 0⟩ e s' c := by
  obtain ⟨_, q1, r1⟩ := Costs.readHeader _ _ _ h1
  obtain ⟨_, q2, r2⟩ := Costs.loadMetaPart T _ _ _ h2
  obtain ⟨_, q3, r3⟩ := Costs.loadVocabPart c _ _ _ h3
  obtain ⟨_, q4, r4⟩ := Costs.loadStoragePart mmap _ _ _ h4
  rcases r1 with ⟨_, hf⟩ | ⟨c1, k1, r1⟩
  · exact hf.elim
  rcases r2 with ⟨_, hf⟩ | ⟨c2, k2, r2⟩
  · exact hf.elim
  rcases r3 with ⟨r3, _⟩ | ⟨c3, k3, r3⟩
  · obtain ⟨e, he⟩ := loadStoragePart_eof mmap ⟨bs, p3⟩ r3
    rw [he] at h4
    cases h4
  rcases r4 with ⟨_, hf⟩ | ⟨c4, k4, r4⟩
  · exact hf.elim
  simp only at k1 k2 k3 k4 q1 q2 q3 q4
  have r6 : Spends (MRd.of (Rd.lift (Embeddings.new e.storage e.vocab e.norms e.metadata))) s5 e s5 0 :=
    Spends.of (by rw [h6]; rfl)
  have fin : ∃ c5, min p4 bs.length + c5 ≤ bs.length + 12 + 4 * k ∧
      Spends Mem.loadNormsPart ⟨bs, p4⟩ e.norms s5 c5 := by
    cases hn : e.norms with
    | none =>
      rw [hn] at h5
      obtain ⟨c5, j1, j2, j3⟩ := Costs.loadNormsPart_none h5
      exact ⟨c5, by omega, j2⟩
    | some xs =>
      rw [hn] at h5
      obtain ⟨m, t, len, s1, s2, c5, j1, j2, j3, j4⟩ := Costs.loadNormsPart_some h5
      have := ha xs len s1 m t s2 hn j1 j2
      simp only at j3
      exact ⟨c5, by omega, j4⟩
  obtain ⟨c5, k5, r5⟩ := fin
  refine ⟨c1 + (c2 + (c3 + (c4 + (c5 + 0)))), s5, by omega, ?_⟩
  exact r1.bind (r2.bind (r3.bind (r4.bind (r5.bind r6))))

/-- With memory for the file, for two chunk headers and for what the norms chunk announces in vain, a file loads. -/
theorem load_spends {T : Toml} {mmap : Bool} {bs : Bytes} {e : Embeddings F32} {n : Nat}
    (hlen : bs.length + 4 < 2 ^ 63) (h : FileWith T mmap bs e n) :
    ∃ c s', c ≤ bs.length + 24 + 4 * (n - e.vocab.words.length) ∧
      Spends (Mem.loadFinalfusion T mmap) ⟨bs, 0⟩ e s' c := by
  obtain ⟨p1, p2, p3, p4, hh, m1, v1, t1, n1, t2, a⟩ := h
  obtain ⟨ids, c, s5, h1, h2, h3, h4, h5, h6⟩ := file_runs hlen hh m1 v1 t1 n1 t2
  refine parts_spend h1 h2 h3 h4 h5 h6 ?_
  intro xs len s1 m t s2 hx j1 j2
  rw [hx] at n1 a
  have := announced_read a j1 j2
  subst this
  obtain ⟨_, _, _, _, _, hw, _⟩ := n1
  rw [← hw]

/-- Written files announce what they contain. -/
theorem written_spends {T : Toml} {e : Embeddings F32} {ids : List Nat} {mb bs : Bytes}
    (h : EmbLayout T e ids mb bs) (hi0 : ids ≠ []) (hi1 : ids.length < 256 ^ 4)
    (hi2 : ∀ i ∈ ids, i < 256 ^ 4) (hw : EmbWF e)
    (hT : ∀ m str, e.metadata = some m → T.dumps m = .ok str → T.loads str = .ok m) :
    ∃ c s', c ≤ bs.length + 24 ∧ Spends (Mem.loadFinalfusion T false) ⟨bs, 0⟩ (canonEmb e) s' c := by
  have hsz := h.size
  obtain ⟨hmeta, heq, hvf, hvl, hsf, hsl, hnl, _⟩ := h
  generalize hH : headerEnc ids = H at *
  generalize hV : vocabEnc e.vocab = V at *
  generalize hS : storageEnc (H ++ mb ++ V).length e.storage = S at *
  generalize hN : normsEnc (H ++ mb ++ V ++ S).length e.norms = N at *
  have hsz' : H.length + mb.length + V.length + S.length + N.length < maxSize := by
    rw [heq] at hsz; simp only [List.length_append] at hsz; omega
  have h1 := readHeader_parses _ [] hi0 hi1 hi2
  rw [hH] at h1
  have h2 := loadMetaPart_parses hmeta hT H e.vocab.chunkId (vocabChunkId_ne _) _ hvl (by omega)
  have h3 := vocabRead_parses hw.vocab hvf hw.expl (H ++ (mb ++ chunkHead e.vocab.chunkId
    (vocabLen e.vocab)))
  rw [← loadVocabPart_eq] at h3
  have h4 := Steps.parses (loadStoragePart_head e.storage _ (H ++ mb ++ V) hsl)
    (readStorage_parses e.storage hw.storage hsf (H ++ mb ++ V) (by
      rw [hS]; simp only [List.length_append]; omega))
  rw [show chunkHead e.storage.chunkId (storageLen (padFloat32 ((H ++ mb ++ V).length + 4)) e.storage)
    ++ storageBody (padFloat32 ((H ++ mb ++ V).length + 4)) e.storage = S from hS] at h4
  obtain ⟨s', h5⟩ := loadNormsPart_ok e.norms (H ++ mb ++ V ++ S) hnl (by
    rw [hN]; simp only [List.length_append]; omega)
  rw [hN] at h5
  have hb1 : bs = [] ++ H ++ (mb ++ V ++ S ++ N) := by rw [heq]; simp
  have hb2 : bs = H ++ (mb ++ chunkHead e.vocab.chunkId (vocabLen e.vocab)) ++ (vocabBody e.vocab ++ S ++ N) := by
    rw [heq, ← hV]; simp [vocabEnc]
  have hb3 : bs = H ++ (mb ++ chunkHead e.vocab.chunkId (vocabLen e.vocab)) ++ vocabBody e.vocab ++ (S ++ N) := by
    rw [heq, ← hV]; simp [vocabEnc]
  have hb4 : bs = H ++ mb ++ V ++ S ++ N := by rw [heq]; simp
  have e4 : H ++ (mb ++ chunkHead e.vocab.chunkId (vocabLen e.vocab)) ++ vocabBody e.vocab
      = H ++ mb ++ V := by
    rw [← hV]; simp [vocabEnc]
  have h1 := h1 (mb ++ V ++ S ++ N)
  rw [← hb1] at h1
  have h2 := h2 (vocabBody e.vocab ++ S ++ N)
  rw [← hb2] at h2
  have h3 := h3 (S ++ N)
  rw [← hb3, e4] at h3
  have h4 := h4 N
  rw [← hb4] at h4
  rw [← hb4] at h5
  have := parts_spend (k := 0) (e := canonEmb e) h1 h2 h3 h4 h5 (embNew_canon hw) ?_
  · exact this
  · intro xs len s1 m t s2 hx j1 j2
    have hx : e.norms = some xs := hx
    have ha : Announced bs (H ++ mb ++ V ++ S).length (some xs) xs.length := by
      refine ⟨?_, ?_⟩
      · rw [uint_eq, hb4, ← hN, hx]
        unfold HasAt
        rw [← List.drop_drop, List.drop_left]
        unfold normsEnc
        rw [List.drop_append_of_le_length (by simp), List.drop_of_length_le (by simp), List.nil_append]
        unfold normsBody
        rw [packRaw_cons, List.append_assoc]
        exact List.prefix_append _ _
      · have := (hnl xs hx).1
        simpa using this
    have := announced_read ha j1 j2
    omega

/-! ### What cannot do with less -/

theorem Limits.ok {m : Rd α} {l : MRd α} (h : Limits m l) {b : Nat} {s s' : RFile} {a : α} (hm : m s = .ok (a, s')) :
    (∃ b', b' ≤ b ∧ l (b, s) = .ok (a, (b', s'))) ∨ l (b, s) = .error .memory := by
  rcases h b s with ⟨a', b', s1, h1, h2, h3⟩ | ⟨e, _, h3⟩ | h1
  · rw [hm] at h3
    cases h3
    exact .inl ⟨b', h1, h2⟩
  · rw [hm] at h3
    cases h3
  · exact .inr h1

/-- `l` always runs out of memory with less than `k` bytes. -/
def Needs (k : Nat) (l : MRd α) (s : RFile) : Prop := ∀ b, b < k → l (b, s) = .error .memory

theorem Needs.after {k : Nat} {m : Rd α} {l : MRd α} {g : α → MRd β} {s s' : RFile} {a : α} (h : Limits m l)
    (hm : m s = .ok (a, s')) (hg : Needs k (g a) s') : Needs k (l >>= g) s := by
  intro b hb
  rw [mrd_bind]
  rcases h.ok (b := b) hm with ⟨b', h1, h2⟩ | h1
  · rw [h2]
    exact hg b' (by omega)
  · rw [h1]

theorem Needs.first {k : Nat} {l : MRd α} {g : α → MRd β} {s : RFile} (h : Needs k l s) : Needs k (l >>= g) s := by
  intro b hb
  rw [mrd_bind, h b hb]

theorem Needs.read {n : Nat} {s : RFile} (hn : n < maxSize) : Needs n (Mem.read n) s := by
  intro b hb
  unfold Mem.read MRd.request
  rw [if_pos hn, if_neg (by simpa using hb)]

theorem Needs.fromFileF32 {n : Nat} {s : RFile} (hn : 4 * n < maxSize) : Needs (4 * n) (Mem.fromFileF32 n) s := by
  intro b hb
  unfold Mem.fromFileF32 MRd.request
  rw [if_pos hn, if_neg (by simpa using hb)]

theorem Needs.run {k : Nat} {l : MRd α} {bs : Bytes} (h : Needs k l ⟨bs, 0⟩) {M : Nat} (hM : M < k) :
    l.run M bs = .error .memory := by
  unfold MRd.run
  rw [h M hM]

theorem needs_readNorms {s s' : RFile} {xs : List F32} (h : FF.readNorms s = .ok (xs, s')) {n t : Nat} {s1 : RFile}
    (h1 : FF.readRequired [8, 4] s = .ok ([n, t], s1)) : Needs (4 * n) Mem.readNorms s := by
  obtain ⟨vs, s2, h2, h⟩ := rd_bind_inv h
  rw [h1] at h2
  cases h2
  refine Needs.after (Limits.readRequired _) h1 ?_
  simp only at h
  obtain ⟨ty, s2, h3, h⟩ := rd_bind_inv h
  refine Needs.after (Limits.of _) h3 ?_
  split at h
  · obtain ⟨_, _, h4, _⟩ := rd_bind_inv h; cases h4
  · rename_i hty
    rw [if_neg hty]
    obtain ⟨pos, s3, h4, h⟩ := rd_bind_inv h
    refine Needs.after (Limits.of _) h4 ?_
    obtain ⟨u, s4, h5, h⟩ := rd_bind_inv h
    refine Needs.after (Limits.of _) h5 ?_
    refine Needs.fromFileF32 ?_
    by_contra hn
    unfold FF.fromFileF32 at h
    rw [if_neg hn] at h
    split at h <;> cases h

theorem load_needs {T : Toml} {mmap : Bool} {bs : Bytes} {e : Embeddings F32} {n : Nat}
    (hlen : bs.length + 4 < 2 ^ 63) (h : FileWith T mmap bs e n) (hn : e.norms.isSome) :
    Needs (4 * n) (Mem.loadFinalfusion T mmap) ⟨bs, 0⟩ := by
  obtain ⟨p1, p2, p3, p4, hh, m1, v1, t1, n1, t2, a⟩ := h
  obtain ⟨ids, c, s5, h1, h2, h3, h4, h5, h6⟩ := file_runs hlen hh m1 v1 t1 n1 t2
  obtain ⟨xs, hxs⟩ := Option.isSome_iff_exists.mp hn
  refine Needs.after Limits.readHeader h1 (Needs.after (Limits.loadMetaPart T) h2 (Needs.after (Limits.loadVocabPart c) h3
    (Needs.after (Limits.loadStoragePart mmap) h4 (Needs.first ?_))))
  rw [hxs] at h5 a
  obtain ⟨m, t, len, s1, s2, c5, j1, j2, j3, j4⟩ := Costs.loadNormsPart_some h5
  have := announced_read a j1 j2
  subst this
  refine Needs.after Limits.readChunkHeader j1 (Needs.first ?_)
  obtain ⟨o, s6, h7, h8⟩ := rd_bind_inv h5
  rw [j1] at h7
  cases h7
  obtain ⟨ys, s7, h9, _⟩ := rd_bind_inv h8
  exact needs_readNorms h9 j2

end FF
