import Verif.Lemmas.MemoryFile
import Verif.Props.C61
/-!
# C82: the memory that loading a finalfusion file requests

`MRd.run l M bs`: the loader `l` with a budget of `M` bytes, from which the buffers of `file.read` and `np.fromfile` are
taken.
-/

namespace FF

/-- A small budget never changes the result: the loader with a budget returns what the loader without one returns,
exceptions included, or runs out of memory. -/
theorem C82_same (T : Toml) (mmap : Bool) (M : Nat) (bs : Bytes) :
    (MRd.run (Mem.loadFinalfusion T mmap) M bs = (Rd.run (loadFinalfusion T mmap) bs).mapError .py ∨
      MRd.run (Mem.loadFinalfusion T mmap) M bs = .error .memory) ∧
    (MRd.run Mem.loadVocab M bs = (Rd.run loadVocab bs).mapError .py ∨ MRd.run Mem.loadVocab M bs = .error .memory) ∧
    (MRd.run (Mem.loadStorage mmap) M bs = (Rd.run (loadStorage mmap) bs).mapError .py ∨
      MRd.run (Mem.loadStorage mmap) M bs = .error .memory) ∧
    (MRd.run Mem.loadNorms M bs = (Rd.run loadNorms bs).mapError .py ∨ MRd.run Mem.loadNorms M bs = .error .memory) ∧
    (MRd.run (Mem.loadMetadata T) M bs = (Rd.run (loadMetadata T) bs).mapError .py ∨
      MRd.run (Mem.loadMetadata T) M bs = .error .memory) :=
  ⟨(Limits.loadFinalfusion T mmap).run M bs, Limits.loadVocab.run M bs, (Limits.loadStorage mmap).run M bs,
    Limits.loadNorms.run M bs, (Limits.loadMetadata T).run M bs⟩

/-- Files in the format load with the memory of their own size and 24 bytes, and four bytes for every norm that the norms
chunk announces without having it.
(Missing: a bound by the size of the file alone, see `C82_norms_refuted`.) -/
theorem C82_load_partial (T : Toml) (mmap : Bool) (bs : Bytes) (e : Embeddings F32) (n M : Nat)
    (hbs : bs.length + 4 < 2 ^ 63) (h : Fifu.FileWith T mmap bs e n)
    (hM : bs.length + 24 + 4 * (n - e.vocab.words.length) ≤ M) :
    MRd.run (Mem.loadFinalfusion T mmap) M bs = .ok e := by
  obtain ⟨c, s', hc, hs⟩ := load_spends hbs h
  exact hs.run (by omega)

/-- Every file that loads is of this kind. -/
theorem C82_with (T : Toml) (mmap : Bool) (bs : Bytes) (e : Embeddings F32) (hbs : bs.length + 4 < 2 ^ 63) :
    Rd.run (loadFinalfusion T mmap) bs = .ok e ↔ ∃ n, Fifu.FileWith T mmap bs e n := by
  rw [C61_load T mmap bs e hbs]
  constructor
  · rintro ⟨p1, p2, p3, p4, h1, h2, h3, h4, h5, h6⟩
    cases hn : e.norms with
    | none => exact ⟨0, p1, p2, p3, p4, h1, h2, h3, h4, h5, h6, by rw [hn]; rfl⟩
    | some xs =>
      have h5' := h5
      rw [hn] at h5'
      obtain ⟨n, pad, _, k2, _, _, _, k6, _⟩ := h5'
      exact ⟨n, p1, p2, p3, p4, h1, h2, h3, h4, h5, h6, by rw [hn]; exact ⟨(hasAt_append.mp k2).1, by omega⟩⟩
  · rintro ⟨n, p1, p2, p3, p4, h1, h2, h3, h4, h5, h6, _⟩
    exact ⟨p1, p2, p3, p4, h1, h2, h3, h4, h5, h6⟩

/-- Written files load with the memory of their own size and 24 bytes. -/
theorem C82_written (T : Toml) (e : Embeddings F32) (bs : Bytes) (M : Nat) (he : BuiltEmb e) (hg : HasNgrams e.vocab)
    (hT : TomlOk T e.metadata) (hw : (e.write T).file = (.ok (), bs)) (hM : bs.length + 24 ≤ M) :
    ∃ e', MRd.run (Mem.loadFinalfusion T false) M bs = .ok e' ∧ SameEmb e e' := by
  obtain ⟨mb, h⟩ := embWrite_inv hw
  have hwf := he.wf hg
  obtain ⟨c, s', hc, hs⟩ := written_spends h (chunkIds_ne e) (chunkIds_len e) (chunkIds_lt e) hwf hT
  exact ⟨_, hs.run (by omega), canonEmb_same hwf h⟩

/-- The announced norms are allocated, whether they are there or not. -/
theorem C82_needs (T : Toml) (mmap : Bool) (bs : Bytes) (e : Embeddings F32) (n M : Nat)
    (hbs : bs.length + 4 < 2 ^ 63) (h : Fifu.FileWith T mmap bs e n) (hn : e.norms.isSome) (hM : M < 4 * n) :
    MRd.run (Mem.loadFinalfusion T mmap) M bs = .error .memory :=
  (load_needs hbs h hn).run hM

/-- Storage -/
theorem C82_storage (mmap : Bool) (bs : Bytes) (st : Storage F32) (M : Nat)
    (h : Rd.run (loadStorage mmap) bs = .ok st) (hM : bs.length + 12 ≤ M) :
    MRd.run (Mem.loadStorage mmap) M bs = .ok st := by
  obtain ⟨s', h⟩ := rd_run_iff.mp h
  obtain ⟨c, hc, hs⟩ := Costs.loadStorage mmap h
  exact hs.run (by omega)

/-- Metadata -/
theorem C82_metadata (T : Toml) (bs : Bytes) (m : Meta) (M : Nat)
    (h : Rd.run (loadMetadata T) bs = .ok m) (hM : bs.length + 24 ≤ M) :
    MRd.run (Mem.loadMetadata T) M bs = .ok m := by
  obtain ⟨s', h⟩ := rd_run_iff.mp h
  obtain ⟨c, hc, hs⟩ := Costs.loadMetadata T h
  exact hs.run (by omega)

/-- Vocabularies that are not the last thing in the file.
(Missing: the others, see `C82_vocab_refuted`.) -/
theorem C82_vocab_partial (bs : Bytes) (v : Vocab) (s' : RFile) (M : Nat) (h : loadVocab ⟨bs, 0⟩ = .ok (v, s'))
    (hp : s'.pos < bs.length) (hM : bs.length + 12 ≤ M) : MRd.run Mem.loadVocab M bs = .ok v := by
  rcases Costs.loadVocab h with hf | ⟨c, hc, hs⟩
  · omega
  · exact hs.run (by omega)

/-! ### Violations -/

theorem hasAt_mono {a b x : Bytes} {p : Nat} (h : Fifu.HasAt a p x) : Fifu.HasAt (a ++ b) p x := by
  unfold Fifu.HasAt at *
  rw [List.drop_append]
  exact h.trans (List.prefix_append _ _)

namespace Sample

/-- One word and one norm, but the norms chunk announces `n` -/
def vainNorms (n : Nat) : Bytes :=
  oddFile ++ ([6, 0, 0, 0, 0, 0, 0, 0, 0, 0, 0, 0] ++ (Fifu.uint 8 n ++ ([10, 0, 0, 0, 0, 0, 0, 0] ++ [0, 0, 128, 63])))

def vainEmb : Embeddings F32 := { oddEmb with norms := some [0x3f800000] }

theorem vainNorms_file (n : Nat) (h1 : 1 ≤ n) (hn : 4 * n < 2 ^ 63) :
    Fifu.FileWith toml true (vainNorms n) vainEmb n := by
  have hu : (Fifu.uint 8 n).length = 8 := by simp [Fifu.uint]
  have hat : ∀ k, 76 ≤ k → (vainNorms n).drop k = ([6, 0, 0, 0, 0, 0, 0, 0, 0, 0, 0, 0] ++ (Fifu.uint 8 n ++
      ([10, 0, 0, 0, 0, 0, 0, 0] ++ [0, 0, 128, 63])) : Bytes).drop (k - 76) := by
    intro k hk
    unfold vainNorms
    rw [List.drop_append, List.drop_of_length_le (by rw [show oddFile.length = 76 from rfl]; exact hk),
      show oddFile.length = 76 from rfl, List.nil_append]
  have hl : (vainNorms n).length = 108 := by
    unfold vainNorms
    simp only [List.length_append, hu]
    rfl
  have hn' : Fifu.HasAt (vainNorms n) 88 (Fifu.uint 8 n ++ Fifu.uint 4 10) := by
    unfold Fifu.HasAt
    rw [hat 88 (by decide), show 88 - 76 = ([6, 0, 0, 0, 0, 0, 0, 0, 0, 0, 0, 0] : Bytes).length from rfl, List.drop_left]
    exact ⟨[0, 0, 0, 0, 0, 0, 128, 63], by
      rw [show Fifu.uint 4 10 = [10, 0, 0, 0] by decide, List.append_assoc]; rfl⟩
  refine ⟨16, 16, 41, 76, ⟨[9], by decide, by decide, by decide, hasAt_mono (by decide +kernel), rfl⟩, rfl,
    .simple ⟨77, by decide, hasAt_mono (by decide +kernel)⟩ (hasAt_mono (by decide +kernel))
      ⟨by decide, by
        intro w hw
        rw [List.mem_singleton] at hw
        subst hw
        exact ⟨any_surrogate.mp (by decide), by decide⟩, by decide, hasAt_mono (by decide +kernel), by decide +kernel⟩,
    .nd (pad := 3) ⟨78, by decide, hasAt_mono (by decide +kernel)⟩ (hasAt_mono (by decide +kernel)) (by decide) (by decide)
      (by decide) (by unfold ShapeOk; decide) (by unfold Fifu.Pad; decide) (hasAt_mono (by decide +kernel)) (by decide),
    ⟨n, 4, ⟨0, by decide, ?_⟩, hn', by unfold Fifu.Pad; decide, rfl, ?_, hn, ?_⟩, ?_, (hasAt_append.mp hn').1, by omega⟩
  · unfold Fifu.HasAt
    rw [hat 76 (by decide)]
    exact ⟨Fifu.uint 8 n ++ ([10, 0, 0, 0, 0, 0, 0, 0] ++ [0, 0, 128, 63]), by
      rw [show Fifu.uint 4 6 ++ Fifu.uint 8 0 = [6, 0, 0, 0, 0, 0, 0, 0, 0, 0, 0, 0] by decide]; rfl⟩
  · unfold Fifu.HasAt
    rw [hat _ (by decide), show 76 + 24 + 4 - 76 = ([6, 0, 0, 0, 0, 0, 0, 0, 0, 0, 0, 0] : Bytes).length + 16 from rfl,
      ← List.drop_drop, List.drop_left, show 16 = (Fifu.uint 8 n).length + 8 by rw [hu], ← List.drop_drop, List.drop_left]
    decide +kernel
  · rw [hl]
    have : vainEmb.vocab.words.length = 1 := rfl
    omega
  · intro _ h
    have : ¬ Fifu.Empty vainEmb.storage := show ¬ 1 * 1 = 0 by decide
    exact absurd h this

end Sample

/-- No multiple of the size of the file is enough: a file of 108 bytes loads, but needs any amount of memory. -/
theorem C82_norms_refuted (mmap : Bool) (n : Nat) (h1 : 1 ≤ n) (hn : 4 * n < 2 ^ 63) :
    ∃ bs e, bs.length = 108 ∧ Rd.run (loadFinalfusion Sample.toml mmap) bs = .ok e ∧
      ∀ M, M < 4 * n → MRd.run (Mem.loadFinalfusion Sample.toml mmap) M bs = .error .memory := by
  have hl : (Sample.vainNorms n).length = 108 := by
    unfold Sample.vainNorms
    simp only [List.length_append, show (Fifu.uint 8 n).length = 8 by simp [Fifu.uint]]
    rfl
  have hf : Fifu.FileWith Sample.toml mmap (Sample.vainNorms n) Sample.vainEmb n := by
    obtain ⟨p1, p2, p3, p4, k1, k2, k3, k4, k5, k6, k7⟩ := Sample.vainNorms_file n h1 hn
    exact ⟨p1, p2, p3, p4, k1, k2, k3, k4, k5, fun _ => k6 rfl, k7⟩
  exact ⟨_, _, hl, (C82_with _ _ _ _ (by rw [hl]; decide)).mpr ⟨n, hf⟩, fun M hM =>
    C82_needs _ _ _ _ n M (by rw [hl]; decide) hf rfl hM⟩

theorem load_header_error {T : Toml} {mmap : Bool} {bs : Bytes} {e : PyErr} (h : readHeader ⟨bs, 0⟩ = .error e) :
    Rd.run (loadFinalfusion T mmap) bs = .error e := by
  unfold Rd.run loadFinalfusion
  rw [rd_bind_error h]

/-- `FiFu`, version 0, and a number of chunks, but no chunks -/
def Sample.vainChunks : Bytes := [0x46, 0x69, 0x46, 0x75, 0, 0, 0, 0, 255, 255, 255, 255]

/-- Twelve bytes that are no finalfusion file request 16 GiB before they are rejected. -/
theorem C82_malformed_refuted (T : Toml) (mmap : Bool) :
    Rd.run (loadFinalfusion T mmap) Sample.vainChunks = .error .formatError ∧
    ∀ M, M < 2 ^ 34 - 4 → MRd.run (Mem.loadFinalfusion T mmap) M Sample.vainChunks = .error .memory := by
  have e1 : read 4 ⟨Sample.vainChunks, 0⟩ = .ok (magic, ⟨Sample.vainChunks, 4⟩) := by decide +kernel
  have e2 : readOne 4 ⟨Sample.vainChunks, 4⟩ = .ok (version, ⟨Sample.vainChunks, 8⟩) := by decide +kernel
  obtain ⟨n, hn, e3⟩ : ∃ n, 4 * n = 2 ^ 34 - 4 ∧ readOne 4 ⟨Sample.vainChunks, 8⟩ = .ok (n, ⟨Sample.vainChunks, 12⟩) :=
    ⟨4294967295, by decide, by decide +kernel⟩
  have hc : calcsize (List.replicate n 4) < maxSize := by
    rw [calcsize_replicate, hn]
    decide
  constructor
  · have e4 : readBinary (List.replicate n 4) ⟨Sample.vainChunks, 12⟩ = .ok (none, ⟨Sample.vainChunks, 12⟩) := by
      unfold readBinary
      rw [rd_bind_ok (read_eof _ _ (by decide) hc)]
      rfl
    have : readHeader ⟨Sample.vainChunks, 0⟩ = .error .formatError := by
      unfold readHeader
      rw [rd_bind_ok e1]
      show (readOne 4 >>= _) _ = _
      rw [rd_bind_ok e2]
      show (readOne 4 >>= _) _ = _
      rw [rd_bind_ok e3]
      unfold readRequired
      rw [rd_bind_ok e4]
      rfl
    exact load_header_error this
  · intro M hM
    refine Needs.run (k := 2 ^ 34 - 4) (Needs.first ?_) hM
    refine Needs.after (Limits.read 4) e1 ?_
    rw [if_neg (by simp)]
    refine Needs.after (Limits.readOne 4) e2 ?_
    rw [if_neg (by simp)]
    refine Needs.after (Limits.readOne 4) e3 ?_
    refine Needs.first (Needs.first ?_)
    have := Needs.read (s := ⟨Sample.vainChunks, 12⟩) hc
    rw [calcsize_replicate, hn] at this
    rw [calcsize_replicate, hn]
    exact this

/-- One word of which the first byte is there -/
def Sample.vainWord : Bytes :=
  [0x46, 0x69, 0x46, 0x75, 0, 0, 0, 0, 1, 0, 0, 0, 1, 0, 0, 0] ++
  [1, 0, 0, 0, 0, 0, 0, 0, 0, 0, 0, 0, 1, 0, 0, 0, 0, 0, 0, 0, 255, 255, 255, 255, 97]

/-- `load_vocab` accepts a last word that is cut off, and requests 4 GiB for a file of 41 bytes. -/
theorem C82_vocab_refuted :
    Sample.vainWord.length = 41 ∧ Rd.run loadVocab Sample.vainWord = .ok ⟨[[97]], [([97], 0)], none⟩ ∧
    ∀ M, M < 2 ^ 32 - 1 → MRd.run Mem.loadVocab M Sample.vainWord = .error .memory := by
  have e1 : findChunk [.simpleVocab, .fastTextVocab, .explicitVocab, .bucketVocab] ⟨Sample.vainWord, 0⟩ =
      .ok (some .simpleVocab, ⟨Sample.vainWord, 28⟩) := by decide +kernel
  have e2 : readOne 8 ⟨Sample.vainWord, 28⟩ = .ok (1, ⟨Sample.vainWord, 36⟩) := by decide +kernel
  have e3 : readOne 4 ⟨Sample.vainWord, 36⟩ = .ok (4294967295, ⟨Sample.vainWord, 40⟩) := by decide +kernel
  refine ⟨rfl, by decide +kernel, ?_⟩
  intro M hM
  refine Needs.run (k := 2 ^ 32 - 1) ?_ hM
  refine Needs.after (Limits.findChunk _) e1 ?_
  refine Needs.after (Limits.readOne 8) e2 (Needs.first ?_)
  refine Needs.after (Limits.readOne 4) e3 (Needs.first ?_)
  exact Needs.read (by decide)

/-! ### The hypotheses can be met -/

example : MRd.run (Mem.loadFinalfusion Sample.toml true) 132 (Sample.vainNorms 1) = .ok Sample.vainEmb :=
  C82_load_partial _ _ _ _ 1 _ (by decide +kernel) (Sample.vainNorms_file 1 (by decide) (by decide)) (by decide +kernel)

example : ∃ e', MRd.run (Mem.loadFinalfusion Sample.toml false) (((Sample.embExpl.write Sample.toml).file).2.length + 24)
    ((Sample.embExpl.write Sample.toml).file).2 = .ok e' ∧ SameEmb Sample.embExpl e' :=
  C82_written _ _ _ _ Sample.builtEmbExpl Sample.ngExpl Sample.tomlExpl (Sample.file_ok Sample.writeExpl) (le_refl _)

example : MRd.run (Mem.loadFinalfusion Sample.toml true) 399 (Sample.vainNorms 100) = .error .memory :=
  C82_needs _ _ _ _ 100 _ (by decide +kernel) (Sample.vainNorms_file 100 (by decide) (by decide)) rfl (by decide)

example : ∃ st, Rd.run (loadStorage true) ((Sample.embFt.write Sample.toml).file).2 = .ok st ∧
    MRd.run (Mem.loadStorage true) (((Sample.embFt.write Sample.toml).file).2.length + 12)
      ((Sample.embFt.write Sample.toml).file).2 = .ok st := by
  obtain ⟨st, h⟩ := Sample.ok_of_errOf (r := Rd.run (loadStorage true) ((Sample.embFt.write Sample.toml).file).2)
    (by decide +kernel)
  exact ⟨st, h, C82_storage true _ st _ h (le_refl _)⟩

example : ∃ m, Rd.run (loadMetadata Sample.toml) ((Sample.embFt.write Sample.toml).file).2 = .ok m ∧
    MRd.run (Mem.loadMetadata Sample.toml) (((Sample.embFt.write Sample.toml).file).2.length + 24)
      ((Sample.embFt.write Sample.toml).file).2 = .ok m := by
  obtain ⟨m, h⟩ := Sample.ok_of_errOf
    (r := Rd.run (loadMetadata Sample.toml) ((Sample.embFt.write Sample.toml).file).2) (by decide +kernel)
  exact ⟨m, h, C82_metadata _ _ m _ h (le_refl _)⟩

example : ∃ v s', loadVocab ⟨((Sample.embFt.write Sample.toml).file).2, 0⟩ = .ok (v, s') ∧
    MRd.run Mem.loadVocab (((Sample.embFt.write Sample.toml).file).2.length + 12)
      ((Sample.embFt.write Sample.toml).file).2 = .ok v := by
  have h : (match loadVocab ⟨((Sample.embFt.write Sample.toml).file).2, 0⟩ with
    | .ok p => decide (p.2.pos < ((Sample.embFt.write Sample.toml).file).2.length)
    | .error _ => false) = true := by decide +kernel
  split at h
  · rename_i p hp
    exact ⟨p.1, p.2, hp, C82_vocab_partial _ _ p.2 _ hp (of_decide_eq_true h) (le_refl _)⟩
  · cases h

end FF
