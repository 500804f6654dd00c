import Verif.Lemmas.LoadBuilt
import Verif.Lemmas.FfOne
import Verif.Props.C02
/-! C47: `Norms` only accepts one-dimensional float32 arrays. -/

namespace FF

/-- The constructor accepts exactly the one-dimensional arrays, of any element type. -/
theorem C47_accepts (a : NormArray) :
    (∀ b, normsNew a = .ok b ↔ a.ndim = 1 ∧ b = a) ∧
    (a.ndim ≠ 1 → normsNew a = .error .typeError) := by
  have h : normsNew a = if a.ndim ≠ 1 then .error .typeError else .ok a := by
    unfold normsNew issubdtypeF32
    congr 1
    simp
  rw [h]
  by_cases h1 : a.ndim = 1
  · simp [h1, eq_comm]
  · simp [h1]

theorem normArray_write (a : NormArray) (path : PyStr) :
    a.write path = writeFile path (writeStandalone .ndNorms
      (writeNormsRaw a.items.length a.items.flatten)) := by
  have : a.writeChunk = writeNormsRaw a.items.length a.items.flatten := by
    unfold NormArray.writeChunk serializeArrayAsLe tofile
    simp
  unfold NormArray.write chunkWrite
  rw [this]

/-- A `Norms` of float32 values is what `load_norms` returns for the file it was written to.
(Missing: other element types are accepted too, see `C47_float64` and `C47_refuted`.) -/
theorem C47_float32_partial (ns : List F32) (path : PyStr) (fs fs' : FS)
    (hw : (NormArray.mk .float32 1 (ns.map f32le)).write path fs = (.ok (), fs')) :
    normsNew ⟨.float32, 1, ns.map f32le⟩ = .ok ⟨.float32, 1, ns.map f32le⟩ ∧
    readFile path (Rd.run loadNorms) fs' = .ok ns := by
  refine ⟨(C47_accepts _).1 _ |>.mpr ⟨rfl, rfl⟩, ?_⟩
  have hp : (ns.map f32le).flatten = f32sLE ns := by
    clear hw
    induction ns with
    | nil => rfl
    | cons x xs ih => simp [f32sLE, ih]
  rw [normArray_write] at hw
  obtain ⟨bs, h1, rfl⟩ := writeFile_ok hw
  simp only [hp, List.length_map] at h1
  unfold readFile
  simp only [if_true]
  exact C02_norms ns _ h1

theorem normsRaw_inv {n : Nat} {b s s' : Bytes} {u : Unit} (h : writeNormsRaw n b s = (.ok u, s')) :
    s' = s ++ (chunkHead .ndNorms (12 + padFloat32 (s.length + 4) + 4 * n) ++
        (packRaw [(8, n), (4, 10)] ++ (zeros (padFloat32 (s.length + 4)) ++ b))) ∧ n < 256 ^ 8 ∧
      12 + padFloat32 (s.length + 4) + 4 * n < 256 ^ 8 ∧ s'.length < maxSize := by
  unfold writeNormsRaw at h
  obtain ⟨_, s1, h1, h⟩ := wr_bind_inv h
  obtain ⟨rfl, _, _⟩ := writeBinary_inv h1
  obtain ⟨p, s2, h2, h⟩ := wr_bind_inv h
  obtain ⟨rfl, rfl⟩ := wr_tell_inv h2
  have hpos : (s ++ packRaw [(4, ChunkId.ndNorms.toNat)]).length = s.length + 4 := by
    simp [calcsize]
  rw [hpos] at h
  obtain ⟨_, s3, h3, h⟩ := wr_bind_inv h
  obtain ⟨rfl, hr, _⟩ := writeBinary_inv h3
  obtain ⟨_, s4, h4, h⟩ := wr_bind_inv h
  obtain ⟨rfl, _⟩ := wr_bytes_inv h4
  obtain ⟨rfl, hl⟩ := wr_bytes_inv h
  simp only [calcsize, List.sum_cons, List.sum_nil, Nat.add_zero, Nat.reduceAdd] at hr hl ⊢
  refine ⟨?_, ?_, ?_, hl⟩
  · simp [chunkHead, packRaw, TypeId.toNat]
  · exact hr (8, n) (by simp)
  · exact hr (8, _) List.mem_cons_self

/-- Every one-dimensional float64 array is accepted.  Written, it occupies twice the declared
number of bytes, and `load_norms` returns the low and high halves of the first values as floats. -/
theorem C47_float64 (ps : List (F32 × F32)) (path : PyStr) (fs fs' : FS)
    (hw : (NormArray.mk .float64 1 (ps.map fun p => f32le p.1 ++ f32le p.2)).write path fs =
      (.ok (), fs')) :
    (∃ a, normsNew ⟨.float64, 1, ps.map fun p => f32le p.1 ++ f32le p.2⟩ = .ok a) ∧
    readFile path (Rd.run loadNorms) fs' =
      .ok ((ps.flatMap fun p => [p.1, p.2]).take ps.length) := by
  refine ⟨⟨_, (C47_accepts _).1 _ |>.mpr ⟨rfl, rfl⟩⟩, ?_⟩
  set hs : List F32 := ps.flatMap fun p => [p.1, p.2] with hhs
  have hlen : hs.length = 2 * ps.length := by
    rw [hhs]
    clear hw hhs hs
    induction ps with
    | nil => rfl
    | cons p ps ih => simp only [List.flatMap_cons, List.length_append, ih]; simp; omega
  have hp : (ps.map fun p => f32le p.1 ++ f32le p.2).flatten = f32sLE hs := by
    rw [hhs]
    clear hw hhs hlen hs
    induction ps with
    | nil => rfl
    | cons p ps ih => simp [f32sLE, ih]
  rw [normArray_write] at hw
  obtain ⟨bs, h1, rfl⟩ := writeFile_ok hw
  simp only [hp, List.length_map] at h1
  unfold readFile
  simp only [if_true]
  obtain ⟨e1, e2, e3, e4⟩ := normsRaw_inv (writeStandalone_inv h1)
  have htake : (hs.take ps.length).length = ps.length := by rw [List.length_take]; omega
  have hsplit : f32sLE hs = f32sLE (hs.take ps.length) ++ f32sLE (hs.drop ps.length) := by
    rw [← f32sLE_append, List.take_append_drop]
  have e5 : bs = headerEnc [ChunkId.ndNorms.toNat] ++
      (normsEnc (headerEnc [ChunkId.ndNorms.toNat]).length (some (hs.take ps.length)) ++
        f32sLE (hs.drop ps.length)) := by
    rw [e1, hsplit]
    unfold normsEnc normsBody normsLen
    simp only [htake, List.append_assoc]
  obtain ⟨s1, r1⟩ := loadNorms_at (n := hs.take ps.length) (hdr := [ChunkId.ndNorms.toNat])
    (cs := []) (post := f32sLE (hs.drop ps.length))
    (pos := 0) (p := headerEnc [ChunkId.ndNorms.toNat]) (by simp [chunksBytes])
    (by rw [htake]; exact e2) (by unfold normsLen; rw [htake]; exact e3) (by simp)
    (by simp) (by simpa using chunkId_toNat_lt .ndNorms) (by simp) (by
      rw [e5, ← List.append_assoc, List.length_append] at e4
      omega)
  simp only [chunksBytes, List.nil_append] at r1
  rw [e5]
  exact rd_run_of r1

/-- The claim fails: the float64 array `[1.0, 2.0]` is accepted, written, and read back as the
float32 values `[0.0, 1.875]`. -/
theorem C47_refuted : ∃ (a : NormArray) (path : PyStr) (fs fs' : FS), a.dtype = .float64 ∧
    a.items = [[0, 0, 0, 0, 0, 0, 0xF0, 0x3F], [0, 0, 0, 0, 0, 0, 0, 0x40]] ∧
    normsNew a = .ok a ∧ a.write path fs = (.ok (), fs') ∧
    readFile path (Rd.run loadNorms) fs' = .ok [0, 0x3FF00000] := by
  refine ⟨⟨.float64, 1, [(0, 0x3FF00000), (0, 0x40000000)].map fun p : F32 × F32 =>
    f32le p.1 ++ f32le p.2⟩, [97], fun _ => none, _, rfl, by decide +kernel, by decide +kernel,
    Prod.ext (by decide +kernel) rfl, ?_⟩
  exact (C47_float64 [(0, 0x3FF00000), (0, 0x40000000)] [97] (fun _ => none) _
    (Prod.ext (by decide +kernel) rfl)).2

/-- Number of bytes of one value. -/
def itemSize : NpType → Nat
  | .float16 => 2
  | .float32 | .int32 => 4
  | .float64 | .int64 => 8

open Fifu in
theorem normsFile_load {n : Nat} {b bs : Bytes} (hb : b.length + 48 < 2 ^ 63) (hn : 4 * n < 2 ^ 63)
    (h : writeNormsRaw n b (headerEnc [ChunkId.ndNorms.toNat]) = (.ok (), bs)) :
    bs.length = 44 + b.length ∧
    Rd.run loadNorms bs = .ok (f32sOf (b.take (4 * min n (b.length / 4)))) := by
  obtain ⟨e1, e2, e3, _⟩ := normsRaw_inv h
  have hh : (headerEnc [ChunkId.ndNorms.toNat]).length = 16 := by decide
  have hp : padFloat32 (16 + 4) = 4 := by decide
  rw [hh, hp] at e1 e3
  have hl : bs.length = 44 + b.length := by
    rw [e1]
    simp only [List.length_append, hh, length_chunkHead, zeros, List.length_replicate, packRaw,
      length_le, List.length_nil]
    omega
  refine ⟨hl, (loadNorms_iff (by omega)).mpr ⟨16, ?_⟩⟩
  have hat : HasAt bs 0 (headerEnc [ChunkId.ndNorms.toNat] ++
      (chunkHead .ndNorms (12 + 4 + 4 * n) ++ (packRaw [(8, n), (4, 10)] ++ (zeros 4 ++ b)))) := by
    unfold HasAt
    rw [List.drop_zero, ← e1]
  rw [hasAt_append, hasAt_append, hasAt_append, hasAt_append, hh, length_chunkHead] at hat
  obtain ⟨h0, h1, h2, _, h4⟩ := hat
  simp only [packRaw, List.append_nil, List.length_append, length_le, zeros, List.length_replicate,
    Nat.zero_add, Nat.reduceAdd] at h2 h4
  have hhead : Head bs 16 6 := by
    refine ⟨_, by simpa using e3, ?_⟩
    simp only [Nat.zero_add, chunkHead, packRaw, List.append_nil] at h1
    rw [uint_eq]
    exact h1
  have ht : (b.take (4 * min n (b.length / 4))).length = 4 * min n (b.length / 4) := by
    rw [List.length_take]; omega
  have hx : (f32sOf (b.take (4 * min n (b.length / 4)))).length = min n (b.length / 4) := by
    rw [length_f32sOf, ht]; omega
  refine ⟨⟨16, ⟨[6], by simp, by simp, by simp, ?_, rfl⟩, .found hhead (by simp)⟩, ?_⟩
  · rw [uint_eq]
    exact h0
  · refine ⟨n, 4, hhead, ?_, by unfold Pad; decide, rfl, ?_, hn, ?_⟩
    · rw [uint_eq]; exact h2
    · rw [floats_eq, f32sLE_f32sOf _ (by rw [ht]; omega)]
      exact (List.take_prefix _ _).trans h4
    · rw [hx, hl]; omega

/-- Every one-dimensional array is accepted and written as its memory.  `load_norms` takes that
for float32 values: it returns as many as there are items, or half as many if they are float16. -/
theorem C47_any (a : NormArray) (h1 : a.ndim = 1)
    (hi : ∀ b ∈ a.items, b.length = a.dtype.width) (hn : 8 * a.items.length + 48 < 2 ^ 63)
    (path : PyStr) (fs fs' : FS) (hw : a.write path fs = (.ok (), fs')) :
    normsNew a = .ok a ∧
    (∃ bs, fs' path = some bs ∧ bs.length = 44 + a.items.length * itemSize a.dtype) ∧
    ∃ ns, readFile path (Rd.run loadNorms) fs' = .ok ns ∧ f32sLE ns <+: a.items.flatten ∧
      ns.length = if a.dtype = .float16 then a.items.length / 2 else a.items.length := by
  refine ⟨(C47_accepts _).1 _ |>.mpr ⟨h1, rfl⟩, ?_⟩
  rw [normArray_write] at hw
  obtain ⟨bs, h2, rfl⟩ := writeFile_ok hw
  have hlen := length_flatten_const _ _ hi
  have hsz : a.dtype.width = itemSize a.dtype := by cases a.dtype <;> rfl
  rw [hsz] at hlen
  have hle : itemSize a.dtype ≤ 8 := by cases a.dtype <;> decide
  have hmul : a.items.length * itemSize a.dtype ≤ a.items.length * 8 := Nat.mul_le_mul_left _ hle
  obtain ⟨e1, e2⟩ := normsFile_load (by omega) (by omega) (writeStandalone_inv h2)
  refine ⟨⟨bs, by simp, by rw [e1, hlen]⟩,
    f32sOf (a.items.flatten.take (4 * min a.items.length (a.items.flatten.length / 4))), ?_, ?_, ?_⟩
  · unfold readFile
    simp only [if_true]
    exact e2
  · rw [f32sLE_f32sOf _ (by rw [List.length_take]; omega)]
    exact List.take_prefix _ _
  · rw [length_f32sOf, List.length_take, hlen]
    cases a.dtype <;> simp only [itemSize, reduceCtorEq, if_true, if_false] <;> omega

/-- Three float16 norms come back as one float32 value. -/
theorem C47_fewer : ∃ (a : NormArray) (path : PyStr) (fs fs' : FS), a.dtype = .float16 ∧
    a.items.length = 3 ∧ normsNew a = .ok a ∧ a.write path fs = (.ok (), fs') ∧
    ∃ x, readFile path (Rd.run loadNorms) fs' = .ok [x] := by
  refine ⟨⟨.float16, 1, [[0, 0x3C], [0, 0x40], [0, 0x42]]⟩, [97], fun _ => none, _, rfl, rfl,
    by decide +kernel, Prod.ext (by decide +kernel) rfl, 0x40003C00, ?_⟩
  decide +kernel

/-! ### The hypotheses can be met -/

example : ∃ fs', (NormArray.mk .int64 1 [[1, 0, 0, 0, 0, 0, 0, 0]]).write [97] (fun _ => none) =
    (.ok (), fs') ∧ ∀ b ∈ [[1, 0, 0, 0, 0, 0, 0, (0 : UInt8)]], b.length = NpType.int64.width :=
  ⟨_, Prod.ext (by decide +kernel) rfl, by decide⟩

example : ∃ fs', (NormArray.mk .float32 1 ([1, 2, 3].map f32le)).write [97] (fun _ => none) =
    (.ok (), fs') := ⟨_, Prod.ext (by decide +kernel) rfl⟩

example : normsNew ⟨.float32, 2, []⟩ = .error .typeError := by decide

end FF
