import Verif.Lemmas.FindChunk
import Verif.Spec.Samples
/-! C04: `find_chunk` locates the first requested chunk. -/

namespace FF

/-- A file with a header and a sequence of chunks with correct lengths, one of which is
wanted: the first such chunk in file order is found, wherever the file was before, and the file
is left at the content of that chunk. -/
theorem C04_finds_first (ids : List ChunkId) (hdrIds : List Nat) (hdr : Bytes)
    (before after : List (ChunkId × Bytes)) (c : ChunkId) (body : Bytes) (pos : Nat)
    (h0 : hdrIds ≠ []) (hw : (writeHeader hdrIds).file = (.ok (), hdr))
    (hb : ∀ p ∈ before, p.1 ∉ ids) (hc : c ∈ ids)
    (hl : (hdr ++ chunksBytes (before ++ (c, body) :: after)).length < maxSize) :
    ∃ p, findChunk ids ⟨hdr ++ chunksBytes (before ++ (c, body) :: after), pos⟩ =
        .ok (some c, ⟨hdr ++ chunksBytes (before ++ (c, body) :: after), p⟩) ∧
      (hdr ++ chunksBytes (before ++ (c, body) :: after)).drop p = body ++ chunksBytes after := by
  obtain ⟨h1, h2, h3, h4⟩ := writeHeader_inv hw
  rw [List.nil_append] at h1
  subst h1
  have e : ∀ l, chunksBytes (l ++ (c, body) :: after) =
      chunksBytes l ++ (packRaw [(4, c.toNat), (8, body.length)] ++ (body ++ chunksBytes after)) := by
    intro l
    induction l with
    | nil => simp [chunksBytes, chunkBytes_eq]
    | cons x l ih => obtain ⟨a, b⟩ := x; simp [chunksBytes, ih]
  rw [e] at hl ⊢
  refine ⟨_, findChunk_at ids hdrIds before c body.length _ pos h0 h2 h3 hb hc ?_ ?_, ?_⟩
  · simp only [List.length_append, maxSize] at hl; omega
  · simp only [List.length_append] at hl ⊢; omega
  · simp only [← List.append_assoc]
    rw [List.append_assoc _ body, List.drop_left]

theorem first_wanted (ids : List ChunkId) (cs : List (ChunkId × Bytes))
    (h : ¬ ∀ p ∈ cs, p.1 ∉ ids) : ∃ before c body after, cs = before ++ (c, body) :: after ∧
      c ∈ ids ∧ ∀ p ∈ before, p.1 ∉ ids := by
  induction cs with
  | nil => exact absurd (by simp) h
  | cons x cs ih =>
    obtain ⟨c, body⟩ := x
    by_cases hc : c ∈ ids
    · exact ⟨[], c, body, cs, rfl, hc, by simp⟩
    · obtain ⟨before, c', body', after, rfl, hc', hb⟩ := ih (by
        intro hn
        refine h fun p hp => ?_
        rcases List.mem_cons.mp hp with rfl | hp
        · exact hc
        · exact hn p hp)
      refine ⟨(c, body) :: before, c', body', after, rfl, hc', fun p hp => ?_⟩
      rcases List.mem_cons.mp hp with rfl | hp
      · exact hc
      · exact hb p hp

/-- `None` is returned if and only if no chunk of the file is wanted. -/
theorem C04_none (ids : List ChunkId) (hdrIds : List Nat) (hdr : Bytes)
    (chunks : List (ChunkId × Bytes)) (pos : Nat)
    (h0 : hdrIds ≠ []) (hw : (writeHeader hdrIds).file = (.ok (), hdr))
    (hl : (hdr ++ chunksBytes chunks).length < maxSize) :
    (∃ s', findChunk ids ⟨hdr ++ chunksBytes chunks, pos⟩ = .ok (none, s')) ↔
      ∀ p ∈ chunks, p.1 ∉ ids := by
  constructor
  · rintro ⟨s', h⟩
    by_contra hn
    obtain ⟨before, c, body, after, rfl, hc, hb⟩ := first_wanted ids chunks hn
    obtain ⟨p, hp, _⟩ := C04_finds_first ids hdrIds hdr _ _ _ _ pos h0 hw hb hc hl
    rw [hp] at h
    cases h
  · intro h
    obtain ⟨h1, h2, h3, h4⟩ := writeHeader_inv hw
    rw [List.nil_append] at h1
    subst h1
    exact ⟨_, findChunk_none ids hdrIds chunks pos h0 h2 h3 h hl⟩

/-- On any bytes whatsoever: the loop terminates (the iteration budget of the model, one more
than the number of bytes, is never exhausted), and only wanted identifiers are returned. -/
theorem C04_terminates (ids : List ChunkId) (bs : Bytes) (pos : Nat) :
    findChunk ids ⟨bs, pos⟩ ≠ .error .outOfFuel ∧
      ∀ c s', findChunk ids ⟨bs, pos⟩ = .ok (some c, s') → c ∈ ids ∧ s'.data = bs :=
  ⟨findChunk_fuel ids _, fun _ _ h => ⟨findChunk_mem h, findChunk_keeps _ _ _ _ h⟩⟩

/-! ### The hypotheses can be met -/

example : ∃ hdr, [5, 1] ≠ ([] : List Nat) ∧ (writeHeader [5, 1]).file = (.ok (), hdr) ∧
    (∀ p ∈ [(ChunkId.metadata, [(1 : UInt8), 2])], p.1 ∉ [ChunkId.simpleVocab, .ndArray]) ∧
    ChunkId.ndArray ∈ [ChunkId.simpleVocab, .ndArray] ∧
    (hdr ++ chunksBytes ([(ChunkId.metadata, [1, 2])] ++ (.ndArray, [3]) ::
      [(.simpleVocab, [])])).length < maxSize :=
  ⟨_, by decide, Sample.file_ok (by decide +kernel), by decide, by decide, by decide +kernel⟩

/-- Bytes on which the loop runs (and finally rejects an unknown identifier). -/
example : findChunk [.ndNorms] ⟨(writeHeader [6]).file.2 ++ chunkBytes .metadata [1, 2] ++
    [9, 9, 9, 9, 0, 0, 0, 0, 0, 0, 0, 0], 3⟩ = .error .valueError :=
  Sample.of_errOf (by decide +kernel)

end FF
