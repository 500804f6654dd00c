import Verif.Lemmas.DamageRange
import Verif.Props.C103
/-! C109: damage to the lengths of n-grams in a file changes vectors of unknown words only. -/

namespace FF
open Fifu

/-- On any file with subwords that loads, take other bytes in the place of the lengths of n-grams.  If they are two
numbers `0 < mn ≤ mx`, the file loads with these lengths, and everything else is as before.  If not, loading fails with
an `AssertionError`. -/
theorem C109_range (T : Toml) (mmap : Bool) (bs : Bytes) (e : Embeddings F32)
    (hbs : bs.length + 4 < 2 ^ 63) (h : Rd.run (loadFinalfusion T mmap) bs = .ok e)
    (ix : Indexer) (hix : e.vocab.sub = some ix) :
    ∃ pos, HasAt bs pos (uint 4 ix.minN ++ uint 4 ix.maxN) ∧
      ∀ bs' mn mx, DiffersWithin bs bs' pos (pos + 8) → mn < 2 ^ 32 → mx < 2 ^ 32 →
        HasAt bs' pos (uint 4 mn ++ uint 4 mx) →
        (0 < mn ∧ mn ≤ mx →
          Rd.run (loadFinalfusion T mmap) bs' = .ok { e with vocab := e.vocab.withRange mn mx }) ∧
        (¬ (0 < mn ∧ mn ≤ mx) → Rd.run (loadFinalfusion T mmap) bs' = .error .assertionError) := by
  obtain ⟨p1, p2, p3, p4, a1, a2, a3, a4, a5, a6⟩ := (loadFinalfusion_iff T mmap bs e hbs).mp h
  obtain ⟨pos, v1, v2, v3, v4⟩ := vocab_range a3 hix
  refine ⟨pos, v3, fun bs' mn mx hd l1 l2 hat => ?_⟩
  obtain ⟨hb, hf, k1, c, k2, k3, k4⟩ := v4 bs' mn mx hd l1 l2 hat
  have hbs' : bs'.length + 4 < 2 ^ 63 := by rw [hd.1]; exact hbs
  have b1 := hb.header a1 (metaAt_le a2)
  have b2 := hb.meta a2 (Nat.le_refl _)
  refine ⟨fun hr => ?_, fun hr => load_vocab_error hbs' b1 b2 k2 k3 (k4 hr)⟩
  refine (loadFinalfusion_iff T mmap bs' _ hbs').mpr ⟨p1, p2, p3, p4, b1, b2, k1 hr,
    hf.storage a4 (Nat.le_refl _), hf.norms a5 (storageAt_le a4), ?_⟩
  intro hm h0
  rw [hf.1]
  exact a6 hm h0

/-- The words of the vocabulary have the same vectors and norms, whatever the lengths of n-grams. -/
theorem C109_words {K : Type} [NumOps K] (e : Embeddings K) (he : BuiltEmb e) (mn mx : Nat) (w : PyStr)
    (hw : w ∈ e.vocab.words) :
    ({ e with vocab := e.vocab.withRange mn mx } : Embeddings K).embedding w = e.embedding w ∧
    ({ e with vocab := e.vocab.withRange mn mx } : Embeddings K).embeddingWithNorm w = e.embeddingWithNorm w := by
  obtain ⟨hnd, hv⟩ := Vocab.new_ok.mp he.vocab.2
  obtain ⟨i, hi⟩ := List.mem_iff_getElem?.mp hw
  have hget : Dict.get? e.vocab.index w = some i := by
    rw [show e.vocab.index = enumItems e.vocab.words by rw [hv]]
    exact (get?_enumItems hnd).mpr hi
  have h1 : (e.vocab.withRange mn mx).idx w = e.vocab.idx w := by
    unfold Vocab.idx
    have : (e.vocab.withRange mn mx).index = e.vocab.index := rfl
    rw [this, hget]
    cases e.vocab.sub <;> cases (e.vocab.withRange mn mx).sub <;> rfl
  constructor
  · unfold Embeddings.embedding
    show ((e.vocab.withRange mn mx).idx w >>= _) = _
    rw [h1]
    rfl
  · unfold Embeddings.embeddingWithNorm
    show (match e.norms with | none => _ | some _ => (e.vocab.withRange mn mx).idx w >>= _) = _
    rw [h1]
    rfl

/-! ### The hypotheses can be met -/

/-- The word `a` and two buckets, with n-grams of lengths 3 to 6. -/
def C109_sample : Embeddings F32 :=
  ⟨.nd ⟨1, [[0x3F800000], [0x40000000], [0x40400000]]⟩,
    ⟨[[97]], enumItems [[97]], some (.fifu ⟨1, 3, 6⟩)⟩, none, none⟩

theorem C109_sample_built : BuiltEmb C109_sample :=
  ⟨⟨(by intro ix h; cases h; exact .fifu (b := 1) (mn := 3) (mx := 6) (by decide)), by decide⟩,
    ⟨by unfold Mat.WF; decide, by unfold ShapeOk; decide⟩,
    embNew_iff.mpr ⟨rfl, by decide, (by intro _ h; cases h)⟩⟩

/-- Lengths 4 to 6, 7 to 6 and 0 to 6 in the place of 3 to 6 -/
example : ∃ bs pos, (C109_sample.write Sample.toml).file = (.ok (), bs) ∧
    Rd.run (loadFinalfusion Sample.toml false) bs = .ok C109_sample ∧ bs[pos]? = some 3 ∧
    Rd.run (loadFinalfusion Sample.toml false) (bs.set pos 4) =
      .ok { C109_sample with vocab := ⟨[[97]], enumItems [[97]], some (.fifu ⟨1, 4, 6⟩)⟩ } ∧
    Rd.run (loadFinalfusion Sample.toml false) (bs.set pos 7) = .error .assertionError ∧
    Rd.run (loadFinalfusion Sample.toml false) (bs.set pos 0) = .error .assertionError := by
  have hw : (C109_sample.write Sample.toml).file = (.ok (), (C109_sample.write Sample.toml).file.2) :=
    Sample.file_ok (by decide +kernel)
  have hbs : (C109_sample.write Sample.toml).file.2.length + 4 < 2 ^ 63 := by decide +kernel
  generalize (C109_sample.write Sample.toml).file.2 = bs at hw hbs
  have hl := C01_roundtrip_eq Sample.toml C109_sample bs C109_sample_built (by intro m s h; cases h) hw
    (by intro ix h; cases h)
  obtain ⟨pos, hat, hall⟩ := C109_range Sample.toml false bs _ hbs hl _ rfl
  have hget := hasAt_iff_get.mp hat
  have h0 : bs[pos]? = some 3 := hget 0 (by decide)
  have hlt := (List.getElem?_eq_some_iff.mp h0).1
  have hset : ∀ b : UInt8, DiffersWithin bs (bs.set pos b) pos (pos + 8) ∧
      HasAt (bs.set pos b) pos (uint 4 b.toNat ++ uint 4 6) := by
    intro b
    refine ⟨⟨by simp, fun i hi => List.getElem?_set_ne (by omega)⟩, hasAt_iff_get.mpr fun i hi => ?_⟩
    have hb := b.toNat_lt
    have hu : uint 4 b.toNat = [b, 0, 0, 0] := by
      have d1 : b.toNat / 256 = 0 := by omega
      have d2 : b.toNat / 65536 = 0 := by omega
      have d3 : b.toNat / 16777216 = 0 := by omega
      simp [uint, List.range_succ, d1, d2, d3]
    have he : uint 4 b.toNat ++ uint 4 6 = (uint 4 3 ++ uint 4 6).set 0 b := by rw [hu]; rfl
    cases i with
    | zero =>
      simp only [he]
      rw [Nat.add_zero, List.getElem?_set_self hlt]
      simp [uint]
    | succ i =>
      have hi' : i + 1 < (uint 4 3 ++ uint 4 6).length := by simpa using hi
      simp only [he]
      rw [List.getElem?_set_ne (by omega), List.getElem_set_ne (by omega)]
      exact hget (i + 1) hi'
  refine ⟨bs, pos, hw, hl, h0, ?_, ?_, ?_⟩
  · exact (hall _ 4 6 (hset 4).1 (by decide) (by decide) (hset 4).2).1 (by decide)
  · exact (hall _ 7 6 (hset 7).1 (by decide) (by decide) (hset 7).2).2 (by decide)
  · exact (hall _ 0 6 (hset 0).1 (by decide) (by decide) (hset 0).2).2 (by decide)

example : BuiltEmb C109_sample ∧ [97] ∈ C109_sample.vocab.words ∧
    @Embeddings.embedding F32 b32Ops C109_sample [97] = .ok (some [0x3F800000]) :=
  ⟨C109_sample_built, by decide, by decide +kernel⟩

/-- Vectors of unknown words are not kept: `b` loses its vector with n-grams of lengths 4 to 6. -/
theorem C109_unknown_refuted : ∃ (e : Embeddings F32) (mn mx : Nat) (w : PyStr), BuiltEmb e ∧ 0 < mn ∧ mn ≤ mx ∧
    w ∉ e.vocab.words ∧ ∃ v, @Embeddings.embedding F32 b32Ops e w = .ok (some v) ∧
    @Embeddings.embedding F32 b32Ops { e with vocab := e.vocab.withRange mn mx } w = .ok none := by
  refine ⟨C109_sample, 4, 6, [98], C109_sample_built, by decide, by decide, by decide, ?_⟩
  have key : ∀ r : Res (Option (List F32)), (match r with | .ok (some _) => true | _ => false) = true →
      ∃ v, r = .ok (some v) := by
    intro r h
    match r with
    | .ok (some v) => exact ⟨v, rfl⟩
    | .ok none => cases h
    | .error _ => cases h
  obtain ⟨v, hv⟩ := key (@Embeddings.embedding F32 b32Ops C109_sample [98]) (by decide +kernel)
  exact ⟨v, hv, by decide +kernel⟩

end FF
