import Verif.Lemmas.HashSpec
import Verif.Spec.Built
/-! C18: `FinalfusionHashIndexer`: bulk and single lookups agree. -/

namespace FF

/-- For every indexer the constructor accepts and every offset that leaves room for the
buckets below `2^64`. -/
theorem C18_bulk (b mn mx : Int) (ix : FifuIndexer) (h : FifuIndexer.new b mn mx = .ok ix)
    (word : PyStr) (off : Nat) (ho : off + ix.upperBound ≤ 2 ^ 64) (br : Bool) :
    ∃ gs, ngrams word ix.minN ix.maxN br = .ok gs ∧
      ix.subwordIndices word (UInt64.ofNat off) br = gs.map (fun g => (g, off + ix.call g)) ∧
      ix.indices word (UInt64.ofNat off) br = gs.map (fun g => off + ix.call g) := by
  obtain ⟨_, _, _, h0, h1, _, _, h2⟩ := fifuNew_ok.mp h
  rw [ngrams_eq, if_pos ⟨h1, h0⟩]
  exact ⟨_, rfl, fifuSub_call _ ix h0 h2 word off ho br, fifuSub_call _ ix h0 h2 word off ho br⟩

/-- The offset condition is needed: `h` is a `uint64_t` and wraps around. -/
theorem C18_wraps : ∃ (ix : FifuIndexer) (w : PyStr) (gs : List PyStr) (off : Nat),
    FifuIndexer.new 63 3 6 = .ok ix ∧ off < 2 ^ 64 ∧ ngrams w ix.minN ix.maxN true = .ok gs ∧
      ix.indices w (UInt64.ofNat off) true ≠ gs.map (fun g => off + ix.call g) := by
  refine ⟨⟨63, 3, 6⟩, [⟨97, by decide⟩], _, 2 ^ 64 - 1, by decide +kernel, by decide, rfl, ?_⟩
  decide +kernel

example : ∃ ix, FifuIndexer.new 21 3 6 = .ok ix ∧ 1000 + ix.upperBound ≤ 2 ^ 64 ∧
    (ix.indices [⟨97, by decide⟩, ⟨0x1F600, by decide⟩] 1000 true).length = 3 :=
  ⟨⟨21, 3, 6⟩, by decide +kernel, by decide +kernel, by decide +kernel⟩

end FF
