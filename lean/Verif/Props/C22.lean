import Verif.Lemmas.HashSpec
/-! C22: hash indexers stay inside their bucket range. -/

namespace FF

theorem C22_fifu_call (b mn mx : Int) (ix : FifuIndexer) (h : FifuIndexer.new b mn mx = .ok ix)
    (g : PyStr) : ix.call g < ix.upperBound ∧ ix.upperBound = 2 ^ b.toNat := by
  obtain ⟨hb, _, _, _, _, _, _, h2⟩ := fifuNew_ok.mp h
  refine ⟨fifuCall_lt ix h2 g, ?_⟩
  unfold FifuIndexer.upperBound
  congr 1
  omega

theorem C22_ft_call (b mn mx : Int) (ix : FtIndexer) (h : FtIndexer.new b mn mx = .ok ix)
    (g : PyStr) (n : Nat) (hc : ix.call g = .ok n) : n < ix.upperBound ∧ (ix.upperBound : Int) = b := by
  obtain ⟨hb, _, _, _, _, _, h2, _⟩ := ftNew_ok.mp h
  exact ⟨ftCall_lt h2 hc, hb⟩

theorem C22_fifu_bulk (b mn mx : Int) (ix : FifuIndexer) (h : FifuIndexer.new b mn mx = .ok ix)
    (word : PyStr) (off : Nat) (ho : off + ix.upperBound ≤ 2 ^ 64) (br : Bool) :
    (∀ p ∈ ix.subwordIndices word (UInt64.ofNat off) br, off ≤ p.2 ∧ p.2 < off + ix.upperBound) ∧
    ∀ i ∈ ix.indices word (UInt64.ofNat off) br, off ≤ i ∧ i < off + ix.upperBound := by
  obtain ⟨_, _, _, h0, _, _, _, h2⟩ := fifuNew_ok.mp h
  unfold FifuIndexer.subwordIndices FifuIndexer.indices
  rw [fifuSub_call _ ix h0 h2 word off ho br, fifuSub_call _ ix h0 h2 word off ho br]
  constructor
  · intro p hp
    rw [List.mem_map] at hp
    obtain ⟨g, _, rfl⟩ := hp
    have := fifuCall_lt ix h2 g
    simp only
    omega
  · intro p hp
    rw [List.mem_map] at hp
    obtain ⟨g, _, rfl⟩ := hp
    have := fifuCall_lt ix h2 g
    omega

theorem C22_ft_bulk (b mn mx : Int) (ix : FtIndexer) (h : FtIndexer.new b mn mx = .ok ix)
    (word : PyStr) (off : Nat) (ho : off + ix.upperBound ≤ 2 ^ 64) (br : Bool) :
    (∀ l, ix.subwordIndices word (UInt64.ofNat off) br = .ok l →
      ∀ p ∈ l, off ≤ p.2 ∧ p.2 < off + ix.upperBound) ∧
    ∀ l, ix.indices word (UInt64.ofNat off) br = .ok l →
      ∀ i ∈ l, off ≤ i ∧ i < off + ix.upperBound := by
  obtain ⟨_, _, _, h0, _, _, h2, _⟩ := ftNew_ok.mp h
  unfold FtIndexer.subwordIndices FtIndexer.indices
  cases hs : (bracketed br word).any isSurrogate with
  | true =>
    rw [ftSub_eq, ftSub_eq, encode_err hs]
    exact ⟨(by intro l h; cases h), (by intro l h; cases h)⟩
  | false =>
    rw [ftSub_call _ ix h0 h2 word off ho br hs, ftSub_call _ ix h0 h2 word off ho br hs]
    have key : ∀ g, ftIdx ix g < ix.upperBound := fun g => Nat.mod_lt _ h2
    constructor
    · rintro l ⟨⟩ p hp
      rw [List.mem_map] at hp
      obtain ⟨g, _, rfl⟩ := hp
      have := key g
      simp only
      omega
    · rintro l ⟨⟩ p hp
      rw [List.mem_map] at hp
      obtain ⟨g, _, rfl⟩ := hp
      have := key g
      omega

/-- The largest bucket space with the largest possible word list still fits. -/
example : ∃ ix, FifuIndexer.new 63 3 6 = .ok ix ∧ (2 ^ 63 - 1) + ix.upperBound ≤ 2 ^ 64 :=
  ⟨⟨63, 3, 6⟩, by decide +kernel, by decide +kernel⟩

example : ∃ ix, FtIndexer.new (2 ^ 32 - 1) 3 6 = .ok ix ∧ (2 ^ 63 - 1) + ix.upperBound ≤ 2 ^ 64 :=
  ⟨⟨2 ^ 32 - 1, 3, 6⟩, by decide +kernel, by decide +kernel⟩

end FF
