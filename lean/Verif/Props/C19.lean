import Verif.Lemmas.HashSpec
import Verif.Spec.Built
/-! C19: `FastTextIndexer`: bulk and single lookups agree. -/

namespace FF

/-- If the (bracketed) word can be encoded, its n-grams can, and the bulk lookup gives the
offset plus the single lookup of each n-gram. -/
theorem C19_bulk (b mn mx : Int) (ix : FtIndexer) (h : FtIndexer.new b mn mx = .ok ix)
    (word : PyStr) (off : Nat) (ho : off + ix.upperBound ≤ 2 ^ 64) (br : Bool) (enc : Bytes)
    (he : encode word = .ok enc) :
    ∃ (gs : List PyStr) (is : List Nat), ngrams word ix.minN ix.maxN br = .ok gs ∧
      gs.map ix.call = is.map Except.ok ∧
      ix.subwordIndices word (UInt64.ofNat off) br = .ok (gs.zip (is.map (off + ·))) ∧
      ix.indices word (UInt64.ofNat off) br = .ok (is.map (off + ·)) := by
  obtain ⟨_, _, _, h0, h1, _, h2, _⟩ := ftNew_ok.mp h
  have hw : word.any isSurrogate = false := by
    cases hc : word.any isSurrogate with
    | false => rfl
    | true => rw [encode_err hc] at he; cases he
  have hs : (bracketed br word).any isSurrogate = false := by
    unfold bracketed
    cases br with
    | false => exact hw
    | true =>
      simp only [if_true, List.any_cons, List.any_append, hw, List.any_nil]
      decide
  rw [ngrams_eq, if_pos ⟨h1, h0⟩]
  refine ⟨_, ((occs (bracketed br word).length ix.minN ix.maxN).map fun p =>
        ((bracketed br word).drop p.1).take p.2).map (ftIdx ix), rfl, ?_, ?_, ?_⟩
  · rw [List.map_map, List.map_map]
    rw [List.map_map]
    apply List.map_congr_left
    rintro ⟨i, j⟩ _
    exact ftCall_eq (noSurrogate_slice hs i j)
  · refine (ftSub_call Prod.mk ix h0 h2 word off ho br hs).trans ?_
    congr 1
    rw [List.map_map (f := ftIdx ix), ← List.map_prod_left_eq_zip]
    rfl
  · refine (ftSub_call (fun _ h => h) ix h0 h2 word off ho br hs).trans ?_
    rw [List.map_map (f := ftIdx ix)]
    rfl

/-- A word with a lone surrogate raises `UnicodeEncodeError`. -/
theorem C19_surrogate (ix : FtIndexer) (word : PyStr) (off : UInt64) (br : Bool)
    (h : ∃ c ∈ word, 0xD800 ≤ c.val ∧ c.val ≤ 0xDFFF) :
    ix.subwordIndices word off br = .error .unicodeEncodeError ∧
      ix.indices word off br = .error .unicodeEncodeError := by
  have hs : (bracketed br word).any isSurrogate = true := by
    obtain ⟨c, hc, h1, h2⟩ := h
    rw [List.any_eq_true]
    refine ⟨c, ?_, by simp [isSurrogate, h1, h2]⟩
    unfold bracketed
    split
    · simp [hc]
    · exact hc
  unfold FtIndexer.subwordIndices FtIndexer.indices
  rw [ftSub_eq, ftSub_eq, encode_err hs]
  exact ⟨rfl, rfl⟩

/-- "aé😀" has characters of one, two and four bytes. -/
example : ∃ ix, FtIndexer.new 2000000 3 6 = .ok ix ∧ 1000 + ix.upperBound ≤ 2 ^ 64 ∧
    encode [⟨97, by decide⟩, ⟨0xE9, by decide⟩, ⟨0x1F600, by decide⟩] =
      .ok [97, 0xC3, 0xA9, 0xF0, 0x9F, 0x98, 0x80] ∧
    (ix.indices [⟨97, by decide⟩, ⟨0xE9, by decide⟩, ⟨0x1F600, by decide⟩] 1000 true).toOption.map
      List.length = some 6 :=
  ⟨⟨2000000, 3, 6⟩, by decide +kernel, by decide +kernel, by decide +kernel, by decide +kernel⟩

end FF
