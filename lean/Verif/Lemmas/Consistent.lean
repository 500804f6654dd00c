import Verif.Spec.Consistent
import Verif.Lemmas.LoadBuilt
import Verif.Lemmas.LoadInv
import Verif.Props.C15
import Verif.Props.C25
/-! Lemmas about consistent embeddings. -/

namespace FF

section
variable {K : Type}

theorem consistent_of_built {e : Embeddings K} (hb : BuiltEmb e)
    (hneg : ∀ ix, e.vocab.sub = some ix → NonNegIndex ix)
    (hl : e.vocab.words.length < 2 ^ 63) : Consistent e := by
  have hnew := hb.new
  unfold Embeddings.new at hnew
  obtain ⟨_, hc, _⟩ := res_bind_inv hnew
  obtain ⟨hrows, hnorms⟩ := check_parts.mp hc
  have hr := C15_bounds_partial e.vocab hb.vocab hl hneg
  refine ⟨hb.vocab.nodup, fun w i => hb.vocab.get, hrows, ?_, hb.storage, ?_, ?_, ?_⟩
  · intro n hn
    have := (hnorms n hn).2
    rw [hb.vocab.len] at this
    exact this.symm
  · intro q i hi
    have := ((hr q).2.1 _ hi).2
    omega
  · intro q is hi i him
    have := ((hr q).2.1 _ hi) i him
    omega
  · intro q ix br is hs hi i him
    have := ((hr q).2.2.1 ix br is hs hi) i him
    omega

theorem toSigned4_lt {bs : Bytes} : toSigned 4 (unle (bs.take 4)) < 2 ^ 31 := by
  unfold toSigned
  have h := unle_lt (bs.take 4)
  have h2 : (256 : Nat) ^ (bs.take 4).length ≤ 256 ^ 4 :=
    Nat.pow_le_pow_right (by omega) (by simp)
  split
  · omega
  · have : (256 : Nat) ^ 4 = 2 ^ 32 := by norm_num
    omega

theorem readFtWords_length {lossy : Bool} {n : Nat} {s s' : RFile} {ws : List PyStr}
    (h : readFtWords lossy n s = .ok (ws, s')) : ws.length = n := by
  induction n generalizing s ws with
  | zero => cases h; rfl
  | succ n ih =>
    unfold readFtWords at h
    obtain ⟨_, _, _, h⟩ := rd_bind_inv h
    obtain ⟨_, _, h1, h⟩ := rd_bind_inv h
    cases h
    simp [ih h1]

theorem readFtVocab_length {b mn mx : Int} {lossy : Bool} {s s' : RFile} {p : Vocab × FtIndexer}
    (h1 : readFtVocab b mn mx lossy s = .ok (p, s')) : p.1.words.length < 2 ^ 31 := by
  unfold readFtVocab at h1
  obtain ⟨vs, _, h0, h1⟩ := rd_bind_inv h1
  split at h1
  · rename_i n _ l
    have hn : n < 2 ^ 31 := by
      unfold readSigned at h0
      obtain ⟨us, _, h2, h0⟩ := rd_bind_inv h0
      rw [readRequired_eq _ _ (by decide)] at h2
      split at h2
      · cases h2
        cases h0
        exact toSigned4_lt
      · cases h2
    dsimp only at h1
    by_cases hl : l ≠ 0
    · rw [if_pos hl] at h1
      obtain ⟨_, _, h1, _⟩ := rd_bind_inv h1
      cases h1
    rw [if_neg hl] at h1
    obtain ⟨_, _, _, h1⟩ := rd_bind_inv h1
    obtain ⟨prune, _, _, h1⟩ := rd_bind_inv h1
    by_cases hp : toSigned 8 prune ≥ 0
    · rw [if_pos hp] at h1
      obtain ⟨_, _, h1, _⟩ := rd_bind_inv h1
      cases h1
    rw [if_neg hp] at h1
    obtain ⟨ws, _, hw, h1⟩ := rd_bind_inv h1
    obtain ⟨ix, _, h2, h1⟩ := rd_bind_inv h1
    obtain ⟨v, _, h3, h1⟩ := rd_bind_inv h1
    cases h1
    obtain ⟨_, hws, _⟩ := vocabNew_built (rd_lift_inv h3).1 (by
      intro ix' h; cases h; exact .ft (rd_lift_inv h2).1)
    rw [hws, readFtWords_length hw]
    omega
  · cases h1

/-- Without subwords no bound on the number of words is needed. -/
theorem consistent_of_simple {e : Embeddings K} (hb : BuiltEmb e) (hs : e.vocab.sub = none) :
    Consistent e := by
  have hnew := hb.new
  unfold Embeddings.new at hnew
  obtain ⟨_, hc, _⟩ := res_bind_inv hnew
  obtain ⟨hrows, hnorms⟩ := check_parts.mp hc
  have hub : e.vocab.upperBound = e.vocab.words.length := by
    unfold Vocab.upperBound
    rw [hs, hb.vocab.len]
  have hidx : ∀ q, e.vocab.idx q = match Dict.get? e.vocab.index q with
      | some i => .ok (some (.one i))
      | none => .ok none := by
    intro q
    unfold Vocab.idx
    rw [hs]
    cases Dict.get? e.vocab.index q <;> rfl
  refine ⟨hb.vocab.nodup, fun w i => hb.vocab.get, hrows, ?_, hb.storage, ?_, ?_, ?_⟩
  · intro n hn
    have := (hnorms n hn).2
    rw [hb.vocab.len] at this
    exact this.symm
  · intro q i hi
    rw [hidx] at hi
    cases hg : Dict.get? e.vocab.index q with
    | none => rw [hg] at hi; cases hi
    | some j =>
      rw [hg] at hi
      cases hi
      obtain ⟨h1, _⟩ := List.getElem?_eq_some_iff.mp (hb.vocab.get.mp hg)
      omega
  · intro q is hi
    rw [hidx] at hi
    cases hg : Dict.get? e.vocab.index q with
    | none => rw [hg] at hi; cases hi
    | some j => rw [hg] at hi; cases hi
  · intro q ix br is h
    rw [hs] at h
    cases h

end

end FF
