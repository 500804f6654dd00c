import Verif.Lemmas.VocabLookup
import Verif.Spec.Samples
/-! C16: `idx`, item access and default agree. -/

namespace FF

/-- `vocab[item]` against `vocab.idx(item)`, for any vocabulary and item. -/
theorem C16_getitem_idx (v : Vocab) (item : PyStr) :
    v.getItem item = match v.idx item with
      | .ok none => .error .keyError
      | .ok (some i) => .ok i
      | .error e => .error e := by
  unfold Vocab.getItem Vocab.idx
  cases v.sub with
  | none => cases Dict.get? v.index item <;> rfl
  | some ix =>
    cases Dict.get? v.index item with
    | some i => rfl
    | none =>
      simp only
      cases v.subwordIndices ix item with
      | error e => rfl
      | ok is =>
        simp only [res_bind_ok]
        split <;> rfl

/-- Neither raises `KeyError` in `idx`, so `vocab[item]` raises `KeyError` iff `idx` is `None`. -/
theorem C16_keyerror (v : Vocab) (item : PyStr) :
    v.getItem item = .error .keyError ↔ v.idx item = .ok none := by
  rw [C16_getitem_idx]
  have hne : v.idx item ≠ .error .keyError := by
    intro h
    unfold Vocab.idx at h
    cases hs : v.sub with
    | none => rw [hs] at h; simp only at h; cases hg : Dict.get? v.index item <;> rw [hg] at h <;> cases h
    | some ix =>
      rw [hs] at h
      simp only at h
      cases hg : Dict.get? v.index item with
      | some i => rw [hg] at h; cases h
      | none =>
        rw [hg] at h
        simp only at h
        unfold Vocab.subwordIndices Indexer.indices at h
        cases ix with
        | fifu ix => simp only [res_bind_ok] at h; split at h <;> cases h
        | expl ix => simp only [res_bind_ok] at h; split at h <;> cases h
        | ft ix =>
          simp only at h
          unfold FtIndexer.indices at h
          rw [ftSub_eq] at h
          cases hsr : (bracketed true item).any isSurrogate with
          | true => rw [encode_err hsr] at h; cases h
          | false =>
            rw [encode_eq hsr] at h
            simp only [res_bind_ok, res_pure] at h
            split at h <;> cases h
  cases h : v.idx item with
  | error e =>
    simp only
    constructor
    · intro h'
      cases h'
      exact absurd h hne
    · intro h'; cases h'
  | ok o => cases o <;> simp

/-- The default is returned exactly when `idx` would return `None`. -/
theorem C16_default (v : Vocab) (item : PyStr) (d : Idx) :
    v.idx item (some d) = match v.idx item with
      | .ok none => .ok (some d)
      | r => r := by
  unfold Vocab.idx
  cases v.sub with
  | none => cases Dict.get? v.index item <;> rfl
  | some ix =>
    cases Dict.get? v.index item with
    | some i => rfl
    | none =>
      simp only
      cases v.subwordIndices ix item with
      | error e => rfl
      | ok is =>
        simp only [res_bind_ok]
        split <;> rfl

/-- Known words win over subwords: they give their position, whatever the indexer. -/
theorem C16_known (v : Vocab) (hv : BuiltVocab v) (i : Nat) (w : PyStr) (h : v.words[i]? = some w) :
    v.getItem w = .ok (.one i) ∧ ∀ d, v.idx w d = .ok (some (.one i)) := by
  have hg := hv.get.mpr h
  unfold Vocab.getItem Vocab.idx
  cases v.sub <;> simp [hg]

/-- Unknown words: the subword indices if there are any, nothing otherwise. -/
theorem C16_unknown (v : Vocab) (hv : BuiltVocab v) (w : PyStr) (h : w ∉ v.words) :
    match v.sub with
    | none => v.idx w = .ok none
    | some ix => ∀ is, v.subwordIndices ix w = .ok is →
        v.idx w = .ok (if is = [] then none else some (.many is)) := by
  have hg := hv.get_none.mpr h
  unfold Vocab.idx
  cases v.sub with
  | none => simp [hg]
  | some ix =>
    simp only [hg]
    intro is his
    rw [his]
    by_cases hi : is = []
    · simp [hi]
    · simp [hi]

/-- A known word, an unknown word with n-grams, and the empty string (none). -/
example : BuiltVocab Sample.bucket ∧ Sample.bucket.idx [97] = .ok (some (.one 0)) ∧
    Sample.bucket.idx [97, 97] = .ok (some (.many [3, 3, 3, 4, 3])) ∧
    Sample.simple.idx [98] = .ok none ∧ Sample.simple.idx [98] (some (.one 7)) = .ok (some (.one 7)) ∧
    Sample.simple.getItem [98] = .error .keyError :=
  ⟨Sample.builtBucket, by decide +kernel, by decide +kernel, by decide +kernel, by decide +kernel,
    by decide +kernel⟩

end FF
