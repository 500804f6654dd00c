import Verif.Lemmas.VocabLookup
import Verif.Spec.Samples
/-! C14: vocabulary construction accepts exactly unique word lists. -/

namespace FF

/-- Every constructor (`sub` selects the class) raises `AssertionError` iff a word occurs twice. -/
theorem C14_rejects (words : List PyStr) (sub : Option Indexer) :
    Vocab.new words sub = .error .assertionError ↔
      ∃ (i j : Nat) (w : PyStr), i < j ∧ words[i]? = some w ∧ words[j]? = some w := by
  have key : (∃ (i j : Nat) (w : PyStr), i < j ∧ words[i]? = some w ∧ words[j]? = some w) ↔ ¬ words.Nodup := by
    rw [List.nodup_iff_getElem?_ne_getElem?]
    constructor
    · rintro ⟨i, j, w, hij, hi, hj⟩ h
      obtain ⟨hlt, _⟩ := List.getElem?_eq_some_iff.mp hj
      exact h i j hij hlt (hi.trans hj.symm)
    · intro h
      simp only [not_forall] at h
      obtain ⟨i, j, hij, hlt, h⟩ := h
      have h' := not_not.mp h
      exact ⟨i, j, words[j], hij, by rw [h', List.getElem?_eq_getElem hlt],
        List.getElem?_eq_getElem hlt⟩
  rw [key]
  constructor
  · intro h hn
    rw [(Vocab.new_ok (sub := sub)).mpr ⟨hn, rfl⟩] at h
    cases h
  · intro h
    unfold Vocab.new
    rw [validateItems_error h]
    rfl

/-- Otherwise the vocabulary has the given words, `word_index` is the inverse of `words`, the
length is the number of words and membership is occurrence in `words`. -/
theorem C14_accepts (words : List PyStr) (sub : Option Indexer)
    (h : ∀ (i j : Nat) (w : PyStr), i < j → words[i]? = some w → words[j]? ≠ some w) :
    ∃ v, Vocab.new words sub = .ok v ∧ v.words = words ∧ v.sub = sub ∧
      (∀ w i, Dict.get? v.index w = some i ↔ words[i]? = some w) ∧
      v.len = words.length ∧ (∀ w, v.contains w = true ↔ w ∈ words) ∧
      ∀ ws, v.containsAll ws = true ↔ ∀ w ∈ ws, w ∈ words := by
  have hn : words.Nodup := by
    rw [List.nodup_iff_getElem?_ne_getElem?]
    intro i j hij hlt e
    exact h i j words[j] hij (by rw [e, List.getElem?_eq_getElem hlt])
      (List.getElem?_eq_getElem hlt)
  have hc : ∀ w, Vocab.contains ⟨words, enumItems words, sub⟩ w = true ↔ w ∈ words := by
    intro w
    unfold Vocab.contains
    rw [Dict.get?_isSome]
    unfold Dict.keys
    rw [enumItems_fst]
  refine ⟨_, Vocab.new_ok.mpr ⟨hn, rfl⟩, rfl, rfl, fun w i => get?_enumItems hn,
    enumItems_length _, hc, ?_⟩
  intro ws
  unfold Vocab.containsAll
  rw [List.all_eq_true]
  simp only [hc]

/-- `a`, `ß`, `語` are accepted; a list with a repeated word is not. -/
example : ∀ (i j : Nat) (w : PyStr), i < j → Sample.words[i]? = some w → Sample.words[j]? ≠ some w := by
  intro i j w hij hi hj
  have hn : Sample.words.Nodup := by decide
  rw [List.nodup_iff_getElem?_ne_getElem?] at hn
  obtain ⟨hlt, _⟩ := List.getElem?_eq_some_iff.mp hj
  exact hn i j hij hlt (hi.trans hj.symm)

example : Vocab.new [[97], [98], [97]] none = .error .assertionError := by decide +kernel

end FF
