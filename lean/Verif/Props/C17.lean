import Mathlib.Algebra.BigOperators.Group.Finset.Basic
import Mathlib.Algebra.BigOperators.Group.Finset.Sigma
import Mathlib.Order.Interval.Finset.Nat
import Verif.Lemmas.Ngrams
import Verif.Lemmas.VocabLookup
import Verif.Spec.Samples
import Verif.Spec.Ngrams
/-! C17: `ngrams` enumerates exactly the bracketed substrings in range. -/

namespace FF

theorem bracketed_eq_wrap (b : Bool) (w : PyStr) : bracketed b w = wrap b w := by
  unfold bracketed wrap
  cases b <;> rfl

/-- Accepted ranges: the result lists every occurrence of every substring, in order. -/
theorem C17_enumerates (w : PyStr) (lo hi : Nat) (b : Bool) (h : lo ≤ hi) (h0 : 0 < lo) :
    ∃ gs, ngrams w lo hi b = .ok gs ∧ NgramsOf (wrap b w) lo hi gs := by
  rw [ngrams_eq, if_pos ⟨h, h0⟩, bracketed_eq_wrap]
  exact ⟨_, rfl, _, rfl, fun i j => mem_occs h0, occs_sorted _ _ _ h0⟩

/-- Other ranges are an `AssertionError`. -/
theorem C17_rejects (w : PyStr) (lo hi : Nat) (b : Bool) :
    ngrams w lo hi b = .error .assertionError ↔ ¬ (lo ≤ hi ∧ 0 < lo) := by
  rw [ngrams_eq]
  split
  · rename_i h; constructor
    · intro h'; cases h'
    · intro h'; exact absurd h h'
  · rename_i h; exact ⟨fun _ => h, fun _ => rfl⟩

/-- The specification leaves nothing open: there is only one such list. -/
theorem C17_unique (w : PyStr) (lo hi : Nat) (gs gs' : List PyStr) (h : NgramsOf w lo hi gs)
    (h' : NgramsOf w lo hi gs') : gs = gs' := by
  obtain ⟨o, rfl, hm, hs⟩ := h
  obtain ⟨o', rfl, hm', hs'⟩ := h'
  have irr : ∀ p q : Nat × Nat, (p.1 < q.1 ∨ p.1 = q.1 ∧ q.2 < p.2) → p ≠ q := by
    rintro ⟨a, b⟩ ⟨c, d⟩ h heq
    cases heq
    simp at h
  have hp : o.Perm o' := by
    rw [List.perm_ext_iff_of_nodup (hs.imp fun h => irr _ _ h) (hs'.imp fun h => irr _ _ h)]
    rintro ⟨i, j⟩
    rw [hm, hm']
  have : o = o' := by
    refine List.Perm.eq_of_pairwise ?_ hs hs' hp
    rintro ⟨a, b⟩ ⟨c, d⟩ _ _ h1 h2
    simp only at h1 h2
    omega
  rw [this]

/-- The number of n-grams. -/
theorem C17_count (w : PyStr) (lo hi : Nat) (b : Bool) (gs : List PyStr) (h0 : 0 < lo)
    (h : ngrams w lo hi b = .ok gs) :
    gs.length = ∑ n ∈ Finset.Icc lo hi, ((wrap b w).length + 1 - n) := by
  rw [ngrams_eq] at h
  split at h
  · cases h
    rw [List.length_map, bracketed_eq_wrap]
    generalize (wrap b w).length = L
    have hnd : (occs L lo hi).Nodup := (occs_sorted L lo hi h0).imp (by
      rintro ⟨a, b⟩ ⟨c, d⟩ h heq
      cases heq
      simp at h)
    rw [← List.toFinset_card_of_nodup hnd]
    have : (occs L lo hi).toFinset.card =
        ((Finset.Icc lo hi).sigma fun n => Finset.range (L + 1 - n)).card := by
      refine Finset.card_bij (fun p _ => ⟨p.2, p.1⟩) ?_ ?_ ?_
      · rintro ⟨i, j⟩ hp
        rw [List.mem_toFinset, mem_occs h0] at hp
        simp only [Finset.mem_sigma, Finset.mem_Icc, Finset.mem_range]
        omega
      · rintro ⟨i, j⟩ _ ⟨i', j'⟩ _ h
        cases h; rfl
      · rintro ⟨n, i⟩ hn
        simp only [Finset.mem_sigma, Finset.mem_Icc, Finset.mem_range] at hn
        refine ⟨(i, n), ?_, rfl⟩
        rw [List.mem_toFinset, mem_occs h0]
        omega
    rw [this, Finset.card_sigma]
    simp
  · cases h

/-- `subwords` of a vocabulary lists the n-grams of the word in the range of the indexer, with or without brackets. -/
theorem C17_subwords (v : Vocab) (ix : Indexer) (h : BuiltIndexer ix) (w : PyStr) (b : Bool) :
    ∃ gs, v.subwords ix w b = .ok gs ∧ NgramsOf (wrap b w) ix.minN ix.maxN gs :=
  C17_enumerates w ix.minN ix.maxN b h.range.2 h.range.1

/-- "ab" without brackets -/
example : (∃ gs, Sample.ft.subwords (.ft ⟨2, 2, 3⟩) [97, 98] false = .ok gs ∧ NgramsOf [97, 98] 2 3 gs) ∧
    Sample.ft.subwords (.ft ⟨2, 2, 3⟩) [97, 98] false = .ok [[97, 98]] :=
  ⟨C17_subwords Sample.ft _ Sample.builtFtIx [97, 98] false, by decide +kernel⟩

/-- "ab" with 2..3: `<ab`, `<a`, `ab>`, `ab`, `b>`. -/
example : ngrams [⟨97, by decide⟩, ⟨98, by decide⟩] 2 3 true = .ok
    [[⟨60, by decide⟩, ⟨97, by decide⟩, ⟨98, by decide⟩], [⟨60, by decide⟩, ⟨97, by decide⟩],
     [⟨97, by decide⟩, ⟨98, by decide⟩, ⟨62, by decide⟩], [⟨97, by decide⟩, ⟨98, by decide⟩],
     [⟨98, by decide⟩, ⟨62, by decide⟩]] := by decide +kernel

example : ngrams [⟨97, by decide⟩] 3 2 true = .error .assertionError := by decide +kernel

end FF
