import Verif.Lemmas.HashSpec
import Verif.Lemmas.Built
/-! C20: `ExplicitIndexer`: bulk and single lookups agree. -/

namespace FF

/-- The bulk lookup lists `(g, offset + index[g])` for the n-grams `g` of the word that are in
the index, in order. -/
theorem C20_bulk (ix : ExplIndexer) (h : BuiltIndexer (.expl ix)) (word : PyStr) (off : Nat)
    (br : Bool) :
    ∃ gs, ngrams word ix.minN ix.maxN br = .ok gs ∧
      ix.subwordIndices word off br =
        gs.filterMap (fun g => (ix.call g).map fun i => (g, (off : Int) + i)) ∧
      ix.indices word off br = gs.filterMap (fun g => (ix.call g).map fun i => (off : Int) + i) := by
  have hv : ExplValid ix := builtIndexer_wf h
  rw [ngrams_eq, if_pos ⟨hv.minMax, hv.minPos⟩]
  refine ⟨_, rfl, ?_, ?_⟩
  · refine (explSub_eq Prod.mk ix word off br).trans ?_
    simp only [Int.add_comm]
    rfl
  · refine (explSub_eq (fun _ h => h) ix word off br).trans ?_
    simp only [Int.add_comm]
    rfl

/-- The n-gram `<a>` of "a" is in the index, the word has one hit. -/
example : ∃ ix, ExplIndexer.new [[langle, ⟨97, by decide⟩, rangle], [⟨97, by decide⟩]] 3 6 none = .ok ix ∧
    ix.subwordIndices [⟨97, by decide⟩] 10 true = [([langle, ⟨97, by decide⟩, rangle], 10)] :=
  ⟨_, rfl, by decide +kernel⟩

end FF
