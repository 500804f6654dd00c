import Verif.Lemmas.EmbIO
import Verif.Spec.Built
/-! Constructed values satisfy the invariants used by the serialisation lemmas. -/

namespace FF

theorem builtIndexer_wf {ix : Indexer} (h : BuiltIndexer ix) : match (some ix : Option Indexer) with
    | none => True
    | some (.fifu ix) => FifuIndexer.new ix.bucketsExp ix.minN ix.maxN = .ok ix
    | some (.ft ix) => FtIndexer.new ix.nBuckets ix.minN ix.maxN = .ok ix
    | some (.expl ix) => ExplValid ix := by
  cases h with
  | fifu h =>
    obtain ⟨h1, h2, h3, h4⟩ := fifuNew_ok.mp h
    exact fifuNew_ok.mpr ⟨rfl, rfl, rfl, h4⟩
  | ft h =>
    obtain ⟨h1, h2, h3, h4⟩ := ftNew_ok.mp h
    exact ftNew_ok.mpr ⟨rfl, rfl, rfl, h4⟩
  | expl h => exact (explNew_none.mp h).1
  | explIdx hd h => exact ((explNew_some hd).mp h).1

theorem BuiltVocab.wf {v : Vocab} (h : BuiltVocab v) : VocabWF v := by
  obtain ⟨hs, hn⟩ := h
  obtain ⟨h1, h2⟩ := Vocab.new_ok.mp hn
  refine ⟨h1, by rw [h2], ?_⟩
  cases hv : v.sub with
  | none => trivial
  | some ix => exact builtIndexer_wf (hs ix hv)

theorem BuiltEmb.wf {e : Embeddings F32} (h : BuiltEmb e) (hg : HasNgrams e.vocab) : EmbWF e :=
  ⟨h.vocab.wf, hg, h.storage, (embNew_ok.mp h.new).1⟩

theorem SameIndexer.refl (ix : Indexer) : SameIndexer ix ix := by
  cases ix <;> simp [SameIndexer]

theorem SameVocab.refl (v : Vocab) : SameVocab v v := by
  refine ⟨rfl, fun _ => rfl, ?_⟩
  cases hs : v.sub with
  | none => trivial
  | some ix => exact SameIndexer.refl ix

theorem Dict.get?_perm {α β : Type} [DecidableEq α] {a b : Dict α β} (hp : a.Perm b)
    (hn : (Dict.keys a).Nodup) (k : α) : Dict.get? a k = Dict.get? b k := by
  have hnb : (Dict.keys b).Nodup := (hp.map Prod.fst).nodup_iff.mp hn
  cases h : Dict.get? a k with
  | none =>
    symm
    rw [Dict.get?_eq_none] at h ⊢
    intro hm
    exact h ((hp.map Prod.fst).mem_iff.mpr hm)
  | some v =>
    symm
    exact Dict.get?_of_mem hnb (hp.mem_iff.mp (Dict.get?_mem h))

/-- What the successful write of an explicit indexer says about its values. -/
theorem canonVocab_same {v : Vocab} (hw : VocabWF v) (hf : VocabFits v) :
    SameVocab v (canonVocab v) := by
  unfold canonVocab
  have hws := hw.sub
  obtain ⟨_, _, hsub⟩ := hf
  rcases hs : v.sub with _ | (ix | ix | ix)
  · exact SameVocab.refl v
  · exact SameVocab.refl v
  · exact SameVocab.refl v
  · rw [hs] at hws hsub
    simp only at hws hsub
    refine ⟨rfl, fun _ => rfl, ?_⟩
    simp only [hs]
    refine ⟨rfl, rfl, rfl, rfl, fun g => ?_⟩
    have hp := canonExpl_perm hws fun g hg => (hsub.2.2.2 g hg).2.2
    exact (Dict.get?_perm hp ((canonExpl_valid hws fun g hg => (hsub.2.2.2 g hg).2.2).keys.nodup_iff.mpr
      hws.nodup) g).symm

theorem canonEmb_same {T : Toml} {e : Embeddings F32} {mb bs : Bytes} (hw : EmbWF e)
    (h : EmbBytes T e mb bs) : SameEmb e (canonEmb e) :=
  ⟨canonVocab_same hw.vocab h.vfits, rfl, rfl, rfl⟩

end FF
