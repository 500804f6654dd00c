import Verif.Lemmas.Optimized
import Verif.Lemmas.LoadBuilt
/-!
# What the assertions of the readers check
-/

namespace FF

/-- `m` succeeds exactly if `m'` does, with the same result, and this result has the property. -/
def Rd.Checks {α : Type} (P : α → Prop) (m m' : Rd α) : Prop :=
  ∀ s a s', m s = .ok (a, s') ↔ m' s = .ok (a, s') ∧ P a

namespace Checks

theorem rfl' {α : Type} (m : Rd α) : Rd.Checks (fun _ => True) m m := fun _ _ _ => by tauto

/-- A step that both readers make -/
theorem step {α β : Type} {P : β → Prop} {r : Rd α} {f f' : α → Rd β} (h : ∀ a, Rd.Checks P (f a) (f' a)) :
    Rd.Checks P (r >>= f) (r >>= f') := by
  intro s b s'
  rw [rd_bind, rd_bind]
  cases r s with
  | error x =>
    constructor
    · intro h; cases h
    · rintro ⟨h, _⟩; cases h
  | ok p => exact h p.1 p.2 b s'

/-- A step with a check; what is checked can be seen from the final result. -/
theorem bind {α β : Type} {P : α → Prop} {Q : β → Prop} {m m' : Rd α} {f f' : α → Rd β} (h : Rd.Checks P m m')
    (hf : ∀ a, P a → Rd.Checks Q (f a) (f' a))
    (hq : ∀ a s b s', f' a s = .ok (b, s') → Q b → P a) : Rd.Checks Q (m >>= f) (m' >>= f') := by
  intro s b s'
  constructor
  · intro hr
    obtain ⟨a, s1, h1, h2⟩ := rd_bind_inv hr
    obtain ⟨h3, h4⟩ := (h _ _ _).mp h1
    obtain ⟨h5, h6⟩ := (hf a h4 _ _ _).mp h2
    exact ⟨(rd_bind_ok h3).trans h5, h6⟩
  · rintro ⟨hr, hb⟩
    obtain ⟨a, s1, h1, h2⟩ := rd_bind_inv hr
    have hp := hq a _ _ _ h2 hb
    exact (rd_bind_ok ((h _ _ _).mpr ⟨h1, hp⟩)).trans ((hf a hp _ _ _).mpr ⟨h2, hb⟩)

theorem lift {α : Type} {P : α → Prop} {r r' : Res α} (h : ∀ a, r = .ok a ↔ r' = .ok a ∧ P a) :
    Rd.Checks P (Rd.lift r) (Rd.lift r') := by
  have k : ∀ (r : Res α) (s : RFile) a s', Rd.lift r s = .ok (a, s') ↔ r = .ok a ∧ s = s' := by
    intro r s a s'
    unfold Rd.lift
    cases r with
    | error x =>
      constructor
      · intro h; cases h
      · rintro ⟨h, _⟩; cases h
    | ok b =>
      constructor
      · intro h; cases h; exact ⟨rfl, rfl⟩
      · rintro ⟨h, rfl⟩; cases h; rfl
  intro s a s'
  rw [k, k, h a]
  tauto

theorem run_ {α : Type} {P : α → Prop} {m m' : Rd α} (h : Rd.Checks P m m') (bs : Bytes) (a : α) :
    Rd.run m bs = .ok a ↔ Rd.run m' bs = .ok a ∧ P a := by
  have k : ∀ m : Rd α, Rd.run m bs = .ok a ↔ ∃ s', m ⟨bs, 0⟩ = .ok (a, s') := by
    intro m
    unfold Rd.run
    cases m ⟨bs, 0⟩ with
    | error x =>
      constructor
      · intro h; cases h
      · rintro ⟨_, h⟩; cases h
    | ok p =>
      constructor
      · intro h; cases h; exact ⟨_, rfl⟩
      · rintro ⟨_, h⟩; cases h; rfl
  rw [k, k]
  constructor
  · rintro ⟨s', hs⟩
    exact ⟨⟨s', ((h _ _ _).mp hs).1⟩, ((h _ _ _).mp hs).2⟩
  · rintro ⟨⟨s', hs⟩, hp⟩
    exact ⟨s', (h _ _ _).mpr ⟨hs, hp⟩⟩

theorem same {α : Type} {r r' : Res α} {a : α} (h : Res.Asserts false r r') (hr : r = .ok a) : r' = .ok a := by
  rcases h with h | h | ⟨h, _⟩
  · rw [← h, hr]
  · rw [h] at hr; cases hr
  · cases h

theorem vocab {ws : List PyStr} {sub : Option Indexer} (hs : ∀ ix, sub = some ix → BuiltIndexer ix) (v : Vocab) :
    Vocab.new ws sub = .ok v ↔ Opt.vocab ws sub = .ok v ∧ BuiltVocab v := by
  constructor
  · intro h
    have h1 := same (Asserts.vocab ws sub) h
    obtain ⟨hn, rfl⟩ := Vocab.new_ok.mp h
    exact ⟨h1, hs, h⟩
  · rintro ⟨h, hb⟩
    cases h
    exact hb.2

theorem vocab_sub {ws : List PyStr} {sub : Option Indexer} {s s' : RFile} {v : Vocab}
    (h : Rd.lift (Opt.vocab ws sub) s = .ok (v, s')) (hv : BuiltVocab v) :
    ∀ ix, sub = some ix → BuiltIndexer ix := by
  cases h
  exact hv.1

theorem fifu (b mn mx : Int) (ix : FifuIndexer) :
    FifuIndexer.new b mn mx = .ok ix ↔ Opt.fifu b mn mx = .ok ix ∧ BuiltIndexer (.fifu ix) := by
  constructor
  · intro h
    exact ⟨same (Asserts.fifu b mn mx) h, .fifu h⟩
  · rintro ⟨h, hb⟩
    obtain ⟨mn', h1, h⟩ := res_bind_inv h
    obtain ⟨mx', h2, h⟩ := res_bind_inv h
    rw [toU32_ok] at h1 h2
    split at h
    · cases h
    · split at h
      · cases h
      · cases h
        cases hb with
        | fifu hn =>
          obtain ⟨k1, k2, k3, k4, k5, k6, k7, k8⟩ := fifuNew_ok.mp hn
          rw [fifuNew_ok]
          refine ⟨?_, h1.1, h2.1, k4, k5, k6, k7, k8⟩
          show ((b.toNat : Nat) : Int) = b
          omega

theorem ft (b mn mx : Int) (ix : FtIndexer) :
    FtIndexer.new b mn mx = .ok ix ↔ Opt.ft b mn mx = .ok ix ∧ BuiltIndexer (.ft ix) := by
  constructor
  · intro h
    exact ⟨same (Asserts.ft b mn mx) h, .ft h⟩
  · rintro ⟨h, hb⟩
    obtain ⟨mn', h1, h⟩ := res_bind_inv h
    obtain ⟨mx', h2, h⟩ := res_bind_inv h
    rw [toU32_ok] at h1 h2
    split at h
    · cases h
    · cases h
      cases hb with
      | ft hn =>
        obtain ⟨k1, k2, k3, k4, k5, k6, k7, k8⟩ := ftNew_ok.mp hn
        rw [ftNew_ok]
        refine ⟨?_, h1.1, h2.1, k4, k5, k6, k7, k8⟩
        show ((b.toNat : Nat) : Int) = b
        omega

theorem expl (gs : List PyStr) (mn mx : Int) (d : Dict PyStr Int) (hd : (Dict.keys d).Nodup)
    (hg : gs = [] → d = []) (ix : ExplIndexer) :
    ExplIndexer.new gs mn mx (some d) = .ok ix ↔ Opt.expl gs mn mx d = .ok ix ∧ BuiltIndexer (.expl ix) := by
  constructor
  · intro h
    exact ⟨same (Asserts.expl gs mn mx d) h, .explIdx hd h⟩
  · rintro ⟨h, hb⟩
    obtain ⟨mn', h1, h⟩ := res_bind_inv h
    obtain ⟨mx', h2, h⟩ := res_bind_inv h
    obtain ⟨t, h3, h⟩ := res_bind_inv h
    rw [toU32_ok] at h1 h2
    cases h
    rw [explNew_some hd]
    refine ⟨builtIndexer_wf hb, rfl, rfl, h1.1, h2.1, ?_⟩
    intro h
    rw [hg h] at h3
    cases h3

theorem readSimpleVocab : Rd.Checks BuiltVocab FF.readSimpleVocab Opt.readSimpleVocab :=
  step fun _ => step fun _ => lift (vocab (by intro ix h; cases h))

theorem readBucketVocab : Rd.Checks BuiltVocab FF.readBucketVocab Opt.readBucketVocab := by
  refine step fun xs => ?_
  split
  · exact step fun _ => bind (lift (fifu _ _ _)) (fun ix hi => lift (vocab (by
      intro ix' h; cases h; exact hi))) fun ix s v s' h hv => vocab_sub h hv _ rfl
  · rename_i hx
    split
    · exact (hx _ _ _ _ rfl).elim
    · intro s a s'
      constructor
      · intro h; cases h
      · rintro ⟨h, _⟩; cases h

theorem readFastTextVocab : Rd.Checks BuiltVocab FF.readFastTextVocab Opt.readFastTextVocab := by
  refine step fun xs => ?_
  split
  · exact step fun _ => bind (lift (ft _ _ _)) (fun ix hi => lift (vocab (by
      intro ix' h; cases h; exact hi))) fun ix s v s' h hv => vocab_sub h hv _ rfl
  · rename_i hx
    split
    · exact (hx _ _ _ _ rfl).elim
    · intro s a s'
      constructor
      · intro h; cases h
      · rintro ⟨h, _⟩; cases h

theorem readExplicitVocab : Rd.Checks BuiltVocab FF.readExplicitVocab Opt.readExplicitVocab := by
  refine step fun xs => ?_
  split
  · exact step fun _ => step fun items => bind (lift (expl _ _ _ _ (Dict.ofPairs_nodup _) (by
      intro h
      rw [List.map_eq_nil_iff] at h
      rw [h]
      rfl))) (fun ix hi => lift (vocab (by
      intro ix' h; cases h; exact hi))) fun ix s v s' h hv => vocab_sub h hv _ rfl
  · rename_i hx
    split
    · exact (hx _ _ _ _ rfl).elim
    · intro s a s'
      constructor
      · intro h; cases h
      · rintro ⟨h, _⟩; cases h

theorem fail {α : Type} {P : α → Prop} (x : PyErr) : Rd.Checks P (Rd.fail x) (Rd.fail x) := by
  intro s a s'
  constructor
  · intro h; cases h
  · rintro ⟨h, _⟩; cases h

theorem loadVocab : Rd.Checks BuiltVocab FF.loadVocab Opt.loadVocab := by
  refine step fun c => ?_
  cases c with
  | none => exact fail _
  | some c =>
    cases c <;> first
      | exact readSimpleVocab
      | exact readBucketVocab
      | exact readFastTextVocab
      | exact readExplicitVocab
      | exact fail _

theorem loadVocabPart (c : ChunkId) : Rd.Checks BuiltVocab (FF.loadVocabPart c) (Opt.loadVocabPart c) := by
  cases c <;> first
    | exact readSimpleVocab
    | exact readBucketVocab
    | exact readFastTextVocab
    | exact readExplicitVocab
    | exact fail _

theorem loadStoragePart {mmap : Bool} {s s' : RFile} {m : Mat F32}
    (h : Opt.loadStoragePart mmap s = .ok (.nd m, s')) : FF.loadStoragePart mmap s = .ok (.nd m, s') := by
  obtain ⟨⟨c, n⟩, s1, h1, h⟩ := rd_bind_inv h
  refine (rd_bind_ok h1).trans ?_
  cases c with
  | ndArray => exact h
  | quantizedArray =>
    have h' : Opt.loadQuant mmap s1 = .ok (.nd m, s') := h
    unfold Opt.loadQuant at h'
    cases mmap <;>
    · obtain ⟨q, s2, _, h2⟩ := rd_bind_inv h'
      cases h2
  | _ => cases h

end Checks

end FF
