import Verif.Lemmas.ReadInv
import Verif.Lemmas.Inv
import Verif.Lemmas.Mmap
import Verif.Lemmas.Keeps
import Verif.Lemmas.VocabLookup
/-! What `load_finalfusion` returns on arbitrary bytes. -/

namespace FF

theorem read_inv {n : Nat} {s s' : RFile} {b : Bytes} (h : read n s = .ok (b, s')) :
    b = (s.data.drop s.pos).take n ∧ s' = ⟨s.data, s.pos + b.length⟩ := by
  unfold read at h
  split at h
  · cases h; exact ⟨rfl, rfl⟩
  · cases h

theorem readItems_inv {n : Nat} : ∀ {s s' : RFile} {ws : List PyStr},
    readItems n s = .ok (ws, s') → ws.length = n ∧ s'.data = s.data ∧
      (n = 0 ∨ s.pos + 4 * n ≤ s.data.length) ∧ s.pos ≤ s'.pos := by
  induction n with
  | zero =>
    intro s s' ws h
    unfold readItems at h
    cases h
    exact ⟨rfl, rfl, Or.inl rfl, Nat.le_refl _⟩
  | succ n ih =>
    intro s s' ws h
    unfold readItems at h
    obtain ⟨l, s1, h1, h⟩ := rd_bind_inv h
    obtain ⟨b, s2, h2, h⟩ := rd_bind_inv h
    obtain ⟨w, s3, h3, h⟩ := rd_bind_inv h
    obtain ⟨rest, s4, h4, h5⟩ := rd_bind_inv h
    clear h
    rw [readOne_eq 4 s (by decide) (by decide)] at h1
    split at h1
    · rename_i hle
      cases h1
      obtain ⟨_, rfl⟩ := read_inv h2
      obtain ⟨_, rfl⟩ := rd_lift_inv h3
      obtain ⟨k1, k2, k3, k4⟩ := ih h4
      cases h5
      simp only at k2 k3 k4
      refine ⟨by simp [k1], k2, Or.inr ?_, by omega⟩
      rcases k3 with rfl | k3
      · omega
      · omega
    · cases h1

theorem vocabNew_built {words : List PyStr} {sub : Option Indexer} {v : Vocab}
    (h : Vocab.new words sub = .ok v) (hs : ∀ ix, sub = some ix → BuiltIndexer ix) :
    BuiltVocab v ∧ v.words = words ∧ v.sub = sub := by
  obtain ⟨_, rfl⟩ := Vocab.new_ok.mp h
  exact ⟨⟨hs, h⟩, rfl, rfl⟩

theorem mem_ofPairs {β : Type} {k : PyStr} {x : β} (ps : List (PyStr × β))
    (h : (k, x) ∈ Dict.ofPairs ps) : ∃ k', (k', x) ∈ ps := by
  have key : ∀ (ps : List (PyStr × β)) (d : Dict PyStr β),
      (k, x) ∈ ps.foldl (fun d p => Dict.set d p.1 p.2) d → (∃ k', (k', x) ∈ d) ∨ ∃ k', (k', x) ∈ ps := by
    intro ps
    induction ps with
    | nil => intro d h; exact Or.inl ⟨k, h⟩
    | cons p ps ih =>
      intro d h
      rw [List.foldl_cons] at h
      rcases ih _ h with ⟨k', hk⟩ | ⟨k', hk⟩
      · have : ∀ d : Dict PyStr β, (k', x) ∈ Dict.set d p.1 p.2 → x = p.2 ∨ ∃ k'', (k'', x) ∈ d := by
          intro d
          induction d with
          | nil => intro h; rcases List.mem_singleton.mp h with h; cases h; exact Or.inl rfl
          | cons q d ihd =>
            intro h
            obtain ⟨a, b⟩ := q
            unfold Dict.set at h
            split at h
            · rcases List.mem_cons.mp h with h | h
              · cases h; exact Or.inl rfl
              · exact Or.inr ⟨_, List.mem_cons_of_mem _ h⟩
            · rcases List.mem_cons.mp h with h | h
              · cases h; exact Or.inr ⟨_, List.mem_cons_self⟩
              · rcases ihd h with h | ⟨k'', h⟩
                · exact Or.inl h
                · exact Or.inr ⟨k'', List.mem_cons_of_mem _ h⟩
        rcases this d hk with rfl | ⟨k'', h⟩
        · exact Or.inr ⟨p.1, List.mem_cons_self⟩
        · exact Or.inl ⟨k'', h⟩
      · exact Or.inr ⟨k', List.mem_cons_of_mem _ hk⟩
  rcases key ps [] h with ⟨_, h⟩ | h
  · cases h
  · exact h

/-- Any vocabulary read from bytes. -/
theorem loadVocabPart_inv {c : ChunkId} {s s' : RFile} {v : Vocab}
    (h : loadVocabPart c s = .ok (v, s')) :
    BuiltVocab v ∧ (∀ ix, v.sub = some ix → NonNegIndex ix) ∧ 4 * v.words.length ≤ s.data.length := by
  have hn : ∀ {n : Nat} {t t' : RFile} {ws : List PyStr}, t.data = s.data →
      readItems n t = .ok (ws, t') → 4 * ws.length ≤ s.data.length := by
    intro n t t' ws ht h
    obtain ⟨h1, _, h2, _⟩ := readItems_inv h
    rw [ht] at h2
    omega
  cases c with
  | simpleVocab =>
    unfold loadVocabPart readSimpleVocab at h
    obtain ⟨l, s1, h1, h⟩ := rd_bind_inv h
    obtain ⟨ws, s2, h2, h⟩ := rd_bind_inv h
    obtain ⟨h, _⟩ := rd_lift_inv h
    obtain ⟨hb, rfl, hs⟩ := vocabNew_built h (by intro ix h; cases h)
    exact ⟨hb, (by intro ix hx; rw [hs] at hx; cases hx), hn (readOne_keeps 8 _ _ _ h1) h2⟩
  | bucketVocab =>
    unfold loadVocabPart readBucketVocab at h
    simp only at h
    obtain ⟨r, s1, h1, h⟩ := rd_bind_inv h
    split at h
    · obtain ⟨ws, s2, h2, h⟩ := rd_bind_inv h
      obtain ⟨ix, s3, h3, h⟩ := rd_bind_inv h
      obtain ⟨h3, _⟩ := rd_lift_inv h3
      obtain ⟨h, _⟩ := rd_lift_inv h
      obtain ⟨hb, rfl, hs⟩ := vocabNew_built h (by intro ix' h; cases h; exact .fifu h3)
      refine ⟨hb, ?_, hn (readRequired_keeps _ _ _ _ h1) h2⟩
      intro ix' hx e he
      rw [hs] at hx
      cases hx
      cases he
    · cases h
  | fastTextVocab =>
    unfold loadVocabPart readFastTextVocab at h
    simp only at h
    obtain ⟨r, s1, h1, h⟩ := rd_bind_inv h
    split at h
    · obtain ⟨ws, s2, h2, h⟩ := rd_bind_inv h
      obtain ⟨ix, s3, h3, h⟩ := rd_bind_inv h
      obtain ⟨h3, _⟩ := rd_lift_inv h3
      obtain ⟨h, _⟩ := rd_lift_inv h
      obtain ⟨hb, rfl, hs⟩ := vocabNew_built h (by intro ix' h; cases h; exact .ft h3)
      refine ⟨hb, ?_, hn (readRequired_keeps _ _ _ _ h1) h2⟩
      intro ix' hx e he
      rw [hs] at hx
      cases hx
      cases he
    · cases h
  | explicitVocab =>
    unfold loadVocabPart readExplicitVocab at h
    simp only at h
    obtain ⟨r, s1, h1, h⟩ := rd_bind_inv h
    split at h
    · obtain ⟨ws, s2, h2, h⟩ := rd_bind_inv h
      obtain ⟨items, s2', h2', h⟩ := rd_bind_inv h
      obtain ⟨ix, s3, h3, h⟩ := rd_bind_inv h
      obtain ⟨h3, _⟩ := rd_lift_inv h3
      obtain ⟨h, _⟩ := rd_lift_inv h
      have hd := Dict.ofPairs_nodup (items.map fun p => (p.1, (p.2 : Int)))
      obtain ⟨hb, rfl, hs⟩ := vocabNew_built h (by intro ix' h; cases h; exact .explIdx hd h3)
      refine ⟨hb, ?_, hn (readRequired_keeps _ _ _ _ h1) h2⟩
      intro ix' hx e he g i hc
      rw [hs] at hx
      cases hx
      cases he
      obtain ⟨_, _, hi, _⟩ := (explNew_some hd).mp h3
      unfold ExplIndexer.call at hc
      rw [hi] at hc
      obtain ⟨k', hk⟩ := mem_ofPairs _ (Dict.get?_mem hc)
      obtain ⟨p, _, hp⟩ := List.mem_map.mp hk
      cases hp
      exact Int.natCast_nonneg _
    · cases h
  | _ => cases h

/-- Any storage read from bytes. -/
theorem loadStoragePart_inv {mm : Bool} {s s' : RFile} {st : Storage F32}
    (h : loadStoragePart mm s = .ok (st, s')) : StorageWF st := by
  have h' : loadStoragePart false s = .ok (st, s') := by
    cases mm
    · exact h
    · exact loadStoragePart_mmap_read h
  unfold loadStoragePart at h'
  obtain ⟨⟨c, n⟩, s1, h1, h'⟩ := rd_bind_inv h'
  cases c with
  | ndArray =>
    simp only at h'
    unfold loadNd at h'
    obtain ⟨m, s2, h2, h'⟩ := rd_bind_inv h'
    cases h'
    unfold readNdArray at h2
    obtain ⟨⟨r, cc⟩, s3, h3, h2⟩ := rd_bind_inv h2
    obtain ⟨xs, s4, h4, h2⟩ := rd_bind_inv h2
    obtain ⟨h2, _⟩ := rd_lift_inv h2
    exact reshape2_wf h2
  | quantizedArray =>
    simp only at h'
    unfold loadQuant at h'
    obtain ⟨q, s2, h2, h'⟩ := rd_bind_inv h'
    cases h'
    exact (readQuantized_inv h2).1
  | _ => cases h'

/-- Anything `load_finalfusion` returns could have been built by the constructors. -/
theorem loadFinalfusion_built {T : Toml} {mm : Bool} {bs : Bytes} {e : Embeddings F32}
    (h : Rd.run (loadFinalfusion T mm) bs = .ok e) :
    BuiltEmb e ∧ (∀ ix, e.vocab.sub = some ix → NonNegIndex ix) ∧
      4 * e.vocab.words.length ≤ bs.length := by
  obtain ⟨s', h⟩ := rd_run_ok h
  unfold loadFinalfusion at h
  obtain ⟨_, s1, h1, h⟩ := rd_bind_inv h
  obtain ⟨⟨c, md⟩, s2, h2, h⟩ := rd_bind_inv h
  obtain ⟨v, s3, h3, h⟩ := rd_bind_inv h
  obtain ⟨st, s4, h4, h⟩ := rd_bind_inv h
  obtain ⟨n, s5, h5, h⟩ := rd_bind_inv h
  obtain ⟨h, _⟩ := rd_lift_inv h
  obtain ⟨hv, hn, hl⟩ := loadVocabPart_inv h3
  have hst := loadStoragePart_inv h4
  have hd : s2.data = bs := by
    have a := loadMetaPart_keeps T _ _ _ h2
    have b := readHeader_keeps _ _ _ h1
    rw [a, b]
  rw [hd] at hl
  have h' := h
  unfold Embeddings.new at h
  obtain ⟨_, _, h⟩ := res_bind_inv h
  cases h
  exact ⟨⟨hv, hst, h'⟩, hn, hl⟩

end FF
