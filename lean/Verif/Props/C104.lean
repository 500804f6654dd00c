import Verif.Lemmas.Unread
import Verif.Lemmas.FfOne
import Verif.Props.C103
/-! C104: the list of chunks, the lengths of chunks and the padding do not matter to `load_finalfusion`. -/

namespace FF
open Fifu

/-- On any file that loads: files of the same size that differ only in the list of chunks in the header, in the
lengths of the chunks of vocabulary, storage and norms, and in padding, are loaded as the same embeddings. -/
theorem C104_unread (T : Toml) (mmap : Bool) (bs : Bytes) (e : Embeddings F32)
    (hbs : bs.length + 4 < 2 ^ 63) (h : Rd.run (loadFinalfusion T mmap) bs = .ok e) :
    ∃ p1 p2 p3 p4, HeaderAt bs p1 ∧ MetaAt T bs p1 e.metadata p2 ∧
      VocabAt bs p2 e.vocab e.storage.nRows p3 ∧ StorageAt bs p3 e.storage p4 ∧
      NormsAt bs p4 e.vocab.words.length e.norms ∧
      ∀ bs', bs'.length = bs.length → (∀ i, ¬ Unread e p1 p2 p3 p4 i → bs'[i]? = bs[i]?) →
        Rd.run (loadFinalfusion T mmap) bs' = .ok e := by
  obtain ⟨p1, p2, p3, p4, a1, a2, a3, a4, a5, a6⟩ := (loadFinalfusion_iff T mmap bs e hbs).mp h
  refine ⟨p1, p2, p3, p4, a1, a2, a3, a4, a5, fun bs' hl ha => ?_⟩
  have l1 : 12 ≤ p1 := by obtain ⟨_, _, _, _, _, h⟩ := a1; omega
  have l2 := metaAt_le a2
  have l3 := (vocab_free a3 rfl fun _ _ _ _ => rfl).1
  obtain ⟨l4, l5, _⟩ := storage_free a4 rfl fun _ _ _ _ _ => rfl
  have hfe : 28 ≤ e.storage.fieldsEnd := by cases e.storage <;> simp [Storage.fieldsEnd]
  have hpd : ∀ {p i}, Padding p i → p ≤ i := fun ⟨_, _, h, _⟩ => h
  -- places outside of `Unread`
  have hout : ∀ i, ¬ (12 ≤ i ∧ i < p1) → ¬ LengthField p2 i → ¬ LengthField p3 i →
      ¬ Padding (p3 + e.storage.fieldsEnd) i →
      ¬ (e.norms.isSome ∧ (LengthField p4 i ∨ Padding (p4 + 24) i)) → bs'[i]? = bs[i]? := by
    intro i h1 h2 h3 h4 h5
    refine ha i ?_
    rintro (h | h | h | h | h)
    · exact h1 h
    · exact h2 h
    · exact h3 h
    · exact h4 h
    · exact h5 h
  have low : ∀ {p i}, i < p + 4 → ¬ LengthField p i := by rintro p i hi ⟨_, _⟩; omega
  have high : ∀ {p i}, p + 12 ≤ i → ¬ LengthField p i := by rintro p i hi ⟨_, _⟩; omega
  have below : ∀ {i}, i < p4 + 4 → ¬ (e.norms.isSome ∧ (LengthField p4 i ∨ Padding (p4 + 24) i)) := by
    rintro i hi ⟨_, h | h⟩
    · exact low hi h
    · have := hpd h; omega
  refine (loadFinalfusion_iff T mmap bs' e (by rw [hl]; exact hbs)).mpr ⟨p1, p2, p3, p4, ?_, ?_, ?_, ?_, ?_, ?_⟩
  · exact header_free a1 hl fun i hi => hout i (by omega) (low (by omega)) (low (by omega))
      (fun h => by have := hpd h; omega) (below (by omega))
  · exact meta_free a2 fun i hi hi' => hout i (by omega) (low (by omega)) (low (by omega))
      (fun h => by have := hpd h; omega) (below (by omega))
  · exact (vocab_free a3 hl fun i hi hi' hn => hout i (by omega) hn (low (by omega))
      (fun h => by have := hpd h; omega) (below (by omega))).2
  · exact (storage_free a4 hl fun i hi hi' hn hp => hout i (by omega) (high (by omega)) hn hp
      (below (by omega))).2.2
  · exact norms_free a5 hl fun i hi hn => hout i (by omega) (high (by omega)) (high (by omega))
      (fun h => by have := l5 i h; omega) hn
  · intro hm h0
    rw [hl]
    exact a6 hm h0

/-- One byte in such a place. -/
theorem C104_byte (T : Toml) (mmap : Bool) (bs : Bytes) (e : Embeddings F32)
    (hbs : bs.length + 4 < 2 ^ 63) (h : Rd.run (loadFinalfusion T mmap) bs = .ok e) :
    ∃ p1 p2 p3 p4, HeaderAt bs p1 ∧ MetaAt T bs p1 e.metadata p2 ∧
      VocabAt bs p2 e.vocab e.storage.nRows p3 ∧ StorageAt bs p3 e.storage p4 ∧
      ∀ pos b, Unread e p1 p2 p3 p4 pos → Rd.run (loadFinalfusion T mmap) (bs.set pos b) = .ok e := by
  obtain ⟨p1, p2, p3, p4, a1, a2, a3, a4, _, hall⟩ := C104_unread T mmap bs e hbs h
  refine ⟨p1, p2, p3, p4, a1, a2, a3, a4, fun pos b hpos => hall _ (by simp) fun i hi => ?_⟩
  exact List.getElem?_set_ne (by rintro rfl; exact hi hpos)

/-- The loaders of single parts do rely on the lengths: with another byte in the length of its first chunk the file of
`C103_sample` is loaded as before, but `load_storage` finds no storage in it. -/
theorem C104_parts_refuted : ∃ bs bs' : Bytes, (C103_sample.write Sample.toml).file = (.ok (), bs) ∧
    DiffersWithin bs bs' 24 25 ∧
    Rd.run (loadFinalfusion Sample.toml false) bs' = .ok C103_sample ∧
    Rd.run (loadStorage false) bs = .ok C103_sample.storage ∧
    Rd.run (loadStorage false) bs' = .error .valueError := by
  have hw : (C103_sample.write Sample.toml).file = (.ok (), (C103_sample.write Sample.toml).file.2) :=
    Sample.file_ok (by decide +kernel)
  refine ⟨_, (C103_sample.write Sample.toml).file.2.set 24 255, hw,
    ⟨by simp, fun i hi => List.getElem?_set_ne (by omega)⟩, ?_, by decide +kernel, by decide +kernel⟩
  have hl := C01_roundtrip_eq Sample.toml C103_sample _ C103_sample_built (by intro m s h; cases h) hw
    (by intro ix h; cases h)
  obtain ⟨p1, p2, p3, p4, a1, a2, _, _, hall⟩ := C104_byte Sample.toml false _ _ (by decide +kernel) hl
  have h1 : p1 = 20 := headerAt_unique a1 ⟨[1, 2], by decide, by decide, by decide,
    by unfold HasAt; decide +kernel, rfl⟩
  have h2 : p2 = p1 := a2
  subst h1 h2
  exact hall 24 255 (Or.inr (Or.inl ⟨by decide, by decide⟩))

/-! ### The hypotheses can be met -/

example : ∃ bs, bs.length + 4 < 2 ^ 63 ∧
    Rd.run (loadFinalfusion Sample.toml false) bs = .ok Sample.embSimple ∧ Sample.embSimple.norms.isSome := by
  obtain ⟨bs, h1, h2, _⟩ := Sample.simpleFile
  exact ⟨bs, h1, h2, rfl⟩

/-- The six kinds of places. -/
example : Unread Sample.embSimple 24 36 100 200 12 ∧ Unread Sample.embSimple 24 36 100 200 40 ∧
    Unread Sample.embSimple 24 36 100 200 111 ∧ Unread Sample.embSimple 24 36 100 200 128 ∧
    Unread Sample.embSimple 24 36 100 200 204 ∧ Unread Sample.embSimple 24 36 100 200 227 ∧
    ¬ Unread Sample.embSimple 24 36 100 200 24 ∧ ¬ Unread Sample.embSimple 24 36 100 200 132 := by
  have hp : ∀ i, Padding (100 + Sample.embSimple.storage.fieldsEnd) i ↔ 128 ≤ i ∧ i < 132 := by
    intro i
    constructor
    · rintro ⟨pad, ⟨h1, h2, h3⟩, h4, h5⟩
      have : 100 + Sample.embSimple.storage.fieldsEnd = 128 := rfl
      omega
    · rintro ⟨h1, h2⟩
      exact ⟨4, ⟨by decide, by decide, by decide⟩, h1, h2⟩
  have hn : ∀ i, Padding (200 + 24) i ↔ 224 ≤ i ∧ i < 228 := by
    intro i
    constructor
    · rintro ⟨pad, ⟨h1, h2, h3⟩, h4, h5⟩
      omega
    · rintro ⟨h1, h2⟩
      exact ⟨4, ⟨by decide, by decide, by decide⟩, h1, h2⟩
  unfold Unread LengthField
  simp only [hp, hn]
  refine ⟨?_, ?_, ?_, ?_, ?_, ?_, ?_, ?_⟩ <;> simp [Sample.embSimple]

end FF
