import Verif.Lemmas.Damage
/-! Bytes that are not looked at. -/

namespace FF
open Fifu

private theorem uint_all (w : Nat) (b : Bytes) (h : b.length = w) : ∃ n, n < 256 ^ w ∧ uint w n = b :=
  ⟨unle b, by have := unle_lt b; rwa [h] at this, by rw [uint_eq, ← h, le_unle]⟩

private theorem ids_all : ∀ (n : Nat) (b : Bytes), b.length = 4 * n →
    ∃ ids : List Nat, ids.length = n ∧ (∀ i ∈ ids, i < 2 ^ 32) ∧ ids.flatMap (uint 4) = b := by
  intro n
  induction n with
  | zero =>
    intro b h
    have : b = [] := List.length_eq_zero_iff.mp (by omega)
    subst this
    exact ⟨[], rfl, by simp, rfl⟩
  | succ n ih =>
    intro b h
    obtain ⟨ids, h1, h2, h3⟩ := ih (b.drop 4) (by rw [List.length_drop]; omega)
    obtain ⟨k, hk, hk'⟩ := uint_all 4 (b.take 4) (by rw [List.length_take]; omega)
    refine ⟨k :: ids, by simp [h1], ?_, ?_⟩
    · intro i hi
      rcases List.mem_cons.mp hi with rfl | hi
      · exact hk
      · exact h2 i hi
    · rw [List.flatMap_cons, h3, hk', List.take_append_drop]

private theorem hasAt_fits {bs enc : Bytes} {p : Nat} (h : HasAt bs p enc) (h0 : 0 < enc.length) :
    p + enc.length ≤ bs.length := FF.hasAt_le h (by rintro rfl; simp at h0)

theorem head_free {bs bs' : Bytes} {p id : Nat} (h : Head bs p id) (hl : bs'.length = bs.length)
    (ha : ∀ i, p ≤ i → i < p + 4 → bs'[i]? = bs[i]?) : Head bs' p id := by
  obtain ⟨len, _, h2⟩ := h
  have hfit := hasAt_fits h2 (by simp)
  rw [hasAt_append] at h2
  simp only [List.length_append, length_uint] at hfit
  obtain ⟨n, h3, h4⟩ := uint_all 8 ((bs'.drop (p + 4)).take 8) (by
    rw [List.length_take, List.length_drop]; omega)
  refine ⟨n, by rw [← pow_64]; exact h3, ?_⟩
  rw [hasAt_append, length_uint, h4]
  exact ⟨HasAt.frame h2.1 fun i hi hi' => ha i hi (by rw [length_uint] at hi'; exact hi'), hasAt_of_take⟩

theorem header_free {bs bs' : Bytes} {p : Nat} (h : HeaderAt bs p) (hl : bs'.length = bs.length)
    (ha : ∀ i, i < 12 → bs'[i]? = bs[i]?) : HeaderAt bs' p := by
  obtain ⟨ids, h1, h2, h3, h4, h5⟩ := h
  have hfit := hasAt_fits h4 (by simp)
  have hlen := length_flatMap_uint4 ids
  rw [List.length_append, hlen] at hfit
  simp only [List.length_append, length_uint, List.length_cons, List.length_nil] at hfit
  obtain ⟨ids', g1, g2, g3⟩ := ids_all ids.length ((bs'.drop 12).take (4 * ids.length)) (by
    rw [List.length_take, List.length_drop]; omega)
  refine ⟨ids', ?_, by rw [g1]; exact h2, g2, ?_, by rw [g1]; exact h5⟩
  · rintro rfl
    exact h1 (List.length_eq_zero_iff.mp g1.symm)
  · rw [hasAt_append] at h4 ⊢
    rw [g1, g3]
    refine ⟨HasAt.frame h4.1 fun i _ hi => ha i ?_, ?_⟩
    · simpa using hi
    · have : (0 + ([0x46, 0x69, 0x46, 0x75] ++ uint 4 0 ++ uint 4 ids.length : Bytes).length) = 12 := by simp
      rw [this]
      exact hasAt_of_take

theorem meta_free {T : Toml} {bs bs' : Bytes} {p q : Nat} {md : Option Meta} (h : MetaAt T bs p md q)
    (ha : ∀ i, p ≤ i → i < q → bs'[i]? = bs[i]?) : MetaAt T bs' p md q := by
  cases md with
  | none => exact h
  | some m =>
    obtain ⟨text, h1, h2, h3, h4⟩ := h
    exact ⟨text, h1, h2, HasAt.frame h3 fun i hi hi' => ha i hi (by simp at hi'; omega), h4⟩

private theorem words_free {bs bs' : Bytes} {p q : Nat} {ws : List PyStr} (h : WordsAt bs p ws q)
    (ha : ∀ i, p ≤ i → i < q → bs'[i]? = bs[i]?) : WordsAt bs' p ws q := by
  obtain ⟨h1, h2, h3, h4, h5⟩ := h
  exact ⟨h1, h2, h3, HasAt.frame h4 fun i hi hi' => ha i hi (by omega), h5⟩

theorem vocab_free {bs bs' : Bytes} {p q r : Nat} {v : Vocab} (h : VocabAt bs p v r q)
    (hl : bs'.length = bs.length) (ha : ∀ i, p ≤ i → i < q → ¬ LengthField p i → bs'[i]? = bs[i]?) :
    p + 20 ≤ q ∧ VocabAt bs' p v r q := by
  unfold LengthField at ha
  have hhead : ∀ {id}, Head bs p id → p + 20 ≤ q → Head bs' p id := fun h hq =>
    head_free h hl fun i hi hi' => ha i hi (by omega) (by omega)
  cases h with
  | simple head count wa =>
    have := wordsAt_le wa
    exact ⟨this, .simple (hhead head this)
      (HasAt.frame count fun i hi hi' => ha i (by omega) (by simp at hi'; omega) (by omega))
      (words_free wa fun i hi hi' => ha i (by omega) hi' (by omega))⟩
  | bucket head f wa a b c d e =>
    have := wordsAt_le wa
    exact ⟨by omega, .bucket (hhead head (by omega))
      (HasAt.frame f fun i hi hi' => ha i (by omega) (by simp at hi'; omega) (by omega))
      (words_free wa fun i hi hi' => ha i (by omega) hi' (by omega)) a b c d e⟩
  | fastText head f wa a b c d e =>
    have := wordsAt_le wa
    exact ⟨by omega, .fastText (hhead head (by omega))
      (HasAt.frame f fun i hi hi' => ha i (by omega) (by simp at hi'; omega) (by omega))
      (words_free wa fun i hi hi' => ha i (by omega) hi' (by omega)) a b c d e⟩
  | explicit head f wa a b c d e g i j k l =>
    have := wordsAt_le wa
    exact ⟨by omega, .explicit (hhead head (by omega))
      (HasAt.frame f fun i hi hi' => ha i (by omega) (by simp at hi'; omega) (by omega))
      (words_free wa fun i hi hi' => ha i (by omega) (by omega) (by omega)) a b c d e g i j
      (HasAt.frame k fun i hi hi' => ha i (by omega) (by omega) (by omega)) l⟩

private theorem pad_unique {p a b : Nat} (ha : Pad p a) (hb : Pad p b) : a = b := by
  obtain ⟨a1, a2, a3⟩ := ha
  obtain ⟨b1, b2, b3⟩ := hb
  omega

private theorem not_padding {p pad i : Nat} (hp : Pad p pad) (h : i < p ∨ p + pad ≤ i) : ¬ Padding p i := by
  rintro ⟨pad', h1, h2, h3⟩
  obtain rfl := pad_unique h1 hp
  omega

theorem storage_free {bs bs' : Bytes} {p q : Nat} {st : Storage F32} (h : StorageAt bs p st q)
    (hl : bs'.length = bs.length)
    (ha : ∀ i, p ≤ i → i < q → ¬ LengthField p i → ¬ Padding (p + st.fieldsEnd) i → bs'[i]? = bs[i]?) :
    p + st.fieldsEnd < q ∧ (∀ i, Padding (p + st.fieldsEnd) i → i < q) ∧ StorageAt bs' p st q := by
  cases h with
  | @nd m pad _ head fields a b shape c d elements se =>
    have hfl := length_flatten_const m.cols m.rows shape
    have hfe : (Storage.nd m).fieldsEnd = 28 := rfl
    rw [hfe] at ha ⊢
    have hpos := d.1
    have hnl : ∀ i, p + 12 ≤ i → ¬ LengthField p i := fun i hi h => by obtain ⟨_, _⟩ := h; omega
    refine ⟨by omega, ?_, ?_⟩
    · rintro i ⟨pad', h1, h2, h3⟩
      obtain rfl := pad_unique h1 d
      omega
    · refine .nd (pad := pad) (head_free head hl fun i hi hi' => ha i hi (by omega) ?_ (not_padding d (by omega)))
        (HasAt.frame fields fun i hi hi' => ?_) a b shape c d (HasAt.frame elements fun i hi hi' => ?_) se
      · rintro ⟨_, _⟩; omega
      · simp only [List.length_append, length_uint] at hi'
        exact ha i (by omega) (by omega) (hnl i hi) (not_padding d (by omega))
      · rw [length_floats, hfl] at hi'
        exact ha i (by omega) (by omega) (hnl i (by omega)) (not_padding d (by omega))
  | @quant q' pf nf pad _ head fields a b c d e f g i j k elements se =>
    have hfe : (Storage.quant q').fieldsEnd = 48 := rfl
    rw [hfe] at ha ⊢
    have hpos := k.1
    have hnl : ∀ i, p + 12 ≤ i → ¬ LengthField p i := fun i hi h => by obtain ⟨_, _⟩ := h; omega
    refine ⟨by omega, ?_, ?_⟩
    · rintro i ⟨pad', h1, h2, h3⟩
      obtain rfl := pad_unique h1 k
      omega
    · refine .quant (pf := pf) (nf := nf) (pad := pad)
        (head_free head hl fun i hi hi' => ha i hi (by omega) ?_ (not_padding k (by omega)))
        (HasAt.frame fields fun i hi hi' => ?_) a b c d e f g i j k (HasAt.frame elements fun i hi hi' => ?_) se
      · rintro ⟨_, _⟩; omega
      · simp only [List.length_append, length_uint] at hi'
        exact ha i (by omega) (by omega) (hnl i hi) (not_padding k (by omega))
      · exact ha i (by omega) (by omega) (hnl i (by omega)) (not_padding k (by omega))

theorem norms_free {bs bs' : Bytes} {p k : Nat} {norms : Option (List F32)} (h : NormsAt bs p k norms)
    (hl : bs'.length = bs.length)
    (ha : ∀ i, p ≤ i → ¬ (norms.isSome ∧ (LengthField p i ∨ Padding (p + 24) i)) → bs'[i]? = bs[i]?) :
    NormsAt bs' p k norms := by
  cases norms with
  | none => show bs'.length ≤ p; rw [hl]; exact h
  | some xs =>
    obtain ⟨c, pad, h1, h3, h4, h5, h6, h7, h8⟩ := h
    have hnot : ∀ i, ¬ LengthField p i → ¬ Padding (p + 24) i →
        ¬ ((some xs).isSome = true ∧ (LengthField p i ∨ Padding (p + 24) i)) := by
      rintro i a b ⟨_, c | c⟩
      · exact a c
      · exact b c
    have hnl : ∀ i, p + 12 ≤ i → ¬ LengthField p i := fun i hi h => by obtain ⟨_, _⟩ := h; omega
    refine ⟨c, pad, head_free h1 hl fun i hi hi' => ha i hi (hnot i ?_ (not_padding h4 (by omega))),
      HasAt.frame h3 fun i hi hi' => ha i (by omega) (hnot i (hnl i hi) (not_padding h4 ?_)), h4, h5,
      HasAt.frame h6 fun i hi hi' => ha i (by omega) (hnot i (hnl i (by omega)) (not_padding h4 (by omega))), h7,
      by rw [hl]; exact h8⟩
    · rintro ⟨_, _⟩; omega
    · simp only [List.length_append, length_uint] at hi'; omega

end FF
