import Verif.Lemmas.Damage
import Verif.Lemmas.FfOne
import Verif.Lemmas.CutText
import Verif.Lemmas.Size
/-! Files with something after them. -/

namespace FF
open Fifu

/-! ### finalfusion -/

theorem Fifu.HasAt.append {bs enc : Bytes} {p : Nat} (h : HasAt bs p enc) (more : Bytes) : HasAt (bs ++ more) p enc := by
  unfold HasAt at h ⊢
  rw [List.drop_append]
  exact h.trans (List.prefix_append _ _)

theorem eqBelow_append (bs more : Bytes) : EqBelow bs (bs ++ more) bs.length := fun _ hi => by
  rw [List.getElem?_append_left hi]

theorem storageAt_append {bs : Bytes} {p q : Nat} {st : Storage F32} (h : StorageAt bs p st q) (more : Bytes) :
    StorageAt (bs ++ more) p st q := by
  have hh : ∀ {p id}, Head bs p id → Head (bs ++ more) p id := fun ⟨len, h1, h2⟩ => ⟨len, h1, h2.append more⟩
  cases h with
  | nd head fields a b shape c d elements se =>
    exact .nd (hh head) (fields.append more) a b shape c d (elements.append more) se
  | quant head fields a b c d e f g i j k elements se =>
    exact .quant (hh head) (fields.append more) a b c d e f g i j k (elements.append more) se

theorem head_fits {bs : Bytes} {p id : Nat} (h : Head bs p id) : p + 12 ≤ bs.length := by
  obtain ⟨len, _, h⟩ := h
  have := hasAt_le h (by intro h; have := congrArg List.length h; simp at this)
  simpa using this

theorem storageAt_head {bs : Bytes} {p q : Nat} {st : Storage F32} (h : StorageAt bs p st q) : p + 12 ≤ bs.length := by
  cases h with
  | nd head => exact head_fits head
  | quant head => exact head_fits head

theorem loadMetaPart_of {T : Toml} {bs : Bytes} {p1 p2 : Nat} {md : Option Meta} {c : ChunkId}
    (hlen : bs.length + 4 < 2 ^ 63) (hc : c ≠ .metadata) (hd : Head bs p2 c.toNat) (m1 : MetaAt T bs p1 md p2) :
    loadMetaPart T ⟨bs, p1⟩ = .ok ((c, md), ⟨bs, p2 + 12⟩) := by
  unfold loadMetaPart
  obtain ⟨n, s1, k⟩ := head_iff.mpr hd
  have := (readRequiredChunkHeader_iff.mp k).2.2
  subst this
  cases md with
  | none =>
    have : p2 = p1 := m1
    subst this
    rw [rd_bind_ok k]
    simp only
    rw [if_neg hc]
    rfl
  | some m =>
    have h4 := (readMetadata_iff (by omega)).mpr ⟨p2, m1, rfl⟩
    have hk : ∃ n s, readRequiredChunkHeader ⟨bs, p1⟩ = .ok ((.metadata, n), s) := by
      rw [head_iff]
      obtain ⟨text, _, _, h6, _⟩ := m1
      refine ⟨(utf8 text).length, ?_, ?_⟩
      · have := List.IsPrefix.length_le h6
        simp only [List.length_append, List.length_drop] at this
        omega
      · rw [hasAt_append] at h6
        exact h6.1
    obtain ⟨n', s1, k'⟩ := hk
    have := (readRequiredChunkHeader_iff.mp k').2.2
    subst this
    rw [rd_bind_ok k']
    simp only
    rw [if_pos trivial, rd_bind_ok h4, rd_bind_ok k]
    rfl

/-- Metadata, vocabulary and storage are determined by the bytes. -/
theorem parts_unique {T : Toml} {bs : Bytes} {p1 p2 p3 p4 q1 q2 q3 q4 r r' : Nat} {md md' : Option Meta}
    {v v' : Vocab} {st st' : Storage F32} (hlen : bs.length + 4 < 2 ^ 63)
    (a1 : HeaderAt bs p1) (a2 : MetaAt T bs p1 md p2) (a3 : VocabAt bs p2 v r p3) (a4 : StorageAt bs p3 st p4)
    (b1 : HeaderAt bs q1) (b2 : MetaAt T bs q1 md' q2) (b3 : VocabAt bs q2 v' r' q3) (b4 : StorageAt bs q3 st' q4) :
    md = md' ∧ v = v' ∧ st = st' ∧ p4 = q4 := by
  have := headerAt_unique a1 b1
  subst this
  obtain ⟨c, hc, hd, h3⟩ := loadVocabPart_of a3
  obtain ⟨c', hc', hd', h3'⟩ := loadVocabPart_of b3
  have e1 := (loadMetaPart_of hlen hc hd a2).symm.trans (loadMetaPart_of hlen hc' hd' b2)
  cases e1
  rw [h3] at h3'
  cases h3'
  have e2 := ((loadStoragePart_at hlen).mpr ⟨p4, a4, rfl⟩).symm.trans ((loadStoragePart_at hlen).mpr ⟨q4, b4, rfl⟩)
  cases e2
  exact ⟨rfl, rfl, rfl, rfl⟩

/-- Norms that are complete stay what they are. -/
theorem normsAt_append {bs : Bytes} {p words : Nat} {xs : List F32} {o : Option (List F32)} (more : Bytes)
    (hlen : (bs ++ more).length + 4 < 2 ^ 63) (h : NormsAt bs p words (some xs))
    (h' : NormsAt (bs ++ more) p words o) : o = some xs := by
  obtain ⟨n, pad, hh, hf, hp, hl, hx, h63, _⟩ := h
  cases o with
  | none =>
    have := head_fits hh
    have h' : (bs ++ more).length ≤ p := h'
    rw [List.length_append] at h'
    omega
  | some ys =>
    obtain ⟨n', pad', _, _, hp', hl', hy, _⟩ := h'
    have : pad = pad' := by
      obtain ⟨_, _, a⟩ := hp
      obtain ⟨_, _, b⟩ := hp'
      omega
    subst this
    have hx' := hx.append more
    have hf : floats xs = floats ys := by
      have l : (floats xs).length = (floats ys).length := by simp [hl, hl']
      rw [List.prefix_iff_eq_take.mp hx', List.prefix_iff_eq_take.mp hy, l]
    rw [floats_eq, floats_eq] at hf
    have := congrArg f32sOf hf
    rw [f32sOf_f32sLE, f32sOf_f32sLE] at this
    rw [this]

theorem loadNormsPart_more (norms : Option (List F32)) (hn : norms ≠ none) (p more : Bytes)
    (hr : ∀ n, norms = some n → n.length < 256 ^ 8 ∧ normsLen (padFloat32 (p.length + 4)) n < 256 ^ 8)
    (hl : (p ++ normsEnc p.length norms).length < maxSize) :
    ∃ s', loadNormsPart ⟨p ++ (normsEnc p.length norms ++ more), p.length⟩ = .ok (norms, s') := by
  cases norms with
  | none => exact absurd rfl hn
  | some n =>
    obtain ⟨h1, h2⟩ := hr n rfl
    unfold loadNormsPart
    have hh := readChunkHeader_parses .ndNorms _ p h2 (normsBody (padFloat32 (p.length + 4)) n ++ more)
    unfold normsEnc
    unfold chunkHead
    rw [List.append_assoc, ← List.append_assoc p, rd_bind_ok hh]
    simp only
    have := readNormsChunk_parses n p h1 hl (normsLen (padFloat32 (p.length + 4)) n) more
    unfold chunkHead at this
    rw [List.append_assoc] at this
    rw [rd_bind_ok this]
    exact ⟨_, rfl⟩

/-- A written file with norms, and anything after it. -/
theorem embLoad_more {T : Toml} {e : Embeddings F32} {ids : List Nat} {mb bs : Bytes} (more : Bytes)
    (hnorms : e.norms ≠ none)
    (h : EmbLayout T e ids mb bs) (hi0 : ids ≠ []) (hi1 : ids.length < 256 ^ 4)
    (hi2 : ∀ i ∈ ids, i < 256 ^ 4) (hw : EmbWF e)
    (hT : ∀ m str, e.metadata = some m → T.dumps m = .ok str → T.loads str = .ok m) :
    Rd.run (loadFinalfusion T false) (bs ++ more) = .ok (canonEmb e) := by
  have hsz := h.size
  obtain ⟨hmeta, heq, hvf, hvl, hsf, hsl, hnl, _⟩ := h
  generalize hH : headerEnc ids = H at *
  generalize hV : vocabEnc e.vocab = V at *
  generalize hS : storageEnc (H ++ mb ++ V).length e.storage = S at *
  generalize hN : normsEnc (H ++ mb ++ V ++ S).length e.norms = N at *
  have hsz' : H.length + mb.length + V.length + S.length + N.length < maxSize := by
    rw [heq] at hsz; simp only [List.length_append] at hsz; omega
  unfold Rd.run loadFinalfusion
  have h1 := readHeader_parses _ [] hi0 hi1 hi2
  rw [hH] at h1
  have h2 := loadMetaPart_parses hmeta hT H e.vocab.chunkId (vocabChunkId_ne _) _ hvl (by omega)
  have h3 := vocabRead_parses hw.vocab hvf hw.expl (H ++ (mb ++ chunkHead e.vocab.chunkId
    (vocabLen e.vocab)))
  rw [← loadVocabPart_eq] at h3
  have h4 := Steps.parses (loadStoragePart_head e.storage _ (H ++ mb ++ V) hsl)
    (readStorage_parses e.storage hw.storage hsf (H ++ mb ++ V) (by
      rw [hS]; simp only [List.length_append]; omega))
  rw [show chunkHead e.storage.chunkId (storageLen (padFloat32 ((H ++ mb ++ V).length + 4)) e.storage)
    ++ storageBody (padFloat32 ((H ++ mb ++ V).length + 4)) e.storage = S from hS] at h4
  obtain ⟨s', h5⟩ := loadNormsPart_more e.norms hnorms (H ++ mb ++ V ++ S) more hnl (by
    rw [hN]; simp only [List.length_append]; omega)
  rw [hN] at h5
  have hb : bs ++ more = [] ++ H ++ ((mb ++ chunkHead e.vocab.chunkId (vocabLen e.vocab)) ++
      (vocabBody e.vocab ++ (S ++ (N ++ more)))) := by
    rw [heq, ← hV]; simp [vocabEnc]
  rw [show ((⟨bs ++ more, 0⟩ : RFile)) = ⟨[] ++ H ++ ((mb ++ chunkHead e.vocab.chunkId (vocabLen e.vocab)) ++
      (vocabBody e.vocab ++ (S ++ (N ++ more)))), ([] : Bytes).length⟩ by rw [hb]; rfl]
  rw [rd_bind_ok (h1 _)]
  rw [List.nil_append, ← List.append_assoc, rd_bind_ok (h2 _)]
  simp only
  rw [← List.append_assoc, rd_bind_ok (h3 _)]
  have e4 : H ++ (mb ++ chunkHead e.vocab.chunkId (vocabLen e.vocab)) ++ vocabBody e.vocab
      = H ++ mb ++ V := by
    rw [← hV]; simp [vocabEnc]
  rw [e4, ← List.append_assoc, rd_bind_ok (h4 (N ++ more))]
  rw [← List.append_assoc] at h5 ⊢
  rw [rd_bind_ok h5]
  rw [embNew_canon hw]
  rfl

/-! ### Text -/

theorem utf8Char_newline {n : Nat} {enc : Bytes} (h : Utf8Char n enc) (h10 : (10 : UInt8) ∈ enc) : enc.length = 1 := by
  by_cases hn : 0x80 ≤ n
  · exact absurd (utf8Char_high h hn 10 h10) (by decide)
  · cases h with
    | one => rfl
    | two => omega
    | three => omega
    | four => omega

/-- A line end separates what is before from what is after. -/
theorem illFormed_append {bs sub : Bytes} (h : IllFormed bs sub) (hl : bs.getLast? = some 10) (more : Bytes) :
    IllFormed (bs ++ more) sub := by
  have hne : bs ≠ [] := by rintro rfl; cases hl
  have hpos := List.length_pos_iff.mpr hne
  obtain ⟨init, rfl⟩ : ∃ init, bs = init ++ [10] := by
    rw [List.getLast?_eq_some_iff] at hl; exact hl
  have key : ∀ n enc p, Utf8Char n enc → p <+: enc → p <+: init ++ [10] ++ more → p <+: init ++ [10] := by
    intro n enc p hu hp hm
    by_cases hle : p.length ≤ (init ++ [10]).length
    · exact List.prefix_of_prefix_length_le hm (List.prefix_append _ _) hle
    · have h1 : init ++ [10] <+: p := List.prefix_of_prefix_length_le (List.prefix_append _ _) hm (by omega)
      have h10 : (10 : UInt8) ∈ p := h1.subset (by simp)
      have := utf8Char_newline hu (hp.subset h10)
      have := hp.length_le
      have : 1 ≤ (init ++ [10]).length := by simp
      omega
  refine ⟨fun n enc hu hp => h.none n enc hu (key n enc enc hu (List.prefix_refl _) hp),
    h.start.trans (List.prefix_append _ _), h.ne, h.initial, ?_⟩
  rintro p hp ⟨n, enc, hu, hpe⟩
  exact h.longest p (key n enc p hu hpe hp) ⟨n, enc, hu, hpe⟩

theorem replaced_append {bs : Bytes} {s : PyStr} (h : Replaced bs s) (hl : bs = [] ∨ bs.getLast? = some 10)
    {more : Bytes} {t : PyStr} (h' : Replaced more t) : Replaced (bs ++ more) (s ++ t) := by
  have last : ∀ {a b : Bytes}, (a ++ b = [] ∨ (a ++ b).getLast? = some 10) → b = [] ∨ b.getLast? = some 10 := by
    intro a b hab
    by_cases hb : b = []
    · exact .inl hb
    · rcases hab with hab | hab
      · exact .inl (List.append_eq_nil_iff.mp hab).2
      · rw [List.getLast?_append_of_ne_nil _ hb] at hab
        exact .inr hab
  induction h with
  | nil => exact h'
  | good hc _ ih => rw [List.append_assoc]; exact .good hc (ih (last hl))
  | @bad sub bs s hb _ ih =>
    have h2 := hl.resolve_left (by
      intro h0
      exact hb.ne (List.append_eq_nil_iff.mp h0).1)
    have := illFormed_append hb h2 more
    rw [List.append_assoc] at this ⊢
    exact .bad this (ih (last hl))

theorem decodesTo_append {lossy : Bool} {b1 b2 : Bytes} {t1 t2 : PyStr} (h1 : DecodesTo lossy b1 t1)
    (h2 : DecodesTo lossy b2 t2) (hl : b1 = [] ∨ b1.getLast? = some 10) : DecodesTo lossy (b1 ++ b2) (t1 ++ t2) := by
  unfold DecodesTo at h1 h2 ⊢
  cases lossy with
  | true => exact replaced_append h1 hl h2
  | false => exact utf8Text_append h1 h2

theorem splitLines_joined {t1 t2 : PyStr} {l1 l2 : List PyStr} (h1 : SplitLines t1 l1) (h2 : SplitLines t2 l2)
    (hl : t1 = [] ∨ t1.getLast? = some 10) : SplitLines (t1 ++ t2) (l1 ++ l2) := by
  induction h1 with
  | nil => exact h2
  | @last l hb hne =>
    exact absurd rfl (hb 10 (List.mem_of_getLast? (hl.resolve_left hne))).1
  | @lf l rest ls hb _ ih =>
    rw [List.append_assoc]
    refine .lf hb (ih ?_)
    by_cases hr : rest = []
    · exact .inl hr
    · refine .inr ?_
      have := hl.resolve_left (by simp)
      rwa [List.getLast?_append_of_ne_nil _ (by simp), List.getLast?_cons_of_ne_nil hr] at this
  | @crlf l rest ls hb _ ih =>
    rw [List.append_assoc]
    refine .crlf hb (ih ?_)
    by_cases hr : rest = []
    · exact .inl hr
    · refine .inr ?_
      have := hl.resolve_left (by simp)
      rwa [List.getLast?_append_of_ne_nil _ (by simp), List.getLast?_cons_of_ne_nil (by simp),
        List.getLast?_cons_of_ne_nil hr] at this
  | @cr l rest ls hb hh _ ih =>
    have := hl.resolve_left (by simp)
    rw [List.getLast?_append_of_ne_nil _ (by simp)] at this
    cases rest with
    | nil => exact absurd this (by decide)
    | cons x xs =>
      rw [List.getLast?_cons_of_ne_nil (by simp)] at this
      rw [List.append_assoc]
      exact .cr hb (by simpa using hh) (ih (.inr this))

theorem utf8Char_last {n : Nat} {enc : Bytes} (h : Utf8Char n enc) (hl : enc.getLast? = some 10) : n = 10 ∧ enc = [10] := by
  have h1 := utf8Char_newline h (List.mem_of_getLast? hl)
  cases h with
  | one b _ =>
    have : b = 10 := by simpa using hl
    subst this
    exact ⟨rfl, rfl⟩
  | two => simp at h1
  | three => simp at h1
  | four => simp at h1

/-- The last character of a text whose last byte is a line feed is one. -/
theorem decodesTo_last {lossy : Bool} {bs : Bytes} {t : PyStr} (h : DecodesTo lossy bs t) (hl : bs.getLast? = some 10) :
    t.getLast? = some 10 := by
  have good : ∀ {c : Code} {enc bs : Bytes} {s : PyStr}, Utf8Char c.val enc → (bs = [] → s = []) →
      (bs.getLast? = some 10 → s.getLast? = some 10) → (enc ++ bs).getLast? = some 10 →
      (c :: s).getLast? = some 10 := by
    intro c enc bs s hc h0 ih hl
    by_cases hb : bs = []
    · rw [h0 hb]
      rw [hb, List.append_nil] at hl
      have := (utf8Char_last hc hl).1
      have : c = 10 := Fin.ext this
      rw [this]; rfl
    · rw [List.getLast?_append_of_ne_nil _ hb] at hl
      have := ih hl
      rw [List.getLast?_cons_of_ne_nil (by rintro rfl; cases this)]
      exact this
  cases lossy with
  | false =>
    replace h : Utf8Text t bs := h
    induction h with
    | nil => cases hl
    | @cons c enc s bs hc h ih => exact good hc (by rintro rfl; have := utf8Text_length h; exact List.length_eq_zero_iff.mp (by simpa using this)) ih hl
  | true =>
    replace h : Replaced bs t := h
    induction h with
    | nil => cases hl
    | good hc h ih => exact good hc (by rintro rfl; have := replaced_length h; exact List.length_eq_zero_iff.mp (by simpa using this)) ih hl
    | @bad sub bs s hb h ih =>
      have hbs : bs ≠ [] := by
        rintro rfl
        rw [List.append_nil] at hb hl
        have one : sub = [10] := by
          rcases hb.initial with h1 | ⟨n, enc, hu, hp⟩
          · obtain ⟨x, rfl⟩ := List.length_eq_one_iff.mp h1
            simpa using hl
          · have h1 := utf8Char_newline hu (hp.subset (List.mem_of_getLast? hl))
            have h2 := hp.length_le
            have h3 := List.length_pos_iff.mpr hb.ne
            obtain ⟨x, rfl⟩ := List.length_eq_one_iff.mp (show sub.length = 1 by omega)
            simpa using hl
        exact hb.none 10 [10] (.one 10 (by decide)) (by rw [one])
      rw [List.getLast?_append_of_ne_nil _ hbs] at hl
      have := ih hl
      rw [List.getLast?_cons_of_ne_nil (by rintro rfl; cases this)]
      exact this

end FF
