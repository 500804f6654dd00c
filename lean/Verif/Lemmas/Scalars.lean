import Verif.Lemmas.Utf8Lossy
import Verif.Lemmas.TextIO
import Verif.Lemmas.LoadBuilt
/-! Texts from files have no surrogates. -/

namespace FF

/-- No character of the text is a surrogate. -/
def Scalars (s : PyStr) : Prop := ∀ c ∈ s, isSurrogate c = false

theorem scalars_any {s : PyStr} : Scalars s ↔ s.any isSurrogate = false := by
  unfold Scalars
  rw [List.any_eq_false]
  simp

theorem Scalars.append {s t : PyStr} (hs : Scalars s) (ht : Scalars t) : Scalars (s ++ t) := by
  intro c hc
  rcases List.mem_append.mp hc with h | h
  · exact hs c h
  · exact ht c h

theorem Scalars.sub {s t : PyStr} (hs : Scalars s) (h : ∀ c ∈ t, c ∈ s) : Scalars t := fun c hc => hs c (h c hc)

theorem decodeLossy_scalars {lossy : Bool} {bs : Bytes} {s : PyStr} (h : decodeLossy lossy bs = .ok s) : Scalars s :=
  scalars_any.mpr (decodesTo_scalar (decodeLossy_iff.mp h))

theorem decode_scalars {bs : Bytes} {s : PyStr} (h : decode bs = .ok s) : Scalars s :=
  decodeLossy_scalars (lossy := false) h

theorem decodePartAux_scalars {lossy : Bool} {bs : Bytes} :
    ∀ {k : Nat} {r : PyStr × Bytes}, decodePartAux lossy k bs = .ok r → Scalars r.1 := by
  induction bs with
  | nil =>
    intro k r h
    cases k <;> (cases h; intro c hc; cases hc)
  | cons b bs ih =>
    intro k r h
    cases k with
    | succ k => exact ih h
    | zero =>
      unfold decodePartAux at h
      cases hu : utf8Step b bs with
      | good c k =>
        rw [hu] at h
        simp only at h
        cases hd : decodePartAux lossy k bs with
        | error x => rw [hd] at h; cases h
        | ok r' =>
          rw [hd] at h
          cases h
          obtain ⟨hc, _, _, _, _, _, hs⟩ := utf8Step_good hu
          intro x hx
          rcases List.mem_cons.mp hx with rfl | hx
          · rw [show toCode c = ⟨c, hc⟩ from toCode_val ⟨c, hc⟩]
            exact hs
          · exact ih hd x hx
      | bad k =>
        rw [hu] at h
        simp only at h
        split at h
        · cases h
          intro x hx
          cases hx
        · split at h
          · cases hd : decodePartAux lossy k bs with
            | error x => rw [hd] at h; cases h
            | ok r' =>
              rw [hd] at h
              cases h
              intro x hx
              rcases List.mem_cons.mp hx with rfl | hx
              · rfl
              · exact ih hd x hx
          · cases h

theorem newlines_mem {s : PyStr} : ∀ c ∈ newlines s, c ∈ s ∨ c = 10 := by
  induction s using newlines.induct with
  | case1 => intro c hc; cases hc
  | case2 => simp [newlines]
  | case3 ds ih =>
    intro c hc
    rw [newlines_crlf] at hc
    rcases List.mem_cons.mp hc with rfl | hc
    · exact .inr rfl
    · rcases ih c hc with h | h
      · exact .inl (by simp [h])
      · exact .inr h
  | case4 d ds hd ih =>
    intro c hc
    rw [newlines_cr (by simpa using hd)] at hc
    rcases List.mem_cons.mp hc with rfl | hc
    · exact .inr rfl
    · rcases ih c hc with h | h
      · exact .inl (List.mem_cons_of_mem _ h)
      · exact .inr h
  | case5 d ds hd ih =>
    intro c hc
    unfold newlines at hc
    rw [if_neg hd] at hc
    rcases List.mem_cons.mp hc with rfl | hc
    · exact .inl (by simp)
    · rcases ih c hc with h | h
      · exact .inl (List.mem_cons_of_mem _ h)
      · exact .inr h

theorem newlines_scalars {s : PyStr} (h : Scalars s) : Scalars (newlines s) := by
  intro c hc
  rcases newlines_mem c hc with h' | rfl
  · exact h c h'
  · rfl

theorem newlinesPart_scalars {final cr : Bool} {s : PyStr} (h : Scalars s) : Scalars (newlinesPart final cr s).1 := by
  have h' : Scalars (if cr && (s ≠ [] || final) then 13 :: s else s) := by
    split
    · intro c hc
      rcases List.mem_cons.mp hc with rfl | hc
      · rfl
      · exact h c hc
    · exact h
  unfold newlinesPart
  simp only
  generalize (if cr && (s ≠ [] || final) then 13 :: s else s) = out at h'
  split
  · exact newlines_scalars (h'.sub fun c hc => List.mem_of_mem_dropLast hc)
  · exact newlines_scalars h'

theorem readPieces_scalars {lossy : Bool} {ps : List Bytes} :
    ∀ {pend : Bytes} {cr : Bool}, Scalars (readPieces lossy pend cr ps).1 := by
  induction ps with
  | nil =>
    intro pend cr
    unfold readPieces
    cases hd : decodeLossy lossy pend with
    | error x => intro c hc; cases hc
    | ok s => exact newlinesPart_scalars (decodeLossy_scalars hd)
  | cons p ps ih =>
    intro pend cr
    unfold readPieces
    cases hd : decodePart lossy (pend ++ p) with
    | error x => intro c hc; cases hc
    | ok r => exact (newlinesPart_scalars (decodePartAux_scalars hd)).append ih

theorem decode_err {bs : Bytes} : ∀ {k : Nat} {x : PyErr}, decodeAux k bs = .error x → x = .unicodeDecodeError := by
  induction bs with
  | nil => intro k x h; cases k <;> cases h
  | cons b bs ih =>
    intro k x h
    cases k with
    | succ k => exact ih h
    | zero =>
      unfold decodeAux at h
      cases hu : utf8Step b bs with
      | good c k =>
        rw [hu] at h
        simp only at h
        cases hd : decodeAux k bs with
        | error y => rw [hd] at h; cases h; exact ih hd
        | ok r' => rw [hd] at h; cases h
      | bad k =>
        rw [hu] at h
        cases h
        rfl

theorem readPieces_stop {lossy : Bool} {ps : List Bytes} :
    ∀ {pend : Bytes} {cr : Bool} {x : PyErr}, (readPieces lossy pend cr ps).2 = some x → x = .unicodeDecodeError := by
  have aux : ∀ {bs : Bytes} {k : Nat} {x : PyErr}, decodePartAux lossy k bs = .error x → x = .unicodeDecodeError := by
    intro bs
    induction bs with
    | nil => intro k x h; cases k <;> cases h
    | cons b bs ih =>
      intro k x h
      cases k with
      | succ k => exact ih h
      | zero =>
        unfold decodePartAux at h
        cases hu : utf8Step b bs with
        | good c k =>
          rw [hu] at h
          simp only at h
          cases hd : decodePartAux lossy k bs with
          | error y => rw [hd] at h; cases h; exact ih hd
          | ok r' => rw [hd] at h; cases h
        | bad k =>
          rw [hu] at h
          simp only at h
          split at h
          · cases h
          · split at h
            · cases hd : decodePartAux lossy k bs with
              | error y => rw [hd] at h; cases h; exact ih hd
              | ok r' => rw [hd] at h; cases h
            · cases h
              rfl
  induction ps with
  | nil =>
    intro pend cr x h
    unfold readPieces at h
    cases hd : decodeLossy lossy pend with
    | error y =>
      rw [hd] at h
      cases h
      unfold decodeLossy at hd
      split at hd
      · cases hd
      · exact decode_err hd
    | ok s => rw [hd] at h; cases h
  | cons p ps ih =>
    intro pend cr x h
    unfold readPieces at h
    cases hd : decodePart lossy (pend ++ p) with
    | error y => rw [hd] at h; cases h; exact aux hd
    | ok r => rw [hd] at h; exact ih h

theorem linesOf_mem {s : PyStr} : ∀ l ∈ linesOf s, ∀ c ∈ l, c ∈ s := by
  induction s with
  | nil => intro l hl; cases hl
  | cons d s ih =>
    intro l hl c hc
    unfold linesOf at hl
    split at hl
    · rcases List.mem_cons.mp hl with rfl | hl
      · rw [List.mem_singleton.mp hc]
        exact List.mem_cons_self
      · exact List.mem_cons_of_mem _ (ih l hl c hc)
    · cases hs : linesOf s with
      | nil =>
        rw [hs] at hl
        rw [List.mem_singleton.mp hl] at hc
        rw [List.mem_singleton.mp hc]
        exact List.mem_cons_self
      | cons k ks =>
        rw [hs] at hl ih
        rcases List.mem_cons.mp hl with rfl | hl
        · rcases List.mem_cons.mp hc with rfl | hc
          · exact List.mem_cons_self
          · exact List.mem_cons_of_mem _ (ih k (by simp) c hc)
        · exact List.mem_cons_of_mem _ (ih l (List.mem_cons_of_mem _ hl) c hc)

theorem textLines_scalars [TextIO] {lossy : Bool} {bs : Bytes} : ∀ l ∈ (textLines lossy bs).lines, Scalars l := by
  have h : Scalars (readPieces lossy [] false (TextIO.cut bs)).1 := readPieces_scalars
  intro l hl
  unfold textLines at hl
  cases hr : readPieces lossy [] false (TextIO.cut bs) with
  | mk t o =>
    rw [hr] at hl h
    cases o with
    | none => exact h.sub (linesOf_mem l hl)
    | some x => exact h.sub (linesOf_mem l (List.mem_of_mem_filter hl))

theorem textLines_stop_kind [TextIO] {lossy : Bool} {bs : Bytes} {x : PyErr} (h : (textLines lossy bs).stop = some x) :
    x = .unicodeDecodeError := by
  unfold textLines at h
  cases hr : readPieces lossy [] false (TextIO.cut bs) with
  | mk t o =>
    rw [hr] at h
    cases o with
    | none => cases h
    | some y => cases h; exact readPieces_stop (congrArg Prod.snd hr)

theorem rstrip_mem {s : PyStr} : ∀ c ∈ rstrip s, c ∈ s := by
  induction s with
  | nil => intro c hc; cases hc
  | cons d s ih =>
    intro c hc
    unfold rstrip at hc
    cases hr : rstrip s with
    | nil =>
      rw [hr] at hc
      simp only at hc
      split at hc
      · cases hc
      · rw [List.mem_singleton.mp hc]
        exact List.mem_cons_self
    | cons e es =>
      rw [hr] at hc ih
      rcases List.mem_cons.mp hc with rfl | hc
      · exact List.mem_cons_self
      · exact List.mem_cons_of_mem _ (ih c hc)

theorem lstrip_mem {s : PyStr} : ∀ c ∈ lstrip s, c ∈ s := by
  induction s with
  | nil => intro c hc; cases hc
  | cons d s ih =>
    intro c hc
    unfold lstrip at hc
    split at hc
    · exact List.mem_cons_of_mem _ (ih c hc)
    · exact hc

theorem strip_mem {s : PyStr} : ∀ c ∈ strip s, c ∈ s := fun c hc => lstrip_mem c (rstrip_mem c hc)

theorem pieces_mem {sep : Code → Bool} {s : PyStr} : ∀ p ∈ pieces sep s, ∀ c ∈ p, c ∈ s := by
  induction s with
  | nil =>
    intro p hp c hc
    rw [List.mem_singleton.mp hp] at hc
    cases hc
  | cons d s ih =>
    intro p hp c hc
    unfold pieces at hp
    cases hs : pieces sep s with
    | nil =>
      rw [hs] at hp
      rw [List.mem_singleton.mp hp] at hc
      rw [List.mem_singleton.mp hc]
      exact List.mem_cons_self
    | cons q qs =>
      rw [hs] at hp ih
      simp only at hp
      split at hp
      · rcases List.mem_cons.mp hp with rfl | hp
        · cases hc
        · exact List.mem_cons_of_mem _ (ih p hp c hc)
      · rcases List.mem_cons.mp hp with rfl | hp
        · rcases List.mem_cons.mp hc with rfl | hc
          · exact List.mem_cons_self
          · exact List.mem_cons_of_mem _ (ih q (by simp) c hc)
        · exact List.mem_cons_of_mem _ (ih p (List.mem_cons_of_mem _ hp) c hc)

theorem reSplit_head_mem {s w : PyStr} {ps : List PyStr} (h : reSplit s = w :: ps) : ∀ c ∈ w, c ∈ s := by
  unfold reSplit at h
  cases hs : pieces isAsciiSpace s with
  | nil => rw [hs] at h; cases h
  | cons p qs =>
    rw [hs] at h
    cases h
    exact pieces_mem w (by rw [hs]; simp)

end FF
