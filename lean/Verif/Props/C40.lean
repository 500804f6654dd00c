import Verif.Lemmas.Text
import Verif.Props.C38
/-! C40: round trip of the text formats. -/

namespace FF

section
variable {K : Type} [NumOps K] [NumText K]

/-- The writers write the text format: the words in order, each with its row times its norm, and
nothing for subwords. -/
theorem C40_written (dims : Bool) (e : Embeddings K) (he : BuiltEmb e) (sep : PyStr) (bs : Bytes)
    (h : (writeText dims e sep).file = (.ok (), bs)) :
    ∃ rows : List (PyStr × List PyStr), bs = utf8 (textFile dims sep e.storage.nCols rows) ∧
      rows.map Prod.fst = e.vocab.words ∧
      ∀ (i : Nat) w ps, rows[i]? = some (w, ps) → ∃ v, Exported e i v ∧ ps = v.map NumText.str := by
  obtain ⟨vs, h1, _, h2⟩ := writeText_inv he h
  have hl := h1.1
  refine ⟨_, h2, ?_, ?_⟩
  · rw [strRows, List.map_map]
    exact List.map_fst_zip (by omega)
  · intro i w ps hr
    unfold strRows at hr
    rw [List.getElem?_map] at hr
    obtain ⟨⟨w', v⟩, hz, hp⟩ := Option.map_eq_some_iff.mp hr
    have hv := (List.getElem?_zip_eq_some.mp hz).2
    exact ⟨v, h1.2 i v hv, (Prod.mk.inj hp).2.symm⟩

/-- `load_text_dims` on a file in text-dims format. -/
theorem C40_load_dims [TextIO] (lossy : Bool) (sep : PyStr) (hs : TextSep sep) (cols : Nat)
    (rows : List (PyStr × List K)) (h : TextRows cols rows) :
    ∃ e : Embeddings K, loadTextDims lossy (utf8 (textFile true sep cols (strRows rows))) = .ok e ∧
      Normalized cols (rows.map Prod.fst) (rows.map Prod.snd) e :=
  ⟨_, loadTextDims_ok lossy h hs, w2vResult_normalized h.nodup⟩

/-- `load_text` on a file in text format. -/
theorem C40_load [TextIO] (lossy : Bool) (sep : PyStr) (hs : TextSep sep) (cols : Nat)
    (rows : List (PyStr × List K)) (h : TextRows cols rows) (hne : rows ≠ []) :
    ∃ e : Embeddings K, loadText lossy (utf8 (textFile false sep cols (strRows rows))) = .ok e ∧
      Normalized cols (rows.map Prod.fst) (rows.map Prod.snd) e :=
  ⟨_, loadText_ok lossy h hne hs, w2vResult_normalized h.nodup⟩

/-- The embeddings can be written as text and read back. -/
structure TextReady (e : Embeddings K) : Prop where
  codes : CodesOk e.storage
  words : ∀ w ∈ e.vocab.words, TextWord w
  zero : e.storage.nCols = 0 → ∀ w ∈ e.vocab.words, ∀ c, w.getLast? = some c → isSpace c = false
  nums : ∀ i v, i < e.vocab.words.length → Exported e i v → ∀ x ∈ v, Printable x
  shape : ShapeOk e.vocab.words.length e.storage.nCols

theorem TextReady.rows {e : Embeddings K} (h : TextReady e) (he : BuiltEmb e) {vs : List (List K)}
    (hv : ExportedAll e vs) : TextRows e.storage.nCols (e.vocab.words.zip vs) := by
  have hl := hv.1
  have hlen : (e.vocab.words.zip vs).length = e.vocab.words.length := by
    rw [List.length_zip]; omega
  have hex : ∀ p ∈ e.vocab.words.zip vs, ∃ i, i < e.vocab.words.length ∧ Exported e i p.2 := by
    intro p hp
    obtain ⟨i, hi, rfl⟩ := List.getElem_of_mem hp
    have hz := List.getElem?_eq_getElem hi
    have hz' : (e.vocab.words.zip vs)[i]? =
        some ((e.vocab.words.zip vs)[i].1, (e.vocab.words.zip vs)[i].2) := hz
    exact ⟨i, by omega, hv.2 i _ (List.getElem?_zip_eq_some.mp hz').2⟩
  refine ⟨?_, ?_, ?_, ?_, ?_, ?_⟩
  · exact fun p hp => h.words _ (List.of_mem_zip hp).1
  · exact fun h0 p hp => h.zero h0 _ (List.of_mem_zip hp).1
  · intro p hp
    obtain ⟨i, hi, hx⟩ := hex p hp
    exact h.nums i _ hi hx
  · intro p hp
    obtain ⟨i, hi, hx⟩ := hex p hp
    exact exported_length he hx
  · rw [List.map_fst_zip (by omega)]
    exact he.vocab.nodup
  · rw [hlen]; exact h.shape

theorem TextReady.write {e : Embeddings K} (h : TextReady e) (he : BuiltEmb e) {dims : Bool}
    {sep : PyStr} (hs : TextSep sep) {vs : List (List K)} (hv : ExportedAll e vs)
    (hsz : (utf8 (textFile dims sep e.storage.nCols (strRows (e.vocab.words.zip vs)))).length < 2 ^ 63) :
    (writeText dims e sep).file =
      (.ok (), utf8 (textFile dims sep e.storage.nCols (strRows (e.vocab.words.zip vs)))) := by
  refine writeText_ok he hv (fun w hw => any_surrogate.mpr (h.words w hw).2)
    (any_surrogate.mpr fun c hc => ?_) (fun v hvm => any_surrogate.mpr fun c hc => ?_) hsz
  · have := hs.2 c hc
    omega
  · rcases mem_intercalate hc with rfl | ⟨s, hs', hcs⟩
    · decide
    · obtain ⟨x, hx, rfl⟩ := List.mem_map.mp hs'
      obtain ⟨i, hi, rfl⟩ := List.getElem_of_mem hvm
      have hl := hv.1
      have := (h.nums i _ (by omega) (hv.2 i _ (List.getElem?_eq_getElem hi)) x hx).1.2 c hcs
      omega

/-- Text-dims round trip: same words, exported vectors normalised, and their norms. -/
theorem C40_round_trip_dims [TextIO] (lossy : Bool) (sep : PyStr) (hs : TextSep sep) (e : Embeddings K)
    (he : BuiltEmb e) (hr : TextReady e)
    (hsz : ∀ vs, ExportedAll e vs →
      (utf8 (textFile true sep e.storage.nCols (strRows (e.vocab.words.zip vs)))).length < 2 ^ 63) :
    ∃ vs bs e', ExportedAll e vs ∧ (writeText true e sep).file = (.ok (), bs) ∧
      loadTextDims lossy bs = .ok e' ∧ Normalized e.storage.nCols e.vocab.words vs e' := by
  obtain ⟨vs, hv⟩ := exportedAll_total he hr.codes
  obtain ⟨e', h1, h2⟩ := C40_load_dims lossy sep hs _ _ (hr.rows he hv)
  rw [List.map_fst_zip (by have := hv.1; omega), List.map_snd_zip (by have := hv.1; omega)] at h2
  exact ⟨vs, _, e', hv, hr.write he hs hv (hsz vs hv), h1, h2⟩

/-- Text round trip, for at least one word. -/
theorem C40_round_trip [TextIO] (lossy : Bool) (sep : PyStr) (hs : TextSep sep) (e : Embeddings K)
    (he : BuiltEmb e) (hr : TextReady e) (hne : e.vocab.words ≠ [])
    (hsz : ∀ vs, ExportedAll e vs →
      (utf8 (textFile false sep e.storage.nCols (strRows (e.vocab.words.zip vs)))).length < 2 ^ 63) :
    ∃ vs bs e', ExportedAll e vs ∧ (writeText false e sep).file = (.ok (), bs) ∧
      loadText lossy bs = .ok e' ∧ Normalized e.storage.nCols e.vocab.words vs e' := by
  obtain ⟨vs, hv⟩ := exportedAll_total he hr.codes
  have hl := hv.1
  obtain ⟨e', h1, h2⟩ := C40_load lossy sep hs _ _ (hr.rows he hv) (by
    intro h0
    apply hne
    have h3 : (e.vocab.words.zip vs).length = 0 := by rw [h0]; rfl
    rw [List.length_zip] at h3
    exact List.eq_nil_of_length_eq_zero (by omega))
  rw [List.map_fst_zip (by omega), List.map_snd_zip (by omega)] at h2
  exact ⟨vs, _, e', hv, hr.write he hs hv (hsz vs hv), h1, h2⟩

/-- Without words `load_text` fails on the (empty) file that `write_text` writes. -/
theorem C40_no_words [TextIO] (lossy : Bool) (sep : PyStr) (e : Embeddings K) (he : BuiltEmb e)
    (hw : e.vocab.words = []) :
    (writeText false e sep).file = (.ok (), []) ∧
      (loadText lossy ([] : Bytes) : Res (Embeddings K)) = .error .valueError := by
  constructor
  · obtain ⟨m, hm, _⟩ := slice_words he.storage he.words_le
    rw [← he.vocab.len] at hm
    unfold Wr.file writeText
    rw [hm, wr_bind_ok (wr_lift_ok _ _), hw]
    rfl
  · unfold loadText
    rw [textLines_of_decode (text := []) (by cases lossy <;> rfl)]
    rfl

end

namespace Sample

/-- Numbers as decimal bit patterns. -/
def f32Text : NumText F32 where
  str x := decimal x.toNat
  parse s := (pyInt s).bind fun n => .ok (UInt32.ofNat n.toNat)

theorem f32Text_printable (x : F32) : @Printable F32 f32Text x := by
  refine ⟨⟨decimal_ne_nil _, fun c hc => ?_⟩, ?_⟩
  · have := decimal_digits _ c hc
    omega
  · show (pyInt (decimal x.toNat)).bind _ = _
    rw [pyInt_decimal]
    show Except.ok _ = Except.ok x
    simp

theorem textWords : ∀ w ∈ words, TextWord w := by
  have h : ∀ w ∈ words, (w.all fun c => !isAsciiSpace c) = true ∧ w.any isSurrogate = false := by decide
  intro w hw
  obtain ⟨h1, h2⟩ := h w hw
  exact ⟨by simpa using h1, any_surrogate.mp h2⟩

theorem textReady : @TextReady F32 f32Ops f32Text embBucket :=
  @TextReady.mk F32 f32Ops f32Text embBucket trivial textWords (by decide)
    (fun _ _ _ _ x _ => f32Text_printable x) (by unfold ShapeOk; decide)

theorem exportedBucket : @ExportedAll F32 f32Ops embBucket [[7, 14], [24, 32], [45, 54]] := by
  refine ⟨rfl, fun i v hv => (@exportRow_ok F32 f32Ops embBucket (.nd nd5) i v builtEmbBucket rfl).mp ?_⟩
  match i, hv with
  | 0, hv => cases hv; decide
  | 1, hv => cases hv; decide
  | 2, hv => cases hv; decide

/-- Norms and subword rows: both matter.  The separator is a tab. -/
example : ∃ vs bs e', @ExportedAll F32 f32Ops embBucket vs ∧
    (@writeText F32 f32Ops f32Text true embBucket [9]).file = (.ok (), bs) ∧
    @loadTextDims F32 f32Ops f32Text textIO false bs = .ok e' ∧ @Normalized F32 f32Ops 2 words vs e' :=
  @C40_round_trip_dims F32 f32Ops f32Text textIO false [9] ⟨by decide, by
      intro c hc; rw [List.mem_singleton] at hc; subst hc; decide⟩ embBucket builtEmbBucket textReady
    (by
      intro vs hv
      rw [@exportedAll_unique F32 f32Ops _ builtEmbBucket _ _ hv exportedBucket]
      decide +kernel)

example : ∃ vs bs e', @ExportedAll F32 f32Ops embBucket vs ∧
    (@writeText F32 f32Ops f32Text false embBucket [32]).file = (.ok (), bs) ∧
    @loadText F32 f32Ops f32Text textIO true bs = .ok e' ∧ @Normalized F32 f32Ops 2 words vs e' :=
  @C40_round_trip F32 f32Ops f32Text textIO true [32] ⟨by decide, by
      intro c hc; rw [List.mem_singleton] at hc; subst hc; decide⟩ embBucket builtEmbBucket textReady
    (by decide) (by
      intro vs hv
      rw [@exportedAll_unique F32 f32Ops _ builtEmbBucket _ _ hv exportedBucket]
      decide +kernel)

/-- `2 2`, `a 7 14`, `ß 24 32` -/
example : (@writeText F32 f32Ops f32Text true embBucket [32]).file.2 = utf8 (
    [51, 32, 50, 10] ++ [97, 32, 55, 32, 49, 52, 10] ++ [0xDF, 32, 50, 52, 32, 51, 50, 10] ++
    [0x8A9E, 32, 52, 53, 32, 53, 52, 10]) := by decide +kernel

/-- Embeddings without words. -/
def embNone : Embeddings F32 := ⟨.nd ⟨2, []⟩, ⟨[], [], none⟩, none, none⟩

theorem builtEmbNone : BuiltEmb embNone :=
  ⟨⟨(by intro ix h; cases h), (by decide)⟩, (by unfold StorageWF embNone Mat.WF ShapeOk; decide), rfl⟩

example : (@writeText F32 f32Ops f32Text false embNone [32]).file = (.ok (), []) ∧
    @loadText F32 f32Ops f32Text textIO false [] = .error .valueError :=
  @C40_no_words F32 f32Ops f32Text textIO false [32] embNone builtEmbNone rfl


end Sample

end FF
