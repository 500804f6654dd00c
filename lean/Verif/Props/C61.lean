import Verif.Lemmas.FfOut
import Verif.Spec.Samples
/-! C61: finalfusion files load exactly when they follow the format, and are written in it. -/

namespace FF

/-- `load_finalfusion` returns `e` if and only if the bytes contain `e`, field by field.  Not
looked at: the identifiers in the header, the lengths of all chunks but the metadata, the padding,
and anything after the norms. -/
theorem C61_load (T : Toml) (mmap : Bool) (bs : Bytes) (e : Embeddings F32)
    (hbs : bs.length + 4 < 2 ^ 63) :
    Rd.run (loadFinalfusion T mmap) bs = .ok e ↔ Fifu.File T mmap bs e :=
  loadFinalfusion_iff T mmap bs e hbs

/-- The format is unambiguous. -/
theorem C61_unambiguous (T : Toml) (m1 m2 : Bool) (bs : Bytes) (e1 e2 : Embeddings F32)
    (hbs : bs.length + 4 < 2 ^ 63) (h1 : Fifu.File T m1 bs e1) (h2 : Fifu.File T m2 bs e2) :
    e1 = e2 := by
  have drop : ∀ {m e}, Fifu.File T m bs e → Fifu.File T false bs e := by
    rintro m e ⟨p1, p2, p3, p4, a1, a2, a3, a4, a5, _⟩
    exact ⟨p1, p2, p3, p4, a1, a2, a3, a4, a5, by simp⟩
  have h1 := (C61_load T false bs e1 hbs).mpr (drop h1)
  rw [(C61_load T false bs e2 hbs).mpr (drop h2)] at h1
  cases h1
  rfl

/-- `Embeddings.write` succeeds if and only if everything fits into its field, and then writes
these bytes. -/
theorem C61_write (T : Toml) (e : Embeddings F32) (bs : Bytes) (hw : StorageWF e.storage) :
    (e.write T).file = (.ok (), bs) ↔ Fifu.Out T e bs ∧ bs.length < 2 ^ 63 :=
  embWrite_iff hw

/-- What is written is in the format. -/
theorem C61_written (T : Toml) (e : Embeddings F32) (bs : Bytes) (he : BuiltEmb e)
    (hT : TomlOk T e.metadata) (hx : ∀ ix, e.vocab.sub ≠ some (.expl ix))
    (hbs : bs.length + 4 < 2 ^ 63) (h : Fifu.Out T e bs) : Fifu.File T false bs e := by
  rw [← C61_load T false bs e hbs]
  obtain ⟨mb, hb⟩ := embWrite_inv ((C61_write T e bs he.storage).mpr ⟨h, by omega⟩)
  have hwf := he.wf fun ix hix => absurd hix (hx ix)
  rw [embLoad hb hwf hT]
  have : canonVocab e.vocab = e.vocab := by
    unfold canonVocab
    rcases hs : e.vocab.sub with _ | (ix | ix | ix)
    · rfl
    · rfl
    · rfl
    · exact absurd hs (hx ix)
  rw [canonEmb, this]

/-! ### The hypotheses can be met -/

namespace Sample

/-- One word `a`, one row `[5]`.  The header announces chunk 9, the lengths of the chunks are
wrong, the padding is not zero, and the file ends with the matrix. -/
def oddFile : Bytes :=
  [0x46, 0x69, 0x46, 0x75, 0, 0, 0, 0, 1, 0, 0, 0, 9, 0, 0, 0] ++
  [1, 0, 0, 0, 77, 0, 0, 0, 0, 0, 0, 0, 1, 0, 0, 0, 0, 0, 0, 0, 1, 0, 0, 0, 97] ++
  [2, 0, 0, 0, 78, 0, 0, 0, 0, 0, 0, 0, 1, 0, 0, 0, 0, 0, 0, 0, 1, 0, 0, 0, 10, 0, 0, 0,
    79, 80, 81, 5, 0, 0, 0]

def oddEmb : Embeddings F32 := ⟨.nd ⟨1, [[5]]⟩, ⟨[[97]], [([97], 0)], none⟩, none, none⟩

instance (bs : Bytes) (pos : Nat) (enc : Bytes) : Decidable (Fifu.HasAt bs pos enc) :=
  inferInstanceAs (Decidable (enc <+: bs.drop pos))

theorem oddFile_file : Fifu.File toml true oddFile oddEmb :=
  ⟨16, 16, 41, 76, ⟨[9], by decide, by decide, by decide, by decide +kernel, rfl⟩, rfl,
    .simple ⟨77, by decide, by decide +kernel⟩ (by decide +kernel)
      ⟨by decide, by
        intro w hw
        rw [List.mem_singleton] at hw
        subst hw
        exact ⟨any_surrogate.mp (by decide), by decide⟩, by decide, by decide +kernel, by decide +kernel⟩,
    .nd (pad := 3) ⟨78, by decide, by decide +kernel⟩ (by decide +kernel) (by decide) (by decide)
      (by decide) (by unfold ShapeOk; decide) (by unfold Fifu.Pad; decide) (by decide +kernel) (by decide),
    (show oddFile.length ≤ 76 by decide),
    fun _ h => by
      have : ¬ Fifu.Empty oddEmb.storage := show ¬ 1 * 1 = 0 by decide
      exact absurd h this⟩

end Sample

example : Rd.run (loadFinalfusion Sample.toml true) Sample.oddFile = .ok Sample.oddEmb :=
  (C61_load Sample.toml true Sample.oddFile Sample.oddEmb (by decide)).mpr Sample.oddFile_file

example : ∃ bs, Fifu.Out Sample.toml Sample.embExpl bs ∧ bs.length < 2 ^ 63 :=
  ⟨_, (C61_write Sample.toml Sample.embExpl _ Sample.wfq).mp (Sample.file_ok Sample.writeExpl)⟩

example : ∃ bs, Fifu.Out Sample.toml Sample.embFt bs ∧ bs.length + 4 < 2 ^ 63 ∧
    BuiltEmb Sample.embFt ∧ TomlOk Sample.toml Sample.embFt.metadata ∧
    ∀ ix, Sample.embFt.vocab.sub ≠ some (.expl ix) :=
  ⟨_, ((C61_write Sample.toml Sample.embFt _ Sample.wfq).mp
    (Sample.file_ok (by decide +kernel))).1, by decide +kernel, Sample.builtEmbFt, Sample.tomlFt,
    by intro ix h; cases h⟩

end FF
