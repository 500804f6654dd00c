import Verif.Lemmas.Mmap
import Verif.Lemmas.Built
import Verif.Lemmas.MmapEmpty
import Verif.Spec.Samples
/-! C12: memory mapping against reading. -/

namespace FF

/-- On every byte string: if loading with `mmap=True` succeeds, loading without gives the
same embeddings. -/
theorem C12_mmap_agrees (T : Toml) (bs : Bytes) (e : Embeddings F32)
    (h : Rd.run (loadFinalfusion T true) bs = .ok e) :
    Rd.run (loadFinalfusion T false) bs = .ok e := by
  obtain ⟨s', h⟩ := rd_run_ok h
  exact rd_run_of (loadFinalfusion_mmap_read h)

/-- The same for `load_storage`. -/
theorem C12_storage_mmap_agrees (bs : Bytes) (st : Storage F32)
    (h : Rd.run (loadStorage true) bs = .ok st) : Rd.run (loadStorage false) bs = .ok st := by
  obtain ⟨s', h⟩ := rd_run_ok h
  exact rd_run_of (loadStorage_mmap_read h)

/-- On every byte string a file system can hold: if reading succeeds and the matrix is not
empty, mapping succeeds with the same result.  (Missing: empty matrices, see
`C12_empty_refuted`.) -/
theorem C12_mmap_succeeds_partial (T : Toml) (bs : Bytes) (e : Embeddings F32)
    (hl : bs.length < maxSize) (h : Rd.run (loadFinalfusion T false) bs = .ok e)
    (h0 : e.storage.nonempty) : Rd.run (loadFinalfusion T true) bs = .ok e := by
  obtain ⟨s', h⟩ := rd_run_ok h
  exact rd_run_of (loadFinalfusion_read_mmap h h0 hl)

/-- The same for `load_storage`. -/
theorem C12_storage_mmap_succeeds_partial (bs : Bytes) (st : Storage F32)
    (hl : bs.length < maxSize) (h : Rd.run (loadStorage false) bs = .ok st)
    (h0 : st.nonempty) : Rd.run (loadStorage true) bs = .ok st := by
  obtain ⟨s', h⟩ := rd_run_ok h
  exact rd_run_of (loadStorage_read_mmap h h0 hl)

/-- Writing and loading with `mmap=True`. -/
theorem C12_roundtrip_mmap (T : Toml) (e : Embeddings F32) (bs : Bytes)
    (he : BuiltEmb e) (hg : HasNgrams e.vocab) (hT : TomlOk T e.metadata)
    (h0 : e.storage.nonempty) (hw : (e.write T).file = (.ok (), bs)) :
    ∃ e', Rd.run (loadFinalfusion T true) bs = .ok e' ∧ SameEmb e e' := by
  obtain ⟨mb, h⟩ := embWrite_inv hw
  have hwf := he.wf hg
  exact ⟨canonEmb e, C12_mmap_succeeds_partial T bs _ h.size (embLoad h hwf hT) h0,
    canonEmb_same hwf h⟩

/-- A TOML codec whose output has 4008 characters. -/
def C12_toml : Toml := ⟨fun _ => .ok (List.replicate 4008 ⟨97, by decide⟩), fun _ => .ok []⟩

/-- Embeddings without words. -/
def C12_witness : Embeddings F32 := ⟨.nd ⟨2, []⟩, ⟨[], [], none⟩, none, some []⟩

/-- A file with an empty matrix that ends at a page boundary is read, but cannot be mapped:
numpy calls `mmap` with length zero at the end of the file. -/
theorem C12_empty_refuted : ∃ (T : Toml) (e e' : Embeddings F32) (bs : Bytes),
    BuiltEmb e ∧ (e.write T).file = (.ok (), bs) ∧
    Rd.run (loadFinalfusion T false) bs = .ok e' ∧
    Rd.run (loadFinalfusion T true) bs = .error .valueError := by
  obtain ⟨e', he'⟩ := Sample.ok_of_errOf (r := Rd.run (loadFinalfusion C12_toml false)
    ((C12_witness.write C12_toml).file).2) (by decide +kernel)
  refine ⟨C12_toml, C12_witness, e', _, ?_, Sample.file_ok (by decide +kernel), he',
    Sample.of_errOf (by decide +kernel)⟩
  refine ⟨⟨(by intro ix h; cases h), by decide⟩, ?_, rfl⟩
  unfold StorageWF C12_witness Mat.WF ShapeOk; decide

/-- Exactly which written files cannot be mapped: those with an empty matrix, without norms, whose
length is a multiple of the page size.  All others load with `mmap=True` as they do without. -/
theorem C12_written_exact (T : Toml) (e : Embeddings F32) (bs : Bytes)
    (he : BuiltEmb e) (hg : HasNgrams e.vocab) (hT : TomlOk T e.metadata)
    (hw : (e.write T).file = (.ok (), bs)) :
    (¬ e.storage.nonempty ∧ e.norms = none ∧ bs.length % 4096 = 0 →
      Rd.run (loadFinalfusion T true) bs = .error .valueError) ∧
    (¬ (¬ e.storage.nonempty ∧ e.norms = none ∧ bs.length % 4096 = 0) →
      ∃ e', SameEmb e e' ∧ Rd.run (loadFinalfusion T true) bs = .ok e' ∧
        Rd.run (loadFinalfusion T false) bs = .ok e') := by
  obtain ⟨mb, h⟩ := embWrite_inv hw
  have hwf := he.wf hg
  constructor
  · rintro ⟨h0, hc⟩
    rw [embLoad_mmap_empty h hwf hT h0]
    exact if_pos hc
  · intro hc
    refine ⟨canonEmb e, canonEmb_same hwf h, ?_, embLoad h hwf hT⟩
    by_cases h0 : e.storage.nonempty
    · exact C12_mmap_succeeds_partial T bs _ h.size (embLoad h hwf hT) h0
    · rw [embLoad_mmap_empty h hwf hT h0]
      exact if_neg fun hx => hc ⟨h0, hx⟩

/-! ### The hypotheses can be met -/

/-- Both cases of `C12_written_exact` occur for an empty matrix. -/
example : ∃ bs, (C12_witness.write C12_toml).file = (.ok (), bs) ∧
    ¬ C12_witness.storage.nonempty ∧ C12_witness.norms = none ∧ bs.length % 4096 = 0 :=
  ⟨_, Sample.file_ok (by decide +kernel), fun h => h rfl, rfl, by decide +kernel⟩

example : ∃ bs, (C12_witness.write Sample.toml).file = (.ok (), bs) ∧
    ¬ C12_witness.storage.nonempty ∧ bs.length % 4096 ≠ 0 :=
  ⟨_, Sample.file_ok (by decide +kernel), fun h => h rfl, by decide +kernel⟩

theorem Sample.loadSimple :
    Sample.errOf (Rd.run (loadFinalfusion Sample.toml false)
      ((Sample.embSimple.write Sample.toml).file).2) = none := by decide +kernel

theorem Sample.mmapSimple :
    Sample.errOf (Rd.run (loadFinalfusion Sample.toml true)
      ((Sample.embSimple.write Sample.toml).file).2) = none := by decide +kernel

example : ∃ bs e, Rd.run (loadFinalfusion Sample.toml true) bs = .ok e :=
  ⟨_, Sample.ok_of_errOf Sample.mmapSimple⟩

example : ∃ bs st, Rd.run (loadStorage true) bs = .ok st :=
  ⟨((Sample.embSimple.write Sample.toml).file).2, Sample.ok_of_errOf (by decide +kernel)⟩

example : ∃ bs, bs.length < maxSize ∧
    Rd.run (loadFinalfusion Sample.toml false) bs = .ok Sample.embSimple ∧
    Sample.embSimple.storage.nonempty := by
  obtain ⟨mb, h⟩ := embWrite_inv (Sample.file_ok Sample.writeSimple)
  refine ⟨_, h.size, embLoad h (Sample.builtEmbSimple.wf Sample.ngSimple) Sample.tomlSimple, ?_⟩
  show _ ≠ _; decide

example : ∃ bs st, bs.length < maxSize ∧ Rd.run (loadStorage false) bs = .ok st ∧ st.nonempty :=
  ⟨((Sample.embSimple.write Sample.toml).file).2, .nd Sample.nd3, by decide +kernel,
    by decide +kernel, by show _ ≠ _; decide⟩

example : ∃ bs, (Sample.embExpl.write Sample.toml).file = (.ok (), bs) ∧
    BuiltEmb Sample.embExpl ∧ HasNgrams Sample.embExpl.vocab ∧
    TomlOk Sample.toml Sample.embExpl.metadata ∧ Sample.embExpl.storage.nonempty :=
  ⟨_, Sample.file_ok Sample.writeExpl, Sample.builtEmbExpl, Sample.ngExpl, Sample.tomlExpl,
    by show _ ≠ _; decide⟩

end FF
