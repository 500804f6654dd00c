import Verif.Lemmas.LoadInv
import Verif.Props.C15
import Verif.Spec.Samples
/-! C10: whatever `load_finalfusion` returns is consistent. -/

namespace FF

/-- For every byte string (of a possible file size), any TOML library and either loading mode. -/
theorem C10_consistent (T : Toml) (mmap : Bool) (bs : Bytes) (e : Embeddings F32)
    (hbs : bs.length < 2 ^ 63) (h : Rd.run (loadFinalfusion T mmap) bs = .ok e) :
    e.vocab.words.Nodup ∧
    (∀ w i, Dict.get? e.vocab.index w = some i ↔ e.vocab.words[i]? = some w) ∧
    (e.storage.nRows : Int) = e.vocab.upperBound ∧
    (∀ n, e.norms = some n → n.length = e.vocab.words.length) ∧
    StorageWF e.storage ∧
    (∀ q i, e.vocab.idx q = .ok (some (.one i)) → i < e.storage.nRows) ∧
    (∀ q is, e.vocab.idx q = .ok (some (.many is)) →
      ∀ i ∈ is, (e.vocab.words.length : Int) ≤ i ∧ i < e.storage.nRows) ∧
    ∀ q ix br is, e.vocab.sub = some ix → e.vocab.subwordIndices ix q br = .ok is →
      ∀ i ∈ is, (e.vocab.words.length : Int) ≤ i ∧ i < e.storage.nRows := by
  obtain ⟨hb, hneg, hl⟩ := loadFinalfusion_built h
  have hnew := hb.new
  unfold Embeddings.new at hnew
  obtain ⟨_, hc, _⟩ := res_bind_inv hnew
  obtain ⟨hrows, hnorms⟩ := check_parts.mp hc
  have hr := C15_bounds_partial e.vocab hb.vocab (by omega) hneg
  refine ⟨hb.vocab.nodup, fun w i => hb.vocab.get, hrows, ?_, hb.storage, ?_, ?_, ?_⟩
  · intro n hn
    have := (hnorms n hn).2
    rw [hb.vocab.len] at this
    exact this.symm
  · intro q i hi
    have := ((hr q).2.1 _ hi).2
    omega
  · intro q is hi i him
    have := ((hr q).2.1 _ hi) i him
    omega
  · intro q ix br is hs hi i him
    have := ((hr q).2.2.1 ix br is hs hi) i him
    omega

/-- Files that load exist, with every kind of vocabulary. -/
example : ∃ bs e, bs.length < 2 ^ 63 ∧ Rd.run (loadFinalfusion Sample.toml false) bs = .ok e :=
  ⟨((Sample.embExpl.write Sample.toml).file).2, _, by decide +kernel,
    (Sample.ok_of_errOf (by decide +kernel)).choose_spec⟩

/-- A malformed file: the header announces other chunks than the file has; it loads. -/
example : ∃ bs e, bs.length < 2 ^ 63 ∧ Rd.run (loadFinalfusion Sample.toml true) bs = .ok e :=
  ⟨(((Sample.embBucket.write Sample.toml).file).2.take 12) ++ [8, 0, 0, 0] ++
      ((Sample.embBucket.write Sample.toml).file).2.drop 16, _, by decide +kernel,
    (Sample.ok_of_errOf (by decide +kernel)).choose_spec⟩

end FF
