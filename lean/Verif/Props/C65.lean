import Verif.Props.C44
import Verif.Props.C45
import Verif.Props.C55
import Verif.Props.C59
/-!
# C65: text files are decoded piece by piece

Python's text files read some bytes, decode them, hand out the lines that are complete and read on.  Where a
file is cut into pieces depends on buffer sizes and the operating system (`TextIO`).  Whether this can be
observed is said here.
-/

namespace FF

/-- Whatever the pieces are, iterating over a text file yields certain lines and ends in a certain way. -/
theorem C65_yields [TextIO] (lossy : Bool) (bs : Bytes) :
    ∃! p : List PyStr × Option PyErr, Yields lossy bs p.1 p.2 := by
  obtain ⟨ls, stop, h⟩ := yields_total lossy bs
  refine ⟨(ls, stop), h, ?_⟩
  rintro ⟨ms, t⟩ hm
  obtain ⟨rfl, rfl⟩ := yields_unique h hm
  rfl

/-- The model of iterating over a text file yields these lines, with or (the last one) without `\n`, and
ends like that.  Decoding the pieces one after the other, with characters and `\r\n` that are divided between
pieces, is the same as decoding everything, except for where an exception is raised. -/
theorem C65_lines [TextIO] (lossy : Bool) (bs : Bytes) (ls : List PyStr) (stop : Option PyErr)
    (h : Yields lossy bs ls stop) :
    ∃ ls', textLines lossy bs = ⟨ls', stop⟩ ∧ List.Forall₂ Ended ls' ls :=
  textLines_yields h

/-- Reading all lines gives the same lines or raises the same exception whatever the pieces are. -/
theorem C65_all (io io' : TextIO) (lossy : Bool) (bs : Bytes) :
    (@textLines io lossy bs).all = (@textLines io' lossy bs).all := by
  obtain ⟨ls, stop, h⟩ := @yields_total io lossy bs
  rcases h with ⟨text, hd, hs, rfl⟩ | ⟨rfl, hn, rfl, h⟩
  · have hd := decodeLossy_iff.mpr hd
    rw [@textLines_of_decode io _ _ _ hd, @textLines_of_decode io' _ _ _ hd]
  · obtain ⟨ms, t, h'⟩ := @yields_total io' false bs
    have h1 := @textLines_yields io _ _ _ _ (.inr ⟨rfl, hn, rfl, h⟩)
    have h2 := @textLines_yields io' _ _ _ _ h'
    rcases h' with ⟨text, hd, _⟩ | ⟨_, _, rfl, _⟩
    · exact absurd ⟨text, hd⟩ hn
    · obtain ⟨_, h1, _⟩ := h1
      obtain ⟨_, h2, _⟩ := h2
      rw [h1, h2]
      rfl

section
variable {K : Type} [NumOps K] [NumText K]

/-- `load_text` does the same whatever the pieces are. -/
theorem C65_text (io io' : TextIO) (lossy : Bool) (bs : Bytes) :
    (@loadText K _ _ io lossy bs) = @loadText K _ _ io' lossy bs := by
  obtain ⟨ls, stop, h⟩ := @yields_total io lossy bs
  rcases h with ⟨text, hd, hs, rfl⟩ | ⟨rfl, hn, rfl, h⟩
  · have hd := decodeLossy_iff.mpr hd
    rw [@loadText_split K _ _ io _ _ _ _ hd hs, @loadText_split K _ _ io' _ _ _ _ hd hs]
  · obtain ⟨ms, t, h'⟩ := @yields_total io' false bs
    have h2 := @loadText_yields K _ _ io' _ _ _ _ h'
    rcases h' with ⟨text, hd, _⟩ | ⟨_, _, rfl, _⟩
    · exact absurd ⟨text, hd⟩ hn
    · rw [h2, @loadText_yields K _ _ io _ _ _ _ (.inr ⟨rfl, hn, rfl, h⟩)]

/-- So does `load_text_dims` if the file is UTF-8, or in lossy mode. -/
theorem C65_dims_utf8 (io io' : TextIO) (lossy : Bool) (bs : Bytes)
    (h : lossy = true ∨ ∃ text, Utf8Text text bs) :
    (@loadTextDims K _ _ io lossy bs) = @loadTextDims K _ _ io' lossy bs := by
  obtain ⟨ls, stop, hy⟩ := @yields_total io lossy bs
  rcases hy with ⟨text, hd, hs, rfl⟩ | ⟨rfl, hn, _⟩
  · have hd := decodeLossy_iff.mpr hd
    rw [@loadTextDims_split K _ _ io _ _ _ _ hd hs, @loadTextDims_split K _ _ io' _ _ _ _ hd hs]
  · rcases h with h | h
    · cases h
    · exact absurd h hn

/-- Otherwise the pieces decide about whether `load_text_dims` raises `UnicodeDecodeError`, but nothing
else: if it does not, it does what it does in lossy mode. -/
theorem C65_dims (io io' : TextIO) (hp : ∀ s, (NumText.parse s : Res K) ≠ .error .unicodeDecodeError)
    (bs : Bytes) :
    (@loadTextDims K _ _ io false bs) = .error .unicodeDecodeError ∨
    (@loadTextDims K _ _ io' false bs) = .error .unicodeDecodeError ∨
    (@loadTextDims K _ _ io false bs) = @loadTextDims K _ _ io' false bs := by
  by_cases h : (@loadTextDims K _ _ io false bs) = .error .unicodeDecodeError
  · exact .inl h
  by_cases h' : (@loadTextDims K _ _ io' false bs) = .error .unicodeDecodeError
  · exact .inr (.inl h')
  refine .inr (.inr ?_)
  rw [← (@C44_text_dims K _ _ io hp bs).1 h, ← (@C44_text_dims K _ _ io' hp bs).1 h']
  exact C65_dims_utf8 io io' true bs (.inl rfl)

/-- A file that is read in one piece is refused if it has malformed bytes, wherever they are.  (Not so if
only its last character is incomplete, see below.) -/
theorem C65_one_piece [TextIO] (bs : Bytes) (h : TextIO.cut bs = [bs]) (hn : ¬ ∃ text, BeginsText bs text) :
    (loadTextDims false bs : Res (Embeddings K)) = .error .unicodeDecodeError := by
  have hy : Yields false bs [] (some .unicodeDecodeError) := by
    refine .inr ⟨rfl, fun ⟨t, ht⟩ => hn ⟨t, .whole ht⟩, rfl, 0, [], Nat.zero_le _,
      .whole .nil, ?_, .rest (by intro c hc; cases hc)⟩
    intro j text' h1 h2 hb
    rw [h] at h2 hb
    rw [List.length_singleton] at h2
    obtain rfl : j = 1 := by omega
    exact hn ⟨text', by simpa using hb⟩
  rw [loadTextDims_yields hy]

end

section
variable [NumOps F32] [NumText F32]

/-- Loading any format but text with dimensions does not depend on the pieces, ... -/
theorem C65_load (io io' : TextIO) (T : Toml) (f : Format) (lossy mmap : Bool) (bs : Bytes)
    (h : f ≠ .textdims ∨ lossy = true ∨ ∃ text, Utf8Text text bs) :
    (@Format.load _ _ io T f lossy mmap bs) = @Format.load _ _ io' T f lossy mmap bs := by
  cases f with
  | textdims => exact C65_dims_utf8 io io' lossy bs (h.resolve_left fun h => h rfl)
  | text => exact C65_text io io' lossy bs
  | _ => rfl

/-- ... and hence neither do the tools: the same exit, the same files.  The word list of `ffp-select` may be
anything. -/
theorem C65_tools [r : Remap] (io io' : TextIO) (T : Toml) (src : Format) (input output : PyStr) (lossy mmap : Bool)
    (fs : FS)
    (h : src ≠ .textdims ∨ lossy = true ∨ ∀ bs, fs input = some bs → ∃ text, Utf8Text text bs) :
    (∀ dst, @convertMain _ _ io r T src dst input output lossy mmap fs =
      @convertMain _ _ io' r T src dst input output lossy mmap fs) ∧
    (@bucketToExplicitMain _ _ io T src input output lossy mmap fs =
      @bucketToExplicitMain _ _ io' T src input output lossy mmap fs) ∧
    ∀ enum wordList ign, @selectMain _ _ io T enum src input output wordList ign lossy mmap fs =
      @selectMain _ _ io' T enum src input output wordList ign lossy mmap fs := by
  have hl : readFile input (@Format.load _ _ io T src lossy mmap) fs =
      readFile input (@Format.load _ _ io' T src lossy mmap) fs := by
    unfold readFile
    cases hf : fs input with
    | none => rfl
    | some bs =>
      refine C65_load io io' T src lossy mmap bs ?_
      rcases h with h | h | h
      · exact .inl h
      · exact .inr (.inl h)
      · exact .inr (.inr (h bs hf))
  have hw : (fun bs => (@textLines io lossy bs).all) = fun bs => (@textLines io' lossy bs).all :=
    funext fun bs => C65_all io io' lossy bs
  unfold convertMain bucketToExplicitMain selectMain
  rw [hl, hw]
  exact ⟨fun _ => rfl, rfl, fun _ _ _ => rfl⟩

end

namespace Sample

/-- `1 1`, `a 1` and a byte that does not occur in UTF-8 -/
def badTail : Bytes := [49, 32, 49, 10, 97, 32, 49, 10, 255]

/-- `1 1`, `a 1` and the first of the two bytes of `ß` -/
def cutTail : Bytes := [49, 32, 49, 10, 97, 32, 49, 10, 0xC3]

/-- `ab` and a malformed line -/
def badQueries : Bytes := [97, 98, 32, 10, 255, 10]

end Sample

/-- The claim that the pieces do not matter fails for `load_text_dims`: a file that is not UTF-8 loads if it
is read in blocks of four bytes and does not if it is read in blocks of nine. -/
theorem C65_refuted :
    (¬ ∀ (io io' : TextIO) (bs : Bytes),
      @loadTextDims F32 Sample.f32Ops Sample.f32Text io false bs =
        @loadTextDims F32 Sample.f32Ops Sample.f32Text io' false bs) ∧
    Sample.normsOf (@loadTextDims F32 Sample.f32Ops Sample.f32Text (Sample.blockIO 3) false Sample.badTail) =
      some [1] ∧
    Sample.errOf (@loadTextDims F32 Sample.f32Ops Sample.f32Text (Sample.blockIO 8) false Sample.badTail) =
      some .unicodeDecodeError ∧
    Sample.errOf (@loadText F32 Sample.f32Ops Sample.f32Text (Sample.blockIO 3) false Sample.badTail) =
      some .unicodeDecodeError := by
  have h1 : Sample.errOf (@loadTextDims F32 Sample.f32Ops Sample.f32Text (Sample.blockIO 8) false
      Sample.badTail) = some .unicodeDecodeError := by decide +kernel
  have h2 : Sample.errOf (@loadTextDims F32 Sample.f32Ops Sample.f32Text (Sample.blockIO 3) false
      Sample.badTail) = none := by decide +kernel
  refine ⟨fun h => ?_, by decide +kernel, h1, by decide +kernel⟩
  rw [h (Sample.blockIO 8) (Sample.blockIO 3), h2] at h1
  cases h1

/-! ### The hypotheses can be met -/

namespace Sample

/-- Blocks of four bytes: the third one is malformed, the two lines before it are yielded. -/
theorem badTail_yields : @Yields (blockIO 3) false badTail [[49, 32, 49], [97, 32, 49]]
    (some .unicodeDecodeError) := by
  letI := blockIO 3
  obtain ⟨ls, stop, h⟩ := yields_total false badTail
  have h0 : textLines false badTail = ⟨[[49, 32, 49, 10], [97, 32, 49, 10]], some .unicodeDecodeError⟩ := by
    decide +kernel
  obtain ⟨ls', h1, h2⟩ := textLines_yields h
  rw [h0] at h1
  cases h1
  have hn := yields_noBreak h
  have key : ∀ {l : PyStr} {m : PyStr}, Ended (l ++ [10]) m → NoBreak m → m = l := by
    rintro l m (h | h) hm
    · exact (List.append_cancel_right h).symm
    · subst h
      exact absurd rfl (hm 10 (by simp)).1
  cases h2 with
  | cons e1 h2 =>
    cases h2 with
    | cons e2 h2 =>
      cases h2
      have e1 := key (l := [49, 32, 49]) e1 (hn _ (by simp))
      have e2 := key (l := [97, 32, 49]) e2 (hn _ (by simp))
      rw [e1, e2] at h
      exact h

/-- Only the last character is incomplete: this is noticed at the end of the file, even if it is read at
once. -/
example : (blockIO 99).cut cutTail = [cutTail] ∧
    normsOf (@loadTextDims F32 f32Ops f32Text (blockIO 99) false cutTail) = some [1] ∧
    errOf (@loadText F32 f32Ops f32Text (blockIO 99) false cutTail) = some .unicodeDecodeError := by
  decide +kernel

/-- A file in one piece with a malformed byte -/
example : (blockIO 8).cut badTail = [badTail] ∧ ¬ ∃ text, BeginsText badTail text := by
  refine ⟨by decide, ?_⟩
  rintro ⟨t, h⟩
  obtain ⟨r, h⟩ := h.decodePart
  have : errOf (decodePart false badTail) = some .unicodeDecodeError := by decide +kernel
  rw [h] at this
  cases this

/-- Parsing numbers raises `ValueError` only. -/
example : ∀ s, (@NumText.parse F32 f32Text s : Res F32) ≠ .error .unicodeDecodeError := by
  intro s
  exact (Agree.bind (f := fun n => .ok (UInt32.ofNat n.toNat)) (pyInt_agree s) fun _ => .ok _).2

/-- The query before the malformed piece is answered. -/
example : @similarLoop Int _ (Sel.sorting Int) embSim 1 (@textLines (blockIO 3) false badQueries).stop
    (@textLines (blockIO 3) false badQueries).lines = ([([97, 98], none)], .error .unicodeDecodeError) := by
  decide +kernel

/-- A `\r\n` and a character of three bytes divided between pieces of one byte each -/
example : @textLines (blockIO 0) false [97, 13, 10, 0xE2, 0x82, 0xAC, 13] =
    ⟨[[97, 10], [0x20AC, 10]], none⟩ := by decide +kernel

end Sample

end FF
