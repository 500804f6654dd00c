import Verif.Spec.Text
import Verif.Spec.Built
import Verif.Spec.Float32
import Verif.Spec.Mapped
/-!
# Chains of conversions

Embeddings are saved in one of the formats, the file is converted by `ffp-convert`, the output converted again, and so
on.
-/

namespace FF

variable [NumOps F32] [NumText F32] [TextIO] [Remap]

/-- The file `p` has the format `f` and holds what became of `e` after `k` times of writing: saving `e` and then
conversions, each of them of the output of the last one.  Any options, paths and changes of other files in between,
except that memory-mapped files are not converted onto themselves (C75). -/
inductive Saved (T : Toml) (e : Embeddings F32) : Nat → Format → PyStr → FS → Prop where
  | save {f : Format} {p : PyStr} {fs fs' : FS} : f ≠ .fasttext → writeFile p (f.writer T e) fs = (.ok (), fs') →
      Saved T e 1 f p fs'
  | convert {k : Nat} {f g : Format} {p q : PyStr} {lossy mmap : Bool} {fs fs' : FS} : Saved T e k f p fs →
      g ≠ .fasttext → NotOnto f mmap p q → convertMain T f g p q lossy mmap fs = (.ok (), fs') → Saved T e (k + 1) g q fs'
  | other {k : Nat} {f : Format} {p : PyStr} {fs fs' : FS} : Saved T e k f p fs → fs' p = fs p → Saved T e k f p fs'

omit [NumOps F32] [NumText F32] [TextIO] [Remap] in
/-- Words and shape are expressible in all formats. -/
structure Portable (T : Toml) (e : Embeddings F32) : Prop where
  built : BuiltEmb e
  ngrams : HasNgrams e.vocab
  toml : TomlOk T e.metadata
  some : e.vocab.words ≠ []
  words : ∀ w ∈ e.vocab.words, W2vWord w ∧ TextWord w
  shape : ShapeOk e.vocab.words.length e.storage.nCols

omit [NumOps F32] [NumText F32] [TextIO] [Remap] in
/-- Vectors that conversions do not bring out of range -/
structure Comfortable (v : List F32) : Prop where
  fin : ∀ x ∈ v, F32.Finite x
  length : v.length ≤ 2 ^ 20
  low : (2 : ℝ)⁻¹ ^ 58 ≤ exactLen (v.map F32.val)
  high : exactLen (v.map F32.val) ≤ 2 ^ 61

omit [NumOps F32] [NumText F32] [TextIO] [Remap] in
/-- No n-grams, no metadata and a plain matrix, as loaded from word2vec and text files -/
def Plain (e : Embeddings F32) : Prop := e.vocab.sub = none ∧ e.metadata = none ∧ ∃ m, e.storage = .nd m

omit [NumOps F32] [NumText F32] [TextIO] [Remap] in
/-- Files of all formats are of manageable size. -/
def Fits (words : List PyStr) (cols : Nat) : Prop :=
  (∀ w ∈ words, (utf8 w).length < 2 ^ 32) ∧ cols < 2 ^ 32 ∧
  (words.map fun w => (utf8 w).length + 300).sum + 300 * (words.length * cols) + 300 < 2 ^ 63

end FF
