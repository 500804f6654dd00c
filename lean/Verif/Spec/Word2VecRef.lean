import Verif.Spec.Compat
/-!
# What word2vec itself writes and reads
After word2vec.c (`ReadWord`, the end of `TrainModel` with `-binary 1`) and distance.c of the word2vec
distribution; none of this is code of the package.
-/

namespace FF.W2v

/-- A word as word2vec.c takes it from its corpus: it ends at a space, a tab or a newline, carriage returns are
dropped, and longer words are cut off. -/
def Token (w : Bytes) : Prop :=
  w ≠ [] ∧ w.length ≤ 98 ∧ ∀ b ∈ w, b ≠ 0 ∧ b ≠ 9 ∧ b ≠ 10 ∧ b ≠ 13 ∧ b ≠ 32

/-- `fprintf(fo, "%lld %lld\n", …)`, then for each word `fprintf(fo, "%s ", …)`, the floats and `fprintf(fo, "\n")` -/
def file (cols : Nat) (rows : List (Bytes × List F32)) : Bytes :=
  utf8 (decimal rows.length) ++ 32 :: utf8 (decimal cols) ++ 10 ::
    rows.flatMap fun p => p.1 ++ 32 :: f32sLE p.2 ++ [10]

def isDigit (b : UInt8) : Bool := 48 ≤ b.toNat && b.toNat ≤ 57

def isBlank (b : UInt8) : Bool := b.toNat == 32 || (9 ≤ b.toNat && b.toNat ≤ 13)

/-- `fscanf(f, "%lld", &n)` for numbers without sign: what is read and the bytes after it -/
def scan (bs : Bytes) : Option (Nat × Bytes) :=
  let b := bs.dropWhile isBlank
  let ds := b.takeWhile isDigit
  let n := ds.foldl (fun a d => 10 * a + (d.toNat - 48)) 0
  if ds = [] ∨ 2 ^ 63 ≤ n then none else some (n, b.dropWhile isDigit)

/-- The loop over the characters of a word: up to a space, skipping newlines -/
def word (bs : Bytes) : Bytes × Bytes :=
  ((bs.takeWhile (· != 32)).filter (· != 10), (bs.dropWhile (· != 32)).drop 1)

/-- The words and vectors distance.c reads, before it normalises the vectors.  A word has `max_w` (50) bytes including
the terminating zero byte: longer words run into the next one, which is not modelled, and the word is what is before the
first zero byte. -/
inductive Rows (cols : Nat) : Nat → Bytes → List (Bytes × List F32) → Prop
  | nil (bs : Bytes) : Rows cols 0 bs []
  | row {n : Nat} {bs rest : Bytes} {v : List F32} {rs : List (Bytes × List F32)} :
      (word bs).1.length < 50 → v.length = cols → (word bs).2 = f32sLE v ++ rest → Rows cols n rest rs →
      Rows cols (n + 1) bs (((word bs).1.takeWhile (· != 0), v) :: rs)

/-- distance.c, from opening the file to the loop reading the words -/
def Reads (bs : Bytes) (cols : Nat) (rows : List (Bytes × List F32)) : Prop :=
  ∃ r s, scan bs = some (rows.length, r) ∧ scan r = some (cols, s) ∧ Rows cols rows.length s rows

/-- Words that distance.c can hold: no space, no newline, less than 50 bytes -/
def Holds (w : Bytes) : Prop := w.length < 50 ∧ ∀ b ∈ w, b ≠ 0 ∧ b ≠ 10 ∧ b ≠ 32

end FF.W2v
