import Verif.Spec.FfFile
/-!
# One part of a finalfusion file
Where the functions that load only a part of a file look, and what they accept there.
-/

namespace FF.Fifu

/-- Going from chunk to chunk by the announced lengths, starting at `p`, the first chunk with one of the
identifiers `ids` is at `q` and has the identifier `id`.  All identifiers on the way are known ones. -/
inductive Search (bs : Bytes) (ids : List Nat) : (p q id : Nat) → Prop
  | found {p id : Nat} (head : Head bs p id) (wanted : id ∈ ids) : Search bs ids p p id
  | skip {p q id other len : Nat} (head : HasAt bs p (uint 4 other ++ uint 8 len))
      (known : other ≤ 8) (unwanted : other ∉ ids) (bound : p + 12 + len < 2 ^ 63)
      (rest : Search bs ids (p + 12 + len) q id) : Search bs ids p q id

/-- The first chunk after the header with one of the identifiers `ids`. -/
def First (bs : Bytes) (ids : List Nat) (q id : Nat) : Prop :=
  ∃ start, HeaderAt bs start ∧ Search bs ids start q id

/-- No chunk has one of the identifiers: the last length leads to the end of the file, or past it. -/
inductive Exhausted (bs : Bytes) (ids : List Nat) : (p : Nat) → Prop
  | stop {p : Nat} (eof : bs.length ≤ p) : Exhausted bs ids p
  | skip {p other len : Nat} (head : HasAt bs p (uint 4 other ++ uint 8 len))
      (known : other ≤ 8) (unwanted : other ∉ ids) (bound : p + 12 + len < 2 ^ 63)
      (rest : Exhausted bs ids (p + 12 + len)) : Exhausted bs ids p

/-- Distinct words from `pos` to the end of the file, which comes before the announced end of the last
word. -/
def WordsCut (bs : Bytes) (pos : Nat) (words : List PyStr) : Prop :=
  words.Nodup ∧ words.length < 2 ^ 64 ∧
  ∃ (init : List PyStr) (last : PyStr) (len : Nat), words = init ++ [last] ∧ (∀ w ∈ init, Storable w) ∧
    (∀ c ∈ last, c.val < 0xD800 ∨ 0xDFFF < c.val) ∧ len < 2 ^ 32 ∧ (utf8 last).length < len ∧
    bs.drop pos = init.flatMap str ++ uint 4 len ++ utf8 last

/-- A vocabulary chunk whose last word is cut by the end of the file. -/
inductive VocabCut (bs : Bytes) (pos : Nat) : Vocab → Prop
  | simple {words : List PyStr} (head : Head bs pos 1)
      (count : HasAt bs (pos + 12) (uint 8 words.length))
      (words_at : WordsCut bs (pos + 20) words) :
      VocabCut bs pos ⟨words, words.zipIdx, none⟩
  | bucket {words : List PyStr} {mn mx exp : Nat} (head : Head bs pos 3)
      (fields : HasAt bs (pos + 12)
        (uint 8 words.length ++ uint 4 mn ++ uint 4 mx ++ uint 4 exp))
      (words_at : WordsCut bs (pos + 32) words)
      (min_pos : 0 < mn) (min_max : mn ≤ mx) (max_lt : mx < 2 ^ 32)
      (exp_pos : 0 < exp) (exp_lt : exp < 64) :
      VocabCut bs pos ⟨words, words.zipIdx, some (.fifu ⟨exp, mn, mx⟩)⟩
  | fastText {words : List PyStr} {mn mx buckets : Nat} (head : Head bs pos 7)
      (fields : HasAt bs (pos + 12)
        (uint 8 words.length ++ uint 4 mn ++ uint 4 mx ++ uint 4 buckets))
      (words_at : WordsCut bs (pos + 32) words)
      (min_pos : 0 < mn) (min_max : mn ≤ mx) (max_lt : mx < 2 ^ 32)
      (buckets_pos : 0 < buckets) (buckets_lt : buckets < 2 ^ 32) :
      VocabCut bs pos ⟨words, words.zipIdx, some (.ft ⟨buckets, mn, mx⟩)⟩

/-- The vocabulary at `pos`, possibly with its last word cut. -/
def VocabHere (bs : Bytes) (pos : Nat) (v : Vocab) : Prop :=
  (∃ rows stop, VocabAt bs pos v rows stop) ∨ VocabCut bs pos v

end FF.Fifu
