import Mathlib.Algebra.BigOperators.Group.List.Basic
import Mathlib.Data.Real.Basic
import Verif.Spec.FastText
/-!
# What fastText itself computes

The reference is the C++ implementation (facebookresearch/fastText, release 0.9.2): `Dictionary::hash`,
`Dictionary::computeSubwords`, `Dictionary::initNgrams`, `Dictionary::getSubwords`, `FastText::getWordVector` and
`FastText::loadModel`.  It works on bytes; the functions below are written down from it, not from finalfusion-python.
-/

namespace FF

/-- `(b & 0xC0) == 0x80` -/
def refCont (b : UInt8) : Bool := b &&& 0xC0 == 0x80

/-- `Dictionary::hash`: `h = h ^ uint32_t(int8_t(str[i])); h = h * 16777619;` -/
def refHash (s : Bytes) : Nat := fnv1a32 (s.map fun b => sext b.toNat)

/-- The inner loop of `Dictionary::computeSubwords`: `n` characters are complete with the next one, `ngram` has been
collected, `rest` follows; `first` is `i == 0`.

```
for (size_t j = i, n = 1; j < word.size() && n <= args_->maxn; n++) {
  ngram.push_back(word[j++]);
  while (j < word.size() && (word[j] & 0xC0) == 0x80) { ngram.push_back(word[j++]); }
  if (n >= args_->minn && !(n == 1 && (i == 0 || j == word.size()))) {
    int32_t h = hash(ngram) % args_->bucket;
    pushHash(ngrams, h);
  }
}
``` -/
def refFrom (minn maxn bucket : Nat) (first : Bool) : Nat → Bytes → Bytes → List Nat
  | _, _, [] => []
  | n, ngram, b :: rest =>
    if maxn < n then []
    else if rest.head?.any refCont then refFrom minn maxn bucket first n (ngram ++ [b]) rest
    else
      (if minn ≤ n ∧ ¬(n = 1 ∧ (first ∨ rest = [])) then [refHash (ngram ++ [b]) % bucket] else []) ++
        refFrom minn maxn bucket first (n + 1) (ngram ++ [b]) rest

/-- The outer loop: `if ((word[i] & 0xC0) == 0x80) continue;` -/
def refWord (minn maxn bucket : Nat) : Bool → Bytes → List Nat
  | _, [] => []
  | first, b :: rest =>
    (if refCont b then [] else refFrom minn maxn bucket first 1 [] (b :: rest)) ++
      refWord minn maxn bucket false rest

/-- `Dictionary::EOS`, `</s>` -/
def refEos : Bytes := [60, 47, 115, 62]

/-- `computeSubwords(BOW + word + EOW, ngrams)` unless `word == EOS`; `pushHash` adds the number of words. -/
def refNgrams (minn maxn bucket nwords : Nat) (word : Bytes) : List Nat :=
  if word = refEos then []
  else (refWord minn maxn bucket true ([60] ++ word ++ [62])).map (nwords + ·)

/-- The mean that `FastText::getWordVector` computes, in exact arithmetic: the rows are added up and multiplied by
`1.0 / ngrams.size()`. -/
noncomputable def refMean (cols : Nat) (rows : List (List ℝ)) (ids : List Nat) : List ℝ :=
  (List.range cols).map fun t =>
    (ids.map fun j => ((rows[j]?.getD [])[t]?).getD 0).sum * (1 / (ids.length : ℝ))

/-- The vector fastText has for word `i` of a model (`words_[i].subwords` starts with `i`). -/
noncomputable def refKnown (f : FtFile) (rows : List (List ℝ)) (i : Nat) (word : Bytes) : List ℝ :=
  refMean f.cols rows (i :: refNgrams f.minN f.maxN f.buckets f.nWords.toNat word)

/-- The vector fastText computes for a word that is not in the dictionary. -/
noncomputable def refUnknown (f : FtFile) (rows : List (List ℝ)) (word : Bytes) : List ℝ :=
  refMean f.cols rows (refNgrams f.minN f.maxN f.buckets f.nWords.toNat word)

/-- What `FastText::loadModel` reads after the input matrix: a byte `qout` and the output matrix, which starts with its
sizes (`DenseMatrix::load`), and then the file ends. -/
def RefOutput (bs : Bytes) : Prop :=
  ∃ (q : UInt8) (m n : Nat) (data : Bytes), m < 2 ^ 63 ∧ n < 2 ^ 63 ∧ data.length = 4 * (m * n) ∧
    bs = [q] ++ le 8 m ++ le 8 n ++ data

end FF
