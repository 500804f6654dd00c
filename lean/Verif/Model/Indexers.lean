import Mathlib.Data.List.Dedup
import Verif.Model.Hash
/-!
# Dictionaries and the three subword indexers
-/

namespace FF

/-- A Python dict: insertion ordered association list. -/
abbrev Dict (α β : Type) := List (α × β)

/-- `d.get(k)` -/
def Dict.get? {α β : Type} [DecidableEq α] : Dict α β → α → Option β
  | [], _ => none
  | (k', v) :: d, k => if k' = k then some v else Dict.get? d k

/-- `d[k] = v` -/
def Dict.set {α β : Type} [DecidableEq α] : Dict α β → α → β → Dict α β
  | [], k, v => [(k, v)]
  | (k', v') :: d, k, v => if k' = k then (k', v) :: d else (k', v') :: Dict.set d k v

/-- `dict(pairs)` -/
def Dict.ofPairs {α β : Type} [DecidableEq α] (ps : List (α × β)) : Dict α β :=
  ps.foldl (fun d p => Dict.set d p.1 p.2) []

/-- `list(enumerate(xs))`, swapped to (item, position). -/
def enumItems {α : Type} (xs : List α) : List (α × Nat) := xs.zip (List.range xs.length)

/-- Python dict equality: same key set, same values, order irrelevant. -/
def Dict.pyEq {α β : Type} [DecidableEq α] [DecidableEq β] (a b : Dict α β) : Bool :=
  a.length == b.length && a.all (fun p => Dict.get? b p.1 == some p.2)

/-- Python's `max(xs)`; `ValueError` on an empty sequence. -/
def pyMax : List Int → Res Int
  | [] => .error .valueError
  | x :: xs => .ok (xs.foldl max x)

/-! ### Finalfusion hash indexer -/

/-- Conversion of a Python int to a C `uint32_t` attribute. -/
def toU32 (n : Int) : Res Nat :=
  if 0 ≤ n ∧ n < 2 ^ 32 then .ok n.toNat else .error .overflowError

/-- hash_indexers.pyx:18-40 `FinalfusionHashIndexer` -/
structure FifuIndexer where
  bucketsExp : Nat
  minN : Nat
  maxN : Nat
  deriving DecidableEq, Repr

/-- hash_indexers.pyx:32-40 `__init__` -/
def FifuIndexer.new (bucketExp minN maxN : Int) : Res FifuIndexer := do
  pyAssert (maxN ≥ minN ∧ minN > 0)
  pyAssert (0 < bucketExp ∧ bucketExp < 64)
  let mn ← toU32 minN
  let mx ← toU32 maxN
  return ⟨bucketExp.toNat, mn, mx⟩

/-- hash_indexers.pyx:40 `self.mask = ((1 << bucket_exp) - 1)` -/
def FifuIndexer.mask (ix : FifuIndexer) : UInt64 := UInt64.ofNat (2 ^ ix.bucketsExp - 1)

/-- hash_indexers.pyx:42-43 `__call__` -/
def FifuIndexer.call (ix : FifuIndexer) (ngram : PyStr) : Nat :=
  (fifuHashNgram ngram 0 ngram.length &&& ix.mask).toNat

/-- hash_indexers.pyx:46-57 `upper_bound` -/
def FifuIndexer.upperBound (ix : FifuIndexer) : Nat := 2 ^ ix.bucketsExp

/-- hash_indexers.pyx:97-143, the loops of `subword_indices`; `emit` is what is appended for
an n-gram and its index (lines 140-143).  `offset` is a `uint64_t`. -/
def FifuIndexer.subwordLoop {β : Type} (emit : PyStr → Nat → β) (ix : FifuIndexer) (word : PyStr)
    (offset : UInt64) (bracket : Bool) : List β :=
  let w := bracketed bracket word
  let length := w.length
  if length < ix.minN then []
  else
    let maxN := min length ix.maxN
    (List.range (length + 1 - ix.minN)).flatMap fun i =>
      (rangeDown maxN ix.minN).flatMap fun j =>
        if j + i ≤ length then
          let h := (fifuHashNgram w i j &&& ix.mask) + offset
          [emit (pySlice w i (i + j)) h.toNat]
        else []

/-- `subword_indices(word, offset, bracket, with_ngrams=True)` -/
def FifuIndexer.subwordIndices (ix : FifuIndexer) (word : PyStr) (offset : UInt64)
    (bracket : Bool) : List (PyStr × Nat) := ix.subwordLoop Prod.mk word offset bracket

/-- `subword_indices(word, offset, bracket)` -/
def FifuIndexer.indices (ix : FifuIndexer) (word : PyStr) (offset : UInt64)
    (bracket : Bool) : List Nat := ix.subwordLoop (fun _ h => h) word offset bracket

/-! ### fastText indexer -/

/-- hash_indexers.pyx:155-176 `FastTextIndexer` -/
structure FtIndexer where
  nBuckets : Nat
  minN : Nat
  maxN : Nat
  deriving DecidableEq, Repr

/-- hash_indexers.pyx:169-176 `__init__` -/
def FtIndexer.new (nBuckets minN maxN : Int) : Res FtIndexer := do
  pyAssert (maxN ≥ minN ∧ minN > 0)
  pyAssert (0 < nBuckets ∧ nBuckets ≤ 2 ^ 32 - 1)
  let mn ← toU32 minN
  let mx ← toU32 maxN
  return ⟨nBuckets.toNat, mn, mx⟩

/-- hash_indexers.pyx:178-180 `__call__` -/
def FtIndexer.call (ix : FtIndexer) (ngram : PyStr) : Res Nat := do
  let b ← encode ngram
  return (ftHashNgram b 0 b.length).toNat % ix.nBuckets

/-- hash_indexers.pyx:277-279 `upper_bound` -/
def FtIndexer.upperBound (ix : FtIndexer) : Nat := ix.nBuckets

/-- hash_indexers.pyx:219-275, the loops of `subword_indices`; `emit` as above (lines 270-273).
`h` is a `uint64_t`. -/
def FtIndexer.subwordLoop {β : Type} (emit : PyStr → Nat → β) (ix : FtIndexer) (word : PyStr)
    (offset : UInt64) (bracket : Bool) : Res (List β) := do
  let w := bracketed bracket word
  let b ← encode w
  let offsets := findUtf8Boundaries b
  let length := w.length
  let maxN := min ix.maxN length
  return (List.range (length + 1 - ix.minN)).flatMap fun i =>
    let start := (offsets[i]?).getD 0
    (rangeDown maxN ix.minN).flatMap fun j =>
      if j + i ≤ length then
        let stop := (offsets[i + j]?).getD 0
        let h := UInt64.ofNat ((ftHashNgram b start stop).toNat % ix.nBuckets) + offset
        [emit (pySlice w i (i + j)) h.toNat]
      else []

/-- `subword_indices(word, offset, bracket, with_ngrams=True)` -/
def FtIndexer.subwordIndices (ix : FtIndexer) (word : PyStr) (offset : UInt64)
    (bracket : Bool) : Res (List (PyStr × Nat)) := ix.subwordLoop Prod.mk word offset bracket

/-- `subword_indices(word, offset, bracket)` -/
def FtIndexer.indices (ix : FtIndexer) (word : PyStr) (offset : UInt64)
    (bracket : Bool) : Res (List Nat) := ix.subwordLoop (fun _ h => h) word offset bracket

/-! ### Explicit indexer -/

/-- explicit_indexer.pyx:9-30 `ExplicitIndexer` -/
structure ExplIndexer where
  ngrams : List PyStr
  minN : Nat
  maxN : Nat
  index : Dict PyStr Int
  bound : Int
  deriving DecidableEq, Repr

/-- explicit_indexer.pyx:31-59 `__init__` -/
def ExplIndexer.new (ngrams : List PyStr) (minN maxN : Int)
    (ngramIndex : Option (Dict PyStr Int)) : Res ExplIndexer := do
  pyAssert (maxN ≥ minN ∧ minN > 0)
  let mn ← toU32 minN
  let mx ← toU32 maxN
  match ngramIndex with
  | none =>
    let index := Dict.ofPairs ((enumItems ngrams).map fun p => (p.1, (p.2 : Int)))
    pyAssert (ngrams.length = index.length)
    return ⟨ngrams, mn, mx, index, index.length⟩
  | some index =>
    let unique := ngrams.dedup
    pyAssert (unique.length = ngrams.length)
    pyAssert (unique.all (fun g => (Dict.get? index g).isSome) && index.length = ngrams.length)
    let maxIdx ← pyMax (index.map Prod.snd)
    let nUniqueVals := (index.map Prod.snd).dedup.length
    pyAssert (maxIdx + 1 = nUniqueVals)
    return ⟨ngrams, mn, mx, index, maxIdx + 1⟩

/-- explicit_indexer.pyx:180-181 `__call__` -/
def ExplIndexer.call (ix : ExplIndexer) (ngram : PyStr) : Option Int := Dict.get? ix.index ngram

/-- explicit_indexer.pyx:129-175, the loops of `subword_indices`; `emit` as above (lines
171-174).  `idx + offset` is a Python int. -/
def ExplIndexer.subwordLoop {β : Type} (emit : PyStr → Int → β) (ix : ExplIndexer) (word : PyStr)
    (offset : Nat) (bracket : Bool) : List β :=
  let w := bracketed bracket word
  let length := w.length
  if length < ix.minN then []
  else
    let maxN := min ix.maxN length
    (List.range (length + 1 - ix.minN)).flatMap fun i =>
      (rangeDown maxN ix.minN).flatMap fun j =>
        if j + i ≤ length then
          let ngram := pySlice w i (i + j)
          match Dict.get? ix.index ngram with
          | none => []
          | some idx => [emit ngram (idx + offset)]
        else []

/-- `subword_indices(word, offset, bracket, with_ngrams=True)` -/
def ExplIndexer.subwordIndices (ix : ExplIndexer) (word : PyStr) (offset : Nat)
    (bracket : Bool) : List (PyStr × Int) := ix.subwordLoop Prod.mk word offset bracket

/-- `subword_indices(word, offset, bracket)` -/
def ExplIndexer.indices (ix : ExplIndexer) (word : PyStr) (offset : Nat)
    (bracket : Bool) : List Int := ix.subwordLoop (fun _ h => h) word offset bracket

/-- explicit_indexer.pyx:189-196 `__eq__` -/
def ExplIndexer.pyEq (a b : ExplIndexer) : Bool :=
  a.bound == b.bound && a.maxN == b.maxN && a.minN == b.minN && a.ngrams == b.ngrams
    && Dict.pyEq a.index b.index

end FF
