import Verif.Model.Indexers
/-!
# The compiled n-gram code
subword/ngrams.pyx, subword/hash_indexers.pyx, subword/explicit_indexer.pyx, fnv/hash_64a.c

The loops of `Model/Hash.lean` and `Model/Indexers.lean` again, as the C code that Cython generates for a 64-bit
platform: `Py_ssize_t` is a signed 64-bit number, `uint32_t` and `unsigned int` wrap at 2^32, `uint64_t` at 2^64, and
arrays are accessed through pointers without checks.  What C leaves undefined is a fault: signed overflow, an access
outside an array, the use of memory that has not been written and division by zero.
-/

namespace FF

/-- Faults of C code -/
inductive CFault where
  /-- access outside an array -/
  | bounds
  /-- use of memory that has not been written -/
  | uninit
  /-- signed overflow -/
  | overflow
  | divZero
  /-- an exception in a C function that cannot pass it on -/
  | lost
  /-- the model gave up -/
  | outOfFuel
  deriving DecidableEq, Repr

abbrev CM (α : Type) := Except CFault α

/-- The result of signed 64-bit arithmetic -/
def ssize (n : Int) : CM Int := if -2 ^ 63 ≤ n ∧ n < 2 ^ 63 then .ok n else .error .overflow

/-- Conversion to `uint32_t` and `unsigned int` -/
def cU32 (n : Int) : UInt32 := UInt32.ofNat (n % 2 ^ 32).toNat

/-- Conversion to `uint64_t` -/
def cU64 (n : Int) : UInt64 := UInt64.ofNat (n % 2 ^ 64).toNat

/-- `for i in range(..)`, with the variables that the body changes -/
def cFor {σ : Type} : List Int → σ → (Int → σ → CM σ) → CM σ
  | [], s, _ => .ok s
  | i :: is, s, body => do
    let s ← body i s
    cFor is s body

/-- The values of `i` in `for i in range(a, b)` -/
def cRange (a b : Int) : List Int := (List.range (b - a).toNat).map fun k : Nat => a + k

/-- The values of `j` in `for j in range(a, b, -1)` -/
def cRangeDown (a b : Int) : List Int := (List.range (a - b).toNat).map fun k : Nat => a - k

/-- `p[i]` for a pointer to the bytes of a `bytes` object -/
def cByte (b : Bytes) (i : Int) : CM UInt8 :=
  if i < 0 then .error .bounds
  else
    match b[i.toNat]? with
    | none => .error .bounds
    | some x => .ok x

/-- An `array.array('I')`; `none` has not been written. -/
abbrev CArr := List (Option UInt32)

/-- `a.data.as_uints[i]` -/
def CArr.load (a : CArr) (i : Int) : CM UInt32 :=
  if i < 0 then .error .bounds
  else
    match a[i.toNat]? with
    | none => .error .bounds
    | some none => .error .uninit
    | some (some x) => .ok x

/-- `a.data.as_uints[i] = x` -/
def CArr.store (a : CArr) (i : Int) (x : UInt32) : CM CArr :=
  if 0 ≤ i ∧ i < a.length then .ok (List.set a i.toNat (some x)) else .error .bounds

/-- hash_indexers.pyx:300-304, the loop of `find_utf8_boundaries`: `for (b = 0; b < n_bytes; b += 1)`.  Cython counts in
a variable of the type of `b`, an `unsigned int`.  `i` and `offsets` are the variables that change. -/
def cBoundaryLoop (w : Bytes) : Nat → UInt32 → Int → CArr → CM (Int × CArr)
  | 0, _, _, _ => .error .outOfFuel
  | fuel + 1, b, i, offsets =>
    if (b.toNat : Int) < w.length then do
      let x ← cByte w b.toNat
      if x.toUInt32 &&& 0xC0 ≠ 0x80 then
        let offsets ← offsets.store i b
        let i ← ssize (i + 1)
        cBoundaryLoop w fuel (b + 1) i offsets
      else cBoundaryLoop w fuel (b + 1) i offsets
    else .ok (i, offsets)

/-- hash_indexers.pyx:292-306 `find_utf8_boundaries`, with a bound for the number of iterations -/
def cBoundariesIn (fuel : Nat) (w : Bytes) : CM CArr := do
  let size ← ssize (w.length + 1)
  let r ← cBoundaryLoop w fuel 0 0 (List.replicate size.toNat none)
  r.2.store r.1 (cU32 w.length)

/-- `find_utf8_boundaries` -/
def cBoundaries (w : Bytes) : CM CArr := cBoundariesIn ((w.length + 2) * 2 ^ 32) w

/-- hash_indexers.pyx:324-331 `ft_hash_ngram` -/
def cFtHash (b : Bytes) (start stop : Int) : CM UInt64 := do
  let h ← cFor (cRange start stop) fnv132Init fun i h => do
    let x ← cByte b i
    return (h ^^^ signExtend x) * prime32
  return h.toUInt64

/-- hash_64a.c:100-128 `fnv_64a_buf`: the bytes from `bp` up to `bp + len` -/
def cFnv64a (buf : Bytes) (len : Int) (hval : UInt64) : CM UInt64 :=
  cFor (cRange 0 len) hval fun i hval => do
    let x ← cByte buf i
    return fnv64aStep hval x

/-- hash_indexers.pyx:310-322 `fifu_hash_ngram`.  `word[i]` is checked, but the exception would be lost. -/
def cFifuHash (word : PyStr) (start length : Int) : CM UInt64 := do
  let h ← cFnv64a (le 8 (cU64 length).toNat) 8 fnv1a64Init
  let stop ← ssize (start + length)
  cFor (cRange start stop) h fun i h => do
    if i < 0 ∨ (word.length : Int) ≤ i then .error .lost
    let c : Nat := (word[i.toNat]?.map Fin.val).getD 0
    cFnv64a (le 4 (cU32 c).toNat) 4 h

/-- `a % b` for `uint64_t` with `cdivision(True)` -/
def cMod (a b : UInt64) : CM UInt64 := if b = 0 then .error .divZero else .ok (a % b)

section
variable {β : Type}

/-- hash_indexers.pyx:219-275 `FastTextIndexer.subword_indices`, for any values of the fields -/
def cFtSubwords (emit : PyStr → Nat → β) (minN maxN : UInt32) (nBuckets : UInt64) (word : PyStr) (offset : UInt64)
    (bracket : Bool) : CM (Res (List β)) :=
  let word := bracketed bracket word
  match encode word with
  | .error e => .ok (.error e)
  | .ok bWord => do
    let offsets ← cBoundaries bWord
    let length : Int := word.length
    let maxN := cU32 (min (maxN.toNat : Int) length)
    let n ← ssize (length + 1)
    let n ← ssize (n - minN.toNat)
    let ngrams ← cFor (cRange 0 n) [] fun i ngrams => do
      let start ← offsets.load i
      cFor (cRangeDown maxN.toNat (minN - 1).toNat) ngrams fun j ngrams => do
        let s ← ssize (j + i)
        if s ≤ length then
          let k ← ssize (i + j)
          let stop ← offsets.load k
          let h ← cFtHash bWord start.toNat stop.toNat
          let h ← cMod h nBuckets
          return ngrams ++ [emit (pySlice word i.toNat k.toNat) (h + offset).toNat]
        else return ngrams
    return .ok ngrams

/-- hash_indexers.pyx:178-180 `FastTextIndexer.__call__`: without `cdivision`, a zero divisor raises. -/
def cFtCall (nBuckets : UInt64) (ngram : PyStr) : CM (Res Nat) :=
  match encode ngram with
  | .error e => .ok (.error e)
  | .ok b => do
    let h ← cFtHash b 0 b.length
    return if nBuckets = 0 then .error .zeroDivisionError else .ok (h % nBuckets).toNat

/-- hash_indexers.pyx:97-143 `FinalfusionHashIndexer.subword_indices`, for any values of the fields -/
def cFifuSubwords (emit : PyStr → Nat → β) (minN maxN : UInt32) (mask : UInt64) (word : PyStr) (offset : UInt64)
    (bracket : Bool) : CM (List β) :=
  let word := bracketed bracket word
  let length : Int := word.length
  if length < minN.toNat then .ok []
  else do
    let maxN := cU32 (min length (maxN.toNat : Int))
    let n ← ssize (length + 1)
    let n ← ssize (n - minN.toNat)
    cFor (cRange 0 n) [] fun i ngrams =>
      cFor (cRangeDown maxN.toNat (minN - 1).toNat) ngrams fun j ngrams => do
        let s ← ssize (j + i)
        if s ≤ length then
          let h ← cFifuHash word i j
          let k ← ssize (i + j)
          return ngrams ++ [emit (pySlice word i.toNat k.toNat) ((h &&& mask) + offset).toNat]
        else return ngrams

/-- hash_indexers.pyx:42-43 `FinalfusionHashIndexer.__call__` -/
def cFifuCall (mask : UInt64) (ngram : PyStr) : CM Nat := do
  let h ← cFifuHash ngram 0 ngram.length
  return (h &&& mask).toNat

/-- explicit_indexer.pyx:129-175 `ExplicitIndexer.subword_indices`.  `max_n` is a `Py_ssize_t`. -/
def cExplSubwords (emit : PyStr → Int → β) (minN maxN : UInt32) (index : Dict PyStr Int) (word : PyStr) (offset : UInt64)
    (bracket : Bool) : CM (List β) :=
  let word := bracketed bracket word
  let length : Int := word.length
  if length < minN.toNat then .ok []
  else do
    let maxN := min (maxN.toNat : Int) length
    let n ← ssize (length + 1)
    let n ← ssize (n - minN.toNat)
    cFor (cRange 0 n) [] fun i ngrams =>
      cFor (cRangeDown maxN (minN - 1).toNat) ngrams fun j ngrams => do
        let s ← ssize (j + i)
        if s ≤ length then
          let k ← ssize (i + j)
          let ngram := pySlice word i.toNat k.toNat
          match Dict.get? index ngram with
          | none => return ngrams
          | some idx => return ngrams ++ [emit ngram (idx + offset.toNat)]
        else return ngrams

/-- ngrams.pyx:36-52 `ngrams` -/
def cNgrams (word : PyStr) (minN maxN : UInt32) (bracket : Bool) : CM (Res (List PyStr)) :=
  if maxN ≥ minN ∧ minN > 0 then
    let word := bracketed bracket word
    let length : Int := word.length
    if length < minN.toNat then .ok (.ok [])
    else do
      let maxN := cU32 (min (maxN.toNat : Int) length)
      let n ← ssize (length + 1)
      let n ← ssize (n - minN.toNat)
      let ngrams ← cFor (cRange 0 n) [] fun i ngrams =>
        cFor (cRangeDown maxN.toNat (minN - 1).toNat) ngrams fun j ngrams => do
          let s ← ssize (j + i)
          if s ≤ length then
            let k ← ssize (i + j)
            return ngrams ++ [pySlice word i.toNat k.toNat]
          else return ngrams
      return .ok ngrams
  else .ok (.error .assertionError)

end

end FF
