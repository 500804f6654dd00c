import Verif.Model.Utf8
/-!
# N-gram extraction and hashing
subword/ngrams.pyx, the hash functions of subword/hash_indexers.pyx and fnv/hash_64a.c.
-/

namespace FF

/-- Python `range(hi, lo - 1, -1)` for `lo ≥ 1`: `hi, hi-1, …, lo`. -/
def rangeDown (hi lo : Nat) : List Nat := (List.range (hi + 1 - lo)).map (hi - ·)

/-- Python `word[i:j]` for non-negative bounds. -/
def pySlice {α : Type} (w : List α) (i j : Nat) : List α := (w.drop i).take (j - i)

def langle : Code := ⟨0x3C, by decide⟩
def rangle : Code := ⟨0x3E, by decide⟩

/-- `word = "<%s>" % word` if `bracket`; ngrams.pyx:39-40, hash_indexers.pyx:123-124 and
242-243, explicit_indexer.pyx:155-156. -/
def bracketed (bracket : Bool) (word : PyStr) : PyStr :=
  if bracket then langle :: (word ++ [rangle]) else word

/-- ngrams.pyx:7-52 `ngrams`.  `min_n`, `max_n` are `uint32_t`.
`word is None` is not modelled (the argument is a `str`). -/
def ngrams (word : PyStr) (minN maxN : Nat) (bracket : Bool) : Res (List PyStr) :=
  if maxN ≥ minN ∧ minN > 0 then
    let w := bracketed bracket word
    let length := w.length
    if length < minN then .ok []
    else
      let maxN := min maxN length
      .ok ((List.range (length + 1 - minN)).flatMap fun i =>
        (rangeDown maxN minN).flatMap fun j =>
          if j + i ≤ length then [pySlice w i (i + j)] else [])
  else .error .assertionError

/-! ### FNV -/

/-- fnv.h:110 `FNV1A_64_INIT` -/
def fnv1a64Init : UInt64 := 0xcbf29ce484222325

/-- fnv.h `FNV1_32_INIT` -/
def fnv132Init : UInt32 := 0x811c9dc5

/-- Body of the loop in hash_64a.c `fnv_64a_buf` (the GCC shift-and-add variant). -/
def fnv64aStep (hval : UInt64) (b : UInt8) : UInt64 :=
  let hval := hval ^^^ b.toUInt64
  hval + ((hval <<< 1) + (hval <<< 4) + (hval <<< 5) + (hval <<< 7) + (hval <<< 8) + (hval <<< 40))

/-- hash_64a.c `fnv_64a_buf` -/
def fnv64aBuf (buf : Bytes) (hval : UInt64) : UInt64 := buf.foldl fnv64aStep hval

/-- hash_indexers.pyx:310-322 `fifu_hash_ngram(word, start, length)`; `htole64`/`htole32`
make the hashed bytes little-endian on every platform. -/
def fifuHashNgram (word : PyStr) (start length : Nat) : UInt64 :=
  let h := fnv64aBuf (le 8 length) fnv1a64Init
  (List.range' start length).foldl
    (fun h i => fnv64aBuf (le 4 ((word[i]?.map Fin.val).getD 0)) h) h

/-- hash_indexers.pyx:308 `PRIME32` -/
def prime32 : UInt32 := 16777619

/-- C cast `<uint32_t>(<int8_t> b)`: sign extension. -/
def signExtend (b : UInt8) : UInt32 :=
  if b.toNat < 128 then UInt32.ofNat b.toNat else UInt32.ofNat (b.toNat + 0xFFFFFF00)

/-- hash_indexers.pyx:324-331 `ft_hash_ngram(b_word, start, end)` -/
def ftHashNgram (b : Bytes) (start stop : Nat) : UInt32 :=
  (List.range' start (stop - start)).foldl
    (fun h i => (h ^^^ signExtend ((b[i]?).getD 0)) * prime32) fnv132Init

/-- hash_indexers.pyx:292-306 `find_utf8_boundaries`: offsets of the bytes that are not
continuation bytes, then the total length.  (The unused tail of the C array is not
modelled.) -/
def findUtf8Boundaries (b : Bytes) : List Nat :=
  (List.range b.length).filter (fun i => ((b[i]?).getD 0) &&& 0xC0 ≠ 0x80) ++ [b.length]

end FF
