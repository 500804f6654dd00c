import Verif.Model.Utf8
/-!
# io.py: headers, chunk headers, `find_chunk`, float arrays
-/

namespace FF

/-- io.py:230-235 `_write_binary`. -/
def writeBinary (fs : List (Nat × Nat)) : Wr Unit := do
  let data ← Wr.lift (pack fs)
  Wr.bytes data

/-- io.py:238-267 `_read_binary`: `none` if nothing could be read. -/
def readBinary (ws : List Nat) : Rd (Option (List Nat)) := do
  let buf ← read (calcsize ws)
  if buf.length = 0 then return none
  if buf.length ≠ calcsize ws then Rd.fail .formatError
  return some (unpack ws buf)

/-- io.py:270-275 `_read_required_binary`. -/
def readRequired (ws : List Nat) : Rd (List Nat) := do
  match ← readBinary ws with
  | none => Rd.fail .formatError
  | some v => return v

/-- Reading a single required field: `_read_required_binary(file, fmt)[0]`. -/
def readOne (w : Nat) : Rd Nat := do
  match ← readRequired [w] with
  | [v] => return v
  | _ => Rd.fail .valueError

/-- io.py:181-194 `ChunkIdentifier`. -/
inductive ChunkId where
  | header | simpleVocab | ndArray | bucketVocab | quantizedArray | metadata
  | ndNorms | fastTextVocab | explicitVocab
  deriving DecidableEq, Repr

/-- `int(chunk_id)`, io.py:186-194. -/
def ChunkId.toNat : ChunkId → Nat
  | .header => 0
  | .simpleVocab => 1
  | .ndArray => 2
  | .bucketVocab => 3
  | .quantizedArray => 4
  | .metadata => 5
  | .ndNorms => 6
  | .fastTextVocab => 7
  | .explicitVocab => 8

/-- `ChunkIdentifier(n)`: `ValueError` for unknown ids. -/
def ChunkId.fromNat : Nat → Res ChunkId
  | 0 => .ok .header
  | 1 => .ok .simpleVocab
  | 2 => .ok .ndArray
  | 3 => .ok .bucketVocab
  | 4 => .ok .quantizedArray
  | 5 => .ok .metadata
  | 6 => .ok .ndNorms
  | 7 => .ok .fastTextVocab
  | 8 => .ok .explicitVocab
  | _ => .error .valueError

/-- io.py:197-203 `TypeId`. -/
inductive TypeId where
  | u8 | f32
  deriving DecidableEq, Repr

def TypeId.toNat : TypeId → Nat
  | .u8 => 1
  | .f32 => 10

/-- `TypeId(n)`: `ValueError` for unknown ids. -/
def TypeId.fromNat (n : Nat) : Res TypeId :=
  if n = 1 then .ok .u8 else if n = 10 then .ok .f32 else .error .valueError

/-- io.py:25 `_MAGIC`: `b'FiFu'`. -/
def magic : Bytes := [0x46, 0x69, 0x46, 0x75]

/-- io.py:26 `VERSION`. -/
def version : Nat := 0

/-- io.py:120-132 `Header.read_chunk`; the ids are plain integers. -/
def readHeader : Rd (List Nat) := do
  let m ← read 4
  if m ≠ magic then Rd.fail .formatError
  let v ← readOne 4
  if v ≠ version then Rd.fail .formatError
  let n ← readOne 4
  readRequired (List.replicate n 4)

/-- io.py:134-138 `Header.write_chunk`. -/
def writeHeader (ids : List Nat) : Wr Unit := do
  Wr.bytes magic
  writeBinary ((4, version) :: (4, ids.length) :: ids.map (fun i => (4, i)))

/-- io.py:278-305 `_read_chunk_header`. -/
def readChunkHeader : Rd (Option (ChunkId × Nat)) := do
  match ← readBinary [4, 8] with
  | none => return none
  | some [i, n] => do
    let c ← Rd.lift (ChunkId.fromNat i)
    return some (c, n)
  | some _ => Rd.fail .valueError

/-- io.py:308-312 `_read_required_chunk_header`. -/
def readRequiredChunkHeader : Rd (ChunkId × Nat) := do
  match ← readChunkHeader with
  | none => Rd.fail .formatError
  | some h => return h

/-- io.py:169-178, the loop of `find_chunk`, with an iteration budget. -/
def findChunkLoop (ids : List ChunkId) : Nat → Rd (Option ChunkId)
  | 0 => Rd.fail .outOfFuel
  | fuel + 1 => do
    match ← readChunkHeader with
    | none => return none
    | some (c, size) =>
      if c ∈ ids then return some c
      seekCur size
      findChunkLoop ids fuel

/-- io.py:141-178 `find_chunk`.  Every iteration consumes at least 12 bytes, so the
file length plus one is a sufficient budget (proved: `outOfFuel` never occurs). -/
def findChunk (ids : List ChunkId) : Rd (Option ChunkId) := fun s =>
  (do
    seekSet 0
    let _ ← readHeader
    findChunkLoop ids (s.data.length + 1)) s

/-- io.py:212-227 `_pad_float32`. -/
def padFloat32 (pos : Nat) : Nat := 4 - pos % 4

/-! ### Float arrays.  A float32 is its bit pattern. -/

/-- Bit pattern of a `float32`. -/
abbrev F32 := UInt32

/-- The four bytes `tofile` writes for one little-endian float32. -/
def f32le (x : F32) : Bytes := le 4 x.toNat

/-- io.py:315-326 `_serialize_array_as_le` (bytes produced for a little-endian array;
the byte-order logic is modelled separately in `Model/Endian.lean`). -/
def f32sLE : List F32 → Bytes
  | [] => []
  | x :: xs => f32le x ++ f32sLE xs

/-- Interpret bytes as little-endian float32 items; incomplete items are dropped. -/
def f32sOf : Bytes → List F32
  | b0 :: b1 :: b2 :: b3 :: bs => UInt32.ofNat (unle [b0, b1, b2, b3]) :: f32sOf bs
  | _ => []

/-- io.py:329-334 `_read_array_as_native` with float32 / `np.fromfile(count=n)`:
returns as many complete items as there are, at most `n`.  After a short read the
file is at its end.  The array for `n` items has to be smaller than `2^63` bytes (`ValueError`), `n` itself has to be
a `npy_intp` (`OverflowError`). -/
def fromFileF32 (n : Nat) : Rd (List F32) := fun s =>
  if 4 * n < maxSize then
    let avail := s.data.drop s.pos
    if 4 * n ≤ avail.length then .ok (f32sOf (avail.take (4 * n)), ⟨s.data, s.pos + 4 * n⟩)
    else .ok (f32sOf avail, ⟨s.data, max s.pos s.data.length⟩)
  else if n < maxSize then .error .valueError
  else .error .overflowError

/-- `np.fromfile(count=n, dtype=np.uint8)`. -/
def fromFileU8 (n : Nat) : Rd (List UInt8) := fun s =>
  if n < maxSize then
    let buf := (s.data.drop s.pos).take n
    .ok (buf, ⟨s.data, s.pos + buf.length⟩)
  else .error .overflowError

/-- Writing the padding (`struct.pack(f"{padding}x")`). -/
def zeros (n : Nat) : Bytes := List.replicate n 0

end FF
