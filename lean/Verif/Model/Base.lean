/-!
# Bytes, exceptions, file readers and writers

Source root of all citations: `/repo/src/finalfusion`.

Not modelled here: buffering, file descriptors, memory exhaustion.  A file is the
list of its bytes.  CPython's limits on file offsets and read sizes
(`Py_ssize_t`, i.e. below `2^63`) are modelled.
-/

namespace FF

abbrev Bytes := List UInt8

/-- The exception classes that the modelled code can raise.
`outOfFuel` is not a Python exception: it marks a loop of the model that has
exhausted its iteration budget; it is proved never to be produced. -/
inductive PyErr where
  | formatError          -- FinalfusionFormatError, io.py:206-209
  | valueError
  | typeError
  | assertionError
  | keyError
  | indexError
  | attributeError
  | overflowError
  | zeroDivisionError
  | structError
  | unicodeDecodeError
  | unicodeEncodeError
  | eofError
  | osError
  | notImplementedError
  | systemExit
  | stopIteration
  | outOfFuel
  deriving DecidableEq, Repr

abbrev Res (α : Type) := Except PyErr α

instance {α : Type} [DecidableEq α] : DecidableEq (Res α) := fun a b =>
  match a, b with
  | .ok x, .ok y => if h : x = y then isTrue (h ▸ rfl) else isFalse (fun e => by cases e; exact h rfl)
  | .error x, .error y => if h : x = y then isTrue (h ▸ rfl) else isFalse (fun e => by cases e; exact h rfl)
  | .ok _, .error _ => isFalse (fun e => by cases e)
  | .error _, .ok _ => isFalse (fun e => by cases e)

/-- Python `assert cond`. -/
def pyAssert (c : Bool) : Res Unit := if c then .ok () else .error .assertionError

/-! ### Little-endian integers (`struct` codes `I`, `Q` with prefix `<`) -/

/-- `struct.pack` of an unsigned integer that fits in `w` bytes. -/
def le : Nat → Nat → Bytes
  | 0, _ => []
  | w + 1, n => UInt8.ofNat n :: le w (n / 256)

/-- `struct.unpack` of an unsigned little-endian integer. -/
def unle : Bytes → Nat
  | [] => 0
  | b :: bs => b.toNat + 256 * unle bs

/-- Two's complement reading of a `w`-byte field (`struct` codes `b`, `i`, `q`). -/
def toSigned (w n : Nat) : Int :=
  if n < 2 ^ (8 * w - 1) then (n : Int) else (n : Int) - 2 ^ (8 * w)

/-- `struct.unpack(fmt, buf)` for a format of unsigned fields of the given widths. -/
def unpack : List Nat → Bytes → List Nat
  | [], _ => []
  | w :: ws, bs => unle (bs.take w) :: unpack ws (bs.drop w)

/-- The bytes of a successful `struct.pack`. -/
def packRaw : List (Nat × Nat) → Bytes
  | [] => []
  | (w, n) :: fs => le w n ++ packRaw fs

/-- `struct.pack(fmt, *args)` for unsigned fields, given as (width, value) pairs;
`struct.error` if a value does not fit. -/
def pack (fs : List (Nat × Nat)) : Res Bytes :=
  if fs.all (fun f => f.2 < 256 ^ f.1) then .ok (packRaw fs) else .error .structError

/-- `struct.calcsize`. -/
def calcsize (ws : List Nat) : Nat := ws.sum

/-- Exclusive limit of sizes and file offsets (`Py_ssize_t`, `off_t`): `2^63`. -/
def maxSize : Nat := 2 ^ 63

/-! ### Readers -/

/-- An open binary file: content and current offset. -/
structure RFile where
  data : Bytes
  pos : Nat
  deriving DecidableEq, Repr

/-- A computation reading from an open file. -/
abbrev Rd (α : Type) := StateT RFile (Except PyErr) α

/-- Run a reader on freshly opened content. -/
def Rd.run {α : Type} (m : Rd α) (data : Bytes) : Res α :=
  match m ⟨data, 0⟩ with
  | .ok (a, _) => .ok a
  | .error e => .error e

/-- Raise an exception inside a reader. -/
def Rd.fail {α : Type} (e : PyErr) : Rd α := fun _ => .error e

/-- Lift a pure computation that may raise. -/
def Rd.lift {α : Type} (r : Res α) : Rd α := fun s =>
  match r with
  | .ok a => .ok (a, s)
  | .error e => .error e

/-- `file.tell()` -/
def tell : Rd Nat := fun s => .ok (s.pos, s)

/-- `file.read(n)`: at most `n` bytes, fewer at the end of the file. -/
def read (n : Nat) : Rd Bytes := fun s =>
  if n < maxSize then
    let buf := (s.data.drop s.pos).take n
    .ok (buf, ⟨s.data, s.pos + buf.length⟩)
  else .error .overflowError

/-- `file.seek(n)` (absolute) -/
def seekSet (n : Nat) : Rd Unit := fun s => .ok ((), ⟨s.data, n⟩)

/-- `file.seek(n, 1)` for `n ≥ 0`; may move beyond the end of the file.  Python raises `ValueError` if `n` is not an
offset; the limits of particular file systems are not modelled. -/
def seekCur (n : Nat) : Rd Unit := fun s =>
  if n < maxSize then
    if s.pos + n < maxSize then .ok ((), ⟨s.data, s.pos + n⟩) else .error .osError
  else .error .valueError

/-- `file.seek(-n, 1)`; seeking before the start is `OSError`. -/
def seekBack (n : Nat) : Rd Unit := fun s =>
  if n ≤ s.pos then .ok ((), ⟨s.data, s.pos - n⟩) else .error .osError

/-! ### Writers -/

/-- A computation writing to a freshly truncated file.  The state is the content
written so far; it survives exceptions. -/
abbrev Wr (α : Type) := ExceptT PyErr (StateM Bytes) α

/-- `file.write(bs)`.  Files cannot grow to `2^63` bytes (`EFBIG`). -/
def Wr.bytes (bs : Bytes) : Wr Unit := fun s =>
  if (s ++ bs).length < maxSize then (.ok (), s ++ bs) else (.error .osError, s)

/-- Raise an exception inside a writer. -/
def Wr.fail {α : Type} (e : PyErr) : Wr α := fun s => (.error e, s)

/-- Lift a pure computation that may raise. -/
def Wr.lift {α : Type} (r : Res α) : Wr α := fun s => (r, s)

/-- `file.tell()` while writing. -/
def Wr.tell : Wr Nat := fun s => (.ok s.length, s)

/-- Result of writing a whole file: the outcome and the file content afterwards. -/
def Wr.file {α : Type} (w : Wr α) : Res α × Bytes := w []

end FF
