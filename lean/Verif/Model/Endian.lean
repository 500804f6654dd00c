import Verif.Model.Io
/-!
# Byte order: `_serialize_array_as_le`, `_read_array_as_native`

An array is its numpy byte-order flag and the bytes of its elements as they lie in memory.
-/

namespace FF

/-- `sys.byteorder` -/
inductive ByteOrder where
  | little | big
  deriving DecidableEq, Repr

/-- `array.dtype.byteorder`: `'<'`, `'>'`, `'='` (native) or `'|'` (not applicable, one byte
items). -/
inductive BoFlag where
  | lt | gt | native | na
  deriving DecidableEq, Repr

/-- The memory content of a numpy array with items of `width` bytes.  Arrays of one or at least
three dimensions are their items in C order; 2-d arrays are rows of items. -/
inductive ArrData where
  | flat (items : List Bytes)
  | rows (rs : List (List Bytes))
  deriving DecidableEq, Repr

structure NpArr where
  width : Nat
  flag : BoFlag
  data : ArrData
  deriving DecidableEq, Repr

/-- `array.tofile(file)`: the raw memory in C order. -/
def tofile (items : List Bytes) : Bytes := items.flatten

/-- `array.byteswap()`: reverse the bytes of every item, keep the dtype. -/
def byteswap (items : List Bytes) : List Bytes := items.map List.reverse

/-- io.py:315-326 `_serialize_array_as_le` on a machine with byte order `m` -/
def serializeArrayAsLe (m : ByteOrder) (a : NpArr) : Bytes :=
  let nativeIsLe := m = .little
  let arrayIsLe := (a.flag = .lt ∨ a.flag = .na) ∨ (a.flag = .native ∧ nativeIsLe)
  match a.data with
  | .flat items => if arrayIsLe then tofile items else tofile (byteswap items)
  | .rows rs =>
    if arrayIsLe then tofile rs.flatten
    else (rs.map fun row => tofile (byteswap row)).flatten

/-- Cut bytes into complete items of `w` bytes, at most `n`. -/
def cutItems (w : Nat) : Nat → Bytes → List Bytes
  | 0, _ => []
  | n + 1, bs => if w ≤ bs.length then bs.take w :: cutItems w n (bs.drop w) else []

/-- io.py:329-334 `_read_array_as_native` for a native dtype of width `w`, on the bytes from the
current position of the file.  norms.py:61-63, fasttext.py:196-199 and word2vec.py:49-51 contain
the same code. -/
def readArrayAsNative (m : ByteOrder) (w count : Nat) (bs : Bytes) : NpArr :=
  let items := cutItems w count bs
  ⟨w, if w = 1 then .na else .native, .flat (if m = .big then byteswap items else items)⟩

end FF
