import Verif.Model.Base
/-!
# Python strings and the UTF-8 codec of CPython

`str.encode("utf-8")`, `bytes.decode("utf-8")` (strict) and
`bytes.decode("utf-8", errors="replace")`, as used in vocab/vocab.py:111,133,159,
vocab/simple_vocab.py:66,71, vocab/subword.py:383-388, compat/fasttext.py:180,269,
compat/word2vec.py:96,112, subword/hash_indexers.pyx:179,249.
-/

namespace FF

/-- A Unicode code point, surrogates included. -/
abbrev Code := Fin 0x110000

/-- A Python `str`. -/
abbrev PyStr := List Code

/-- Lone surrogates cannot be encoded. -/
def isSurrogate (c : Code) : Bool := 0xD800 ≤ c.val && c.val ≤ 0xDFFF

/-- UTF-8 bytes of one code point (ignoring the surrogate restriction). -/
def encCode (c : Code) : Bytes :=
  let n := c.val
  if n < 0x80 then [UInt8.ofNat n]
  else if n < 0x800 then [UInt8.ofNat (0xC0 + n / 64), UInt8.ofNat (0x80 + n % 64)]
  else if n < 0x10000 then
    [UInt8.ofNat (0xE0 + n / 4096), UInt8.ofNat (0x80 + n / 64 % 64), UInt8.ofNat (0x80 + n % 64)]
  else
    [UInt8.ofNat (0xF0 + n / 262144), UInt8.ofNat (0x80 + n / 4096 % 64),
     UInt8.ofNat (0x80 + n / 64 % 64), UInt8.ofNat (0x80 + n % 64)]

/-- Bytes of a string without surrogates. -/
def utf8 : PyStr → Bytes
  | [] => []
  | c :: cs => encCode c ++ utf8 cs

/-- `s.encode("utf-8")` / `bytes(s, "utf-8")`. -/
def encode (s : PyStr) : Res Bytes :=
  if s.any isSurrogate then .error .unicodeEncodeError else .ok (utf8 s)

/-- Outcome of decoding at one position: a code point and the number of further
bytes it occupies, or a malformed sequence of `extra + 1` bytes. -/
inductive Step where
  | good (c : Nat) (extra : Nat)
  | bad (extra : Nat)
  deriving DecidableEq, Repr

def isCont (b : UInt8) : Bool := 0x80 ≤ b.toNat && b.toNat ≤ 0xBF

/-- Permitted range of the second byte of a three byte sequence. -/
def ok3 (b0 b1 : Nat) : Bool :=
  if b0 = 0xE0 then 0xA0 ≤ b1 && b1 ≤ 0xBF
  else if b0 = 0xED then 0x80 ≤ b1 && b1 ≤ 0x9F
  else 0x80 ≤ b1 && b1 ≤ 0xBF

/-- Permitted range of the second byte of a four byte sequence. -/
def ok4 (b0 b1 : Nat) : Bool :=
  if b0 = 0xF0 then 0x90 ≤ b1 && b1 ≤ 0xBF
  else if b0 = 0xF4 then 0x80 ≤ b1 && b1 ≤ 0x8F
  else 0x80 ≤ b1 && b1 ≤ 0xBF

/-- One step of CPython's decoder (`Objects/stringlib/codecs.h`): `b` is the current
byte, `rest` what follows.  The `bad` count is the length of the maximal subpart
that `errors="replace"` turns into one U+FFFD. -/
def utf8Step (b : UInt8) (rest : Bytes) : Step :=
  let b0 := b.toNat
  if b0 < 0x80 then .good b0 0
  else if b0 < 0xC2 then .bad 0
  else if b0 < 0xE0 then
    match rest with
    | b1 :: _ => if isCont b1 then .good ((b0 - 0xC0) * 64 + (b1.toNat - 0x80)) 1 else .bad 0
    | [] => .bad 0
  else if b0 < 0xF0 then
    match rest with
    | b1 :: r1 =>
      if ok3 b0 b1.toNat then
        match r1 with
        | b2 :: _ =>
          if isCont b2 then
            .good ((b0 - 0xE0) * 4096 + (b1.toNat - 0x80) * 64 + (b2.toNat - 0x80)) 2
          else .bad 1
        | [] => .bad 1
      else .bad 0
    | [] => .bad 0
  else if b0 < 0xF5 then
    match rest with
    | b1 :: r1 =>
      if ok4 b0 b1.toNat then
        match r1 with
        | b2 :: r2 =>
          if isCont b2 then
            match r2 with
            | b3 :: _ =>
              if isCont b3 then
                .good ((b0 - 0xF0) * 262144 + (b1.toNat - 0x80) * 4096
                  + (b2.toNat - 0x80) * 64 + (b3.toNat - 0x80)) 3
              else .bad 2
            | [] => .bad 2
          else .bad 1
        | [] => .bad 1
      else .bad 0
    | [] => .bad 0
  else .bad 0

/-- Turn a number into a code point; the decoder only produces numbers in range. -/
def toCode (n : Nat) : Code := if h : n < 0x110000 then ⟨n, h⟩ else ⟨0, by decide⟩

/-- Strict decoding; the first argument is the number of bytes still to be skipped. -/
def decodeAux : Nat → Bytes → Res PyStr
  | _, [] => .ok []
  | k + 1, _ :: bs => decodeAux k bs
  | 0, b :: bs =>
    match utf8Step b bs with
    | .good c k =>
      match decodeAux k bs with
      | .ok s => .ok (toCode c :: s)
      | .error e => .error e
    | .bad _ => .error .unicodeDecodeError

/-- `bs.decode("utf-8")` -/
def decode (bs : Bytes) : Res PyStr := decodeAux 0 bs

/-- U+FFFD -/
def replacementChar : Code := ⟨0xFFFD, by decide⟩

/-- Decoding with `errors="replace"`. -/
def decodeReplaceAux : Nat → Bytes → PyStr
  | _, [] => []
  | k + 1, _ :: bs => decodeReplaceAux k bs
  | 0, b :: bs =>
    match utf8Step b bs with
    | .good c k => toCode c :: decodeReplaceAux k bs
    | .bad k => replacementChar :: decodeReplaceAux k bs

/-- `bs.decode("utf-8", errors="replace")` -/
def decodeReplace (bs : Bytes) : PyStr := decodeReplaceAux 0 bs

/-- Decoding as selected by the `lossy` flag of the compat loaders. -/
def decodeLossy (lossy : Bool) (bs : Bytes) : Res PyStr :=
  if lossy then .ok (decodeReplace bs) else decode bs

end FF
