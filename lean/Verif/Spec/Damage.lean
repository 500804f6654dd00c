import Verif.Spec.FfFile
/-! # Damaged files: some bytes of a file are replaced. -/

namespace FF

/-- The files are equally long and differ at most in the bytes from `a` up to (not including) `b`. -/
def DiffersWithin (bs bs' : Bytes) (a b : Nat) : Prop :=
  bs'.length = bs.length ∧ ∀ i, i < a ∨ b ≤ i → bs'[i]? = bs[i]?

/-- The matrix with another number in row `i` and column `j`. -/
def Mat.withAt {K : Type} (m : Mat K) (i j : Nat) (x : K) : Mat K :=
  ⟨m.cols, m.rows.modify i fun r => r.set j x⟩

/-- The storage with another code in row `i` for quantizer `j`. -/
def QArr.withCode {K : Type} (q : QArr K) (i j : Nat) (b : UInt8) : QArr K :=
  { q with codes := q.codes.modify i fun r => r.set j b }

/-- The storage with another number in component `k` of centroid `j` of quantizer `i`. -/
def QArr.withCentroid {K : Type} (q : QArr K) (i j k : Nat) (x : K) : QArr K :=
  { q with pq := { q.pq with
      quantizers := q.pq.quantizers.modify i fun m => m.modify j fun r => r.set k x } }

/-- The vocabulary with another word in place `i`; every other word and the subwords are as before. -/
def Vocab.withWord (v : Vocab) (i : Nat) (w : PyStr) : Vocab :=
  ⟨v.words.set i w, (v.words.set i w).zipIdx, v.sub⟩

/-- The `len` bytes at `pos` are the UTF-8 encoding of the text `w`. -/
def ReadsWord (bs : Bytes) (pos len : Nat) (w : PyStr) : Prop :=
  (∀ c ∈ w, c.val < 0xD800 ∨ 0xDFFF < c.val) ∧ (utf8 w).length = len ∧ Fifu.HasAt bs pos (utf8 w)

end FF

namespace FF

/-- Where the fields of a storage chunk end: after rows, columns and type, or after the eight fields of a quantized
matrix. -/
def Storage.fieldsEnd : Storage F32 → Nat
  | .nd _ => 28
  | .quant _ => 48

/-- The length of a chunk at `p`. -/
def LengthField (p i : Nat) : Prop := p + 4 ≤ i ∧ i < p + 12

/-- The padding from `p` up to the next multiple of four. -/
def Padding (p i : Nat) : Prop := ∃ pad, Fifu.Pad p pad ∧ p ≤ i ∧ i < p + pad

/-- Places of a file with a header up to `p1`, a vocabulary chunk at `p2`, a storage chunk at `p3` and, if there are
norms, their chunk at `p4`: the list of chunks in the header, the lengths of the three chunks, and the padding. -/
def Unread (e : Embeddings F32) (p1 p2 p3 p4 i : Nat) : Prop :=
  12 ≤ i ∧ i < p1 ∨ LengthField p2 i ∨ LengthField p3 i ∨ Padding (p3 + e.storage.fieldsEnd) i ∨
    e.norms.isSome ∧ (LengthField p4 i ∨ Padding (p4 + 24) i)

end FF

namespace FF

/-- The vector `v` of a word in a word2vec file occupies the `len` bytes at `pos`.  At the end of a file that is cut off
after the first component of its last vector, this component stands for all of them. -/
def VecAt (bs : Bytes) (pos cols : Nat) (v : List F32) (len : Nat) : Prop :=
  v.length = cols ∧
    (len = 4 * cols ∧ Fifu.HasAt bs pos (Fifu.floats v) ∨
      2 ≤ cols ∧ len = 4 ∧ bs.length < pos + 8 ∧ ∃ x, v = List.replicate cols x ∧ Fifu.HasAt bs pos (Fifu.floats [x]))

end FF
