import Verif.Model.Similarity
import Verif.Model.FastText
import Verif.Model.Text
/-!
# Arrays as objects: views, copies and in-place operations
embeddings.py, storage/ndarray.py, storage/quantized.py, compat/*.py

The other model files treat arrays as values.  Here float arrays are views of buffers on a heap, so
that a function may return a view of the storage, and in-place operations (`out[:] = x`,
`out /= n`, `np.add.reduce(.., out=out)`, `out.dot(.., out=out)`) change a buffer.  Every operation
is modelled as numpy performs it: basic indexing (`a[i]`, `a[:n]`) gives a view, indexing with lists
and arithmetic give fresh arrays.  Quantized codes (`uint8`), words and indexers are values: no
function of the package assigns to elements of them after construction.

In-place operations whose operands overlap behave as if the operands had been copied first, which
numpy guarantees.
-/

namespace FF

/-- The memory of an array; memory mapped files (`mode='r'`) are not writable. -/
structure Buf (K : Type) where
  data : List K
  writable : Bool
  deriving DecidableEq, Repr

abbrev Heap (K : Type) := List (Buf K)

/-- A 1-d array: a buffer and the positions of its elements, in order.  This covers any strides. -/
structure View where
  loc : Nat
  idxs : List Nat
  deriving DecidableEq, Repr

/-- A 2-d array of shape `(rows.length, cols)`. -/
structure HMat where
  loc : Nat
  cols : Nat
  rows : List (List Nat)
  deriving DecidableEq, Repr

/-- The elements of an array. -/
def Heap.read {K : Type} (h : Heap K) (v : View) : List K :=
  match h[v.loc]? with
  | none => []
  | some b => v.idxs.filterMap fun i => b.data[i]?

/-- The value of a matrix. -/
def HMat.val {K : Type} (h : Heap K) (m : HMat) : Mat K :=
  ⟨m.cols, m.rows.map fun r => h.read ⟨m.loc, r⟩⟩

/-- Computations that may change the heap and may raise; changes made before an exception stay. -/
abbrev HM (K α : Type) := ExceptT PyErr (StateM (Heap K)) α

section
variable {K : Type}

def HM.lift {α : Type} (r : Res α) : HM K α := fun h => (r, h)

def HM.fail {α : Type} (x : PyErr) : HM K α := fun h => (.error x, h)

/-- Look at the heap. -/
def HM.look {α : Type} (f : Heap K → α) : HM K α := fun h => (.ok (f h), h)

/-- Use the elements of an array. -/
def HM.read (v : View) : HM K (List K) := HM.look fun h => h.read v

/-- A fresh 1-d array. -/
def HM.alloc (xs : List K) : HM K View :=
  fun h => (.ok ⟨h.length, List.range xs.length⟩, h ++ [⟨xs, true⟩])

/-- Positions of the rows of a C-contiguous matrix that starts at `off`. -/
def rowIdxs : Nat → List (List K) → List (List Nat)
  | _, [] => []
  | off, r :: rs => (List.range r.length).map (off + ·) :: rowIdxs (off + r.length) rs

/-- A fresh 2-d array. -/
def HM.allocMat (cols : Nat) (rows : List (List K)) : HM K HMat :=
  fun h => (.ok ⟨h.length, cols, rowIdxs 0 rows⟩, h ++ [⟨rows.flatten, true⟩])

/-- Store `xs` at the positions `idxs`. -/
def setAll : List K → List Nat → List K → List K
  | data, i :: is, x :: xs => setAll (data.set i x) is xs
  | data, _, _ => data

/-- `v[:] = xs`: a sequence of length one is broadcast, other lengths and read-only arrays are a
`ValueError`. -/
def HM.write (v : View) (xs : List K) : HM K Unit := fun h =>
  match h[v.loc]? with
  | none => (.error .valueError, h)
  | some b =>
    if b.writable then
      match assignRow v.idxs.length xs with
      | .error x => (.error x, h)
      | .ok ys => (.ok (), h.set v.loc ⟨setAll b.data v.idxs ys, true⟩)
    else (.error .valueError, h)

/-- `m[:] = rows`, row by row; a different number of rows is a `ValueError`. -/
def HM.writeRows (loc : Nat) : List (List Nat) → List (List K) → HM K Unit
  | [], [] => pure ()
  | is :: iss, r :: rs => do
    HM.write ⟨loc, is⟩ r
    HM.writeRows loc iss rs
  | _, _ => HM.fail .valueError

end

/-! ### Storages -/

/-- `PQ` with its arrays on the heap; quantizer `i` is `quantizers[i]`. -/
structure HPQ where
  nCentroids : Nat
  sub : Nat
  quantizers : List HMat
  projection : Option HMat

structure HQArr where
  pq : HPQ
  qlen : Nat
  codes : List (List UInt8)
  norms : Option View

inductive HStorage where
  | nd (m : HMat)
  | quant (q : HQArr)

structure HEmb where
  storage : HStorage
  vocab : Vocab
  norms : Option View
  metadata : Option Meta

/-- The values behind the objects, as in the other model files. -/
def HPQ.val {K : Type} (h : Heap K) (pq : HPQ) : PQ K :=
  ⟨pq.nCentroids, pq.sub, pq.quantizers.map fun m => (m.val h).rows, pq.projection.map (HMat.val h)⟩

def HQArr.val {K : Type} (h : Heap K) (q : HQArr) : QArr K :=
  ⟨q.pq.val h, q.qlen, q.codes, q.norms.map h.read⟩

def HStorage.val {K : Type} (h : Heap K) : HStorage → Storage K
  | .nd m => .nd (m.val h)
  | .quant q => .quant (q.val h)

def HEmb.val {K : Type} (h : Heap K) (E : HEmb) : Embeddings K :=
  ⟨E.storage.val h, E.vocab, E.norms.map h.read, E.metadata⟩

/-- `storage.shape[1]` -/
def HStorage.nCols : HStorage → Nat
  | .nd m => m.cols
  | .quant q => q.pq.quantizers.length * q.pq.sub

/-- quantized.py:52-53 -/
def HPQ.reconstructedLen (pq : HPQ) : Nat := pq.quantizers.length * pq.sub

section
variable {K : Type}

/-- quantized.py:143-144, 148: `quantizers[arange(M), codes]`, flattened; errors as in
`PQ.reconstruct` -/
def PQ.gather (pq : PQ K) (codes : List UInt8) : Res (List K) := do
  if codes.length ≠ pq.quantizers.length then .error .indexError
  let parts ← mapRes (fun qc : List (List K) × UInt8 => npGet qc.1 (qc.2.toNat : Int))
    (pq.quantizers.zip codes)
  return parts.flatten

variable [NumOps K]

/-- The `C_CONTIGUOUS` flag of a 1-d array. -/
def View.contiguous (v : View) : Bool :=
  v.idxs = List.range' (v.idxs.headD 0) v.idxs.length

/-- quantized.py:143-144, 148: indexing with arrays copies, `reshape` is a view of the copy -/
def HPQ.gather (pq : HPQ) (codes : List UInt8) : HM K View := do
  let xs ← HM.lift (← HM.look fun h => (pq.val h).gather codes)
  HM.alloc xs

/-- quantized.py:151-153: the projection is done in place; `ndarray.dot` accepts only contiguous
output arrays. -/
def HPQ.project (pq : HPQ) (out : View) : HM K View :=
  match pq.projection with
  | none => return out
  | some p => do
    if out.contiguous = false then HM.fail .valueError
    HM.write out (projectRow (← HM.look p.val) (← HM.read out))
    return out

/-- quantized.py:112-153 `PQ.reconstruct` for one quantized vector -/
def HPQ.reconstruct (pq : HPQ) (codes : List UInt8) (out : Option View) : HM K View :=
  match out with
  | none => do
    let out ← pq.gather codes
    pq.project out
  | some o => do
    if o.idxs.length ≠ pq.reconstructedLen then HM.fail .assertionError
    let tmp ← pq.gather codes
    HM.write o (← HM.read tmp)
    pq.project o

/-- quantized.py:151-153 for a matrix -/
def HPQ.projectMany (pq : HPQ) (out : HMat) : HM K HMat :=
  match pq.projection with
  | none => return out
  | some p => do
    let proj ← HM.look p.val
    let rows ← HM.look fun h => (out.val h).rows
    HM.writeRows out.loc out.rows (rows.map (projectRow proj))
    return out

/-- quantized.py:112-153 `PQ.reconstruct` for a list of quantized vectors without `out` -/
def HPQ.reconstructMany (pq : HPQ) (codes : List (List UInt8)) : HM K HMat := do
  let xs ← HM.lift (← HM.look fun h => mapRes (pq.val h).gather codes)
  let out ← HM.allocMat pq.reconstructedLen xs
  pq.projectMany out

/-- quantized.py:205-234 `QuantizedArray.embedding` for an integer key -/
def HQArr.embedding (q : HQArr) (i : Int) (out : Option View) : HM K View := do
  let quantized ← HM.lift (npGet q.codes i)
  let out ← q.pq.reconstruct quantized out
  match q.norms with
  | none => return out
  | some norms => do
    let n ← HM.lift (npGet (← HM.read norms) i)
    HM.write out (scale n (← HM.read out))
    return out

/-- quantized.py:205-234 `QuantizedArray.embedding` for a list of integers without `out` -/
def HQArr.embeddingMany (q : HQArr) (is : List Int) : HM K HMat := do
  let quantized ← HM.lift (npTake q.codes is)
  let out ← q.pq.reconstructMany quantized
  match q.norms with
  | none => return out
  | some norms => do
    let ns ← HM.lift (npTake (← HM.read norms) is)
    let rows ← HM.look fun h => (out.val h).rows
    HM.writeRows out.loc out.rows (List.zipWith scale ns rows)
    return out

/-- `storage[i]`: for an `NdArray` a view of its row (ndarray.py:137-140), for a `QuantizedArray`
fresh (quantized.py:261-271) -/
def HStorage.getOne (s : HStorage) (i : Int) : HM K View :=
  match s with
  | .nd m => do
    let r ← HM.lift (npGet m.rows i)
    return ⟨m.loc, r⟩
  | .quant q => q.embedding i none

/-- `storage[is]` for a list of integers: always fresh -/
def HStorage.getMany (s : HStorage) (is : List Int) : HM K HMat :=
  match s with
  | .nd m => do
    let rs ← HM.lift (npTake m.rows is)
    let rows ← HM.look fun h => rs.map fun r => h.read ⟨m.loc, r⟩
    HM.allocMat m.cols rows
  | .quant q => q.embeddingMany is

/-- `storage[start:stop:step]`: nothing is copied -/
def HStorage.slice (s : HStorage) (sl : PySlice) : HM K HStorage :=
  match s with
  | .nd m => do
    let rs ← HM.lift (npSlice m.rows sl)
    return .nd ⟨m.loc, m.cols, rs⟩
  | .quant q => do
    let codes ← HM.lift (npSlice q.codes sl)
    match q.norms with
    | none => return .quant ⟨q.pq, q.qlen, codes, none⟩
    | some v => do
      let is ← HM.lift (npSlice v.idxs sl)
      return .quant ⟨q.pq, q.qlen, codes, some ⟨v.loc, is⟩⟩

/-- `numpy.asarray(storage)`: an `NdArray` itself; for a `QuantizedArray` (quantized.py:279-283)
fresh -/
def HStorage.toArray (s : HStorage) : HM K HMat :=
  match s with
  | .nd m => pure m
  | .quant q => do
    let out ← q.pq.reconstructMany q.codes
    match q.norms with
    | none => return out
    | some v => do
      let ns ← HM.read v
      let rows ← HM.look fun h => (out.val h).rows
      if ns.length ≠ rows.length then HM.fail .valueError
      HM.allocMat out.cols (List.zipWith scale ns rows)

/-! ### Lookup -/

/-- embeddings.py:629-632 -/
def assignOut (res : View) (out : Option View) : HM K View :=
  match out with
  | some o => do
    HM.write o (← HM.read res)
    return o
  | none => return res

/-- embeddings.py:638 `np.add.reduce(res, 0, out=out)` -/
def reduceOut (cols : Nat) (rows : List (List K)) (out : Option View) : HM K View :=
  match out with
  | some o => do
    if o.idxs.length ≠ cols then HM.fail .valueError
    HM.write o (addReduce cols rows)
    return o
  | none => HM.alloc (addReduce cols rows)

/-- embeddings.py:623-641 `_embedding`.  A sum into an `out` of another length is a `ValueError`; for
vectors with one component numpy versions may broadcast instead, which is not modelled. -/
def HEmb.embed (E : HEmb) (idx : Idx) (out : Option View) : HM K (View × Option K) :=
  match idx with
  | .one i => do
    let res ← E.storage.getOne i
    let out ← assignOut res out
    match E.norms with
    | some norms => do
      let n ← HM.lift (npGet (← HM.read norms) i)
      return (out, some n)
    | none => return (out, none)
  | .many is => do
    let res ← E.storage.getMany is
    let rows ← HM.look fun h => (res.val h).rows
    let out ← reduceOut res.cols rows out
    let norm := NumOps.norm (← HM.read out)
    HM.write out (vdiv (← HM.read out) norm)
    return (out, some norm)

/-- embeddings.py:123-149 `__getitem__` -/
def HEmb.getItem (E : HEmb) (word : PyStr) : HM K View := do
  let idx ← HM.lift (E.vocab.getItem word)
  let r ← E.embed idx none
  return r.1

/-- embeddings.py:151-218 `embedding` -/
def HEmb.embedding (E : HEmb) (word : PyStr) (out default : Option View) : HM K (Option View) := do
  match ← HM.lift (E.vocab.idx word) with
  | none =>
    match out, default with
    | some o, some d => do
      HM.write o (← HM.read d)
      return some o
    | _, _ => return default
  | some idx => do
    let r ← E.embed idx out
    return some r.1

/-- embeddings.py:220-269 `embedding_with_norm` -/
def HEmb.embeddingWithNorm (E : HEmb) (word : PyStr) (out : Option View)
    (default : Option (View × K)) : HM K (Option (View × Option K)) :=
  match E.norms with
  | none => HM.fail .typeError
  | some _ => do
    match ← HM.lift (E.vocab.idx word) with
    | none =>
      match out, default with
      | some o, some d => do
        HM.write o (← HM.read d.1)
        return some (o, some d.2)
      | _, _ => return default.map fun d => (d.1, some d.2)
    | some idx => do
      let r ← E.embed idx out
      return some r

/-! ### Similarity -/

/-- `storage.dot(query)` -/
def HStorage.dot (s : HStorage) (query : View) : HM K View :=
  match s with
  | .nd m => do
    let q ← HM.read query
    if m.cols ≠ q.length then HM.fail .valueError
    let rows ← HM.look fun h => (m.val h).rows
    HM.alloc (rows.map fun r => NumOps.dot r q)
  | .quant _ => HM.fail .attributeError

/-- embeddings.py:605-621 `_similarity` -/
def HEmb.similarity (S : Sel K) (E : HEmb) (query : View) (k : Int) (skips : List PyStr) :
    HM K (List (PyStr × K)) := do
  let words ← E.storage.slice (.upTo E.vocab.len)
  let sims ← words.dot query
  let xs ← HM.read sims
  let skip := E.vocab.skipIndices skips
  let part ← HM.lift (S.argpartition xs (-k - skip.length))
  let part ← HM.lift (npSlice part ⟨some (-k - skip.length), none, none⟩)
  let heap ← HM.lift (pushAll S E.vocab.words xs skip [] part)
  return S.nlargest k heap

/-- embeddings.py:554-583 `embedding_similarity` -/
def HEmb.embeddingSimilarity (S : Sel K) (E : HEmb) (query : View) (k : Int)
    (skip : Option (List PyStr)) : HM K (List (PyStr × K)) :=
  E.similarity S query k (skip.getD [])

/-- embeddings.py:525-552 `word_similarity` -/
def HEmb.wordSimilarity (S : Sel K) (E : HEmb) (query : PyStr) (k : Int) :
    HM K (Option (List (PyStr × K))) := do
  match ← E.embedding query none none with
  | none => return none
  | some v => do
    let r ← E.similarity S v k [query]
    return some r

/-- embeddings.py:471-523 `analogy` -/
def HEmb.analogy (S : Sel K) (E : HEmb) (w1 w2 w3 : PyStr) (k : Int) (skip : Option (List PyStr)) :
    HM K (Option (List (PyStr × K))) := do
  let a ← E.embedding w1 none none
  let b ← E.embedding w2 none none
  let c ← E.embedding w3 none none
  match a, b, c with
  | some a, some b, some c => do
    let diff ← HM.alloc (vsub (← HM.read b) (← HM.read a))
    let d ← HM.alloc (vadd (← HM.read c) (← HM.read diff))
    let x ← HM.read d
    HM.write d (vdiv x (NumOps.norm x))
    let r ← E.similarity S d k (skip.getD [w1, w2, w3])
    return some r
  | _, _, _ => return none

/-! ### Conversion -/

/-- embeddings.py:462-465, the loop of `bucket_to_explicit`; `new` is the fresh storage -/
def HEmb.b2eLoop (E : HEmb) (ix : Indexer) (eix : ExplIndexer) (n : Nat) (new : HMat) :
    List PyStr → HM K Unit
  | [] => pure ()
  | g :: gs =>
    match Dict.get? eix.index g with
    | none => HM.fail .keyError
    | some k => do
      match ← HM.lift (ix.call g) with
      | none => HM.fail .typeError
      | some i => do
        let row ← E.storage.getOne (n + i)
        let dst ← HM.lift (npGet new.rows (n + k))
        HM.write ⟨new.loc, dst⟩ (← HM.read row)
        HEmb.b2eLoop E ix eix n new gs

/-- embeddings.py:434-469 `bucket_to_explicit`: the storage is fresh, the norms are shared with the
source -/
def HEmb.bucketToExplicit (E : HEmb) : HM K HEmb :=
  match E.vocab.sub with
  | none => HM.fail .typeError
  | some (.expl _) => HM.fail .typeError
  | some ix => do
    let vocab ← HM.lift E.vocab.toExplicit
    match vocab.sub with
    | some (.expl eix) => do
      let cols := E.storage.nCols
      let n := vocab.len
      let _ ← HM.lift (zerosShape vocab.upperBound cols)
      let new ← HM.allocMat cols
        (List.replicate vocab.upperBound.toNat (List.replicate cols (NumOps.zero : K)))
      let known ← E.storage.slice (.upTo n)
      let known ← known.toArray
      let rows ← HM.look fun h => (known.val h).rows
      HM.writeRows new.loc (new.rows.take n) rows
      HEmb.b2eLoop E ix eix n new eix.ngrams
      let e ← HM.look fun h => (HMat.val h new, E.norms.map h.read)
      let _ ← HM.lift (Embeddings.new (.nd e.1) vocab e.2 none)
      return ⟨.nd new, vocab, E.norms, none⟩
    | _ => HM.fail .attributeError

end

/-! ### Exports -/

/-- Computations that use the heap and write to a file. -/
abbrev HW (K α : Type) := ExceptT PyErr (StateM (Heap K × Bytes)) α

def HW.heap {K α : Type} (m : HM K α) : HW K α := fun s => ((m s.1).1, ((m s.1).2, s.2))

def HW.file {K α : Type} (w : Wr α) : HW K α := fun s => ((w s.2).1, (s.1, (w s.2).2))

section
variable {K : Type} [NumOps K]

/-- word2vec.py:92-94, text.py:167-169: row `idx` of the words, scaled by its norm; the product
is a fresh array -/
def exportRowH (matrix : HStorage) (norms : Option View) (idx : Nat) : HM K View := do
  let row ← matrix.getOne idx
  match norms with
  | none => return row
  | some ns => do
    let n ← HM.lift (npGet (← HM.read ns) idx)
    let x ← HM.read row
    HM.alloc (x.map fun y => NumOps.mul y n)

/-- word2vec.py:91-100 -/
def w2vWriteRowsH [Codec K] (matrix : HStorage) (norms : Option View) :
    Nat → List PyStr → HW K Unit
  | _, [] => pure ()
  | idx, word :: words => do
    let row ← HW.heap (exportRowH matrix norms idx)
    let bWord ← HW.file (Wr.lift (encode word))
    HW.file (Wr.bytes bWord)
    HW.file (Wr.bytes [32])
    let x ← HW.heap (HM.read row)
    HW.file (Wr.bytes (f32sLE (x.map Codec.bits)))
    HW.file (Wr.bytes [10])
    w2vWriteRowsH matrix norms (idx + 1) words

omit [NumOps K] in
/-- `storage.shape` of the value of a storage -/
def HStorage.nRows : HStorage → Nat
  | .nd m => m.rows.length
  | .quant q => q.codes.length

/-- word2vec.py:60-100 `write_word2vec` -/
def writeWord2vecH [Codec K] (E : HEmb) : HW K Unit := do
  let matrix ← HW.heap (E.storage.slice (.upTo E.vocab.len))
  HW.file (Wr.bytes (utf8 (dimsLine matrix.nRows matrix.nCols)))
  w2vWriteRowsH matrix E.norms 0 E.vocab.words

/-- text.py:166-170 -/
def textWriteRowsH [NumText K] (matrix : HStorage) (norms : Option View) (sep : PyStr) :
    Nat → List PyStr → HW K Unit
  | _, [] => pure ()
  | idx, word :: words => do
    let row ← HW.heap (exportRowH matrix norms idx)
    let x ← HW.heap (HM.read row)
    HW.file (writeStr word)
    HW.file (writeStr sep)
    HW.file (writeStr (joinSp (x.map NumText.str)))
    HW.file (writeStr [10])
    textWriteRowsH matrix norms sep (idx + 1) words

/-- text.py:157-170 `_write_text` -/
def writeTextH [NumText K] (dims : Bool) (E : HEmb) (sep : PyStr) : HW K Unit := do
  let matrix ← HW.heap (E.storage.slice (.upTo E.vocab.len))
  if dims then HW.file (writeStr (dimsLine matrix.nRows matrix.nCols))
  textWriteRowsH matrix E.norms sep 0 E.vocab.words

/-- fasttext.py:291-292: `embed *= norms[i]` -/
def applyNormH (norms : Option View) (i : Nat) (embed : View) : HM K Unit :=
  match norms with
  | none => return ()
  | some ns => do
    let n ← HM.lift (npGet (← HM.read ns) i)
    let x ← HM.read embed
    HM.write embed (x.map fun y => NumOps.mul y n)

/-- fasttext.py:287-294: `embed = storage[i]`, `embed = embed * (len(indices) + 1)` (fresh), then
`embed *= norms[i]` and `embed -= storage[indices].sum(0)` in place -/
def ftWordRowH (E : HEmb) (ix : Indexer) (i : Nat) (w : PyStr) : HM K View := do
  let indices ← HM.lift (E.vocab.subwordIndices ix w)
  let embed ← E.storage.getOne i
  let x ← HM.read embed
  let embed ← HM.alloc (x.map fun y => NumOps.mul y (NumOps.ofNat (indices.length + 1)))
  applyNormH E.norms i embed
  let sw ← E.storage.getMany indices
  let rows ← HM.look fun h => (sw.val h).rows
  HM.write embed (vsub (← HM.read embed) (addReduce sw.cols rows))
  return embed

/-- fasttext.py:287-296 -/
def ftWriteRowsH [Codec K] (E : HEmb) (ix : Indexer) : Nat → List PyStr → HW K Unit
  | _, [] => pure ()
  | i, w :: ws => do
    let row ← HW.heap (ftWordRowH E ix i w)
    let x ← HW.heap (HM.read row)
    HW.file (Wr.bytes (f32sLE (x.map Codec.bits)))
    ftWriteRowsH E ix (i + 1) ws

/-- fasttext.py:61-112 `write_fasttext` -/
def writeFasttextH [Codec K] (E : HEmb) : HW K Unit :=
  match E.vocab.sub with
  | some (.ft ix) => do
    HW.file (writeSigned [(4, ftMagic), (4, 12)])
    HW.file (writeFtCfg E.storage.nCols ix.nBuckets ix.minN ix.maxN)
    HW.file (writeFtVocab E.vocab)
    HW.file (writeBinary [(1, 0), (8, E.storage.nRows), (8, E.storage.nCols)])
    ftWriteRowsH E (.ft ix) 0 E.vocab.words
    let rest ← HW.heap (E.storage.slice ⟨some E.vocab.len, none, none⟩)
    let rest ← HW.heap (HM.look rest.val)
    HW.file (writeRaw rest)
    let all ← HW.heap (HM.look E.storage.val)
    HW.file (writeRaw all)
  | _ => HW.file (Wr.fail .valueError)

end

/-- embeddings.py:416-432 `write`: arrays are only read -/
def HEmb.write (T : Toml) (E : HEmb) : HW F32 Unit := do
  let e ← HW.heap (HM.look E.val)
  HW.file (e.write T)

end FF
