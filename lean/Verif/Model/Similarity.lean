import Verif.Model.Lookup
import Mathlib.Data.List.Sort
import Mathlib.Data.List.Dedup
/-!
# Similarity and analogy queries
embeddings.py:471-621, 724-732

`numpy.argpartition`, `heapq.heappush` and `heapq.nlargest` are parameters with a specification, because what
they do with equal scores and NaNs depends on the implementation.
-/

namespace FF

/-- `array.argpartition(kth)`, `heapq.heappush(heap, item)` (the new heap) and `heapq.nlargest(k, heap)`.
Results are compared by similarity only (embeddings.py:724-732). -/
structure Sel (K : Type) where
  argpartition : List K → Int → Res (List Nat)
  heappush : List (PyStr × K) → PyStr × K → List (PyStr × K)
  nlargest : Int → List (PyStr × K) → List (PyStr × K)

section
variable {K : Type} [NumOps K]

/-- `storage.dot(query)`: `ndarray.dot` for a matrix and a vector (`ValueError` if the shapes do
not fit); `QuantizedArray` has no attribute `dot`. -/
def Storage.dot (s : Storage K) (query : List K) : Res (List K) :=
  match s with
  | .nd m => if m.cols ≠ query.length then .error .valueError
      else .ok (m.rows.map fun r => NumOps.dot r query)
  | .quant _ => .error .attributeError

/-- embeddings.py:609-611 `skip_indices`; `skips` is a set, so its order and repetitions do not
matter. -/
def Vocab.skipIndices (v : Vocab) (skips : List PyStr) : List Nat :=
  (skips.filterMap fun s => Dict.get? v.index s).dedup

/-- embeddings.py:616-620, the loop over the partition -/
def pushAll (S : Sel K) (words : List PyStr) (sims : List K) (skip : List Nat) :
    List (PyStr × K) → List Nat → Res (List (PyStr × K))
  | heap, [] => .ok heap
  | heap, i :: is =>
    if i ∈ skip then pushAll S words sims skip heap is
    else
      match words[i]?, sims[i]? with
      | some w, some x => pushAll S words sims skip (S.heappush heap (w, x)) is
      | _, _ => .error .indexError

/-- embeddings.py:605-621 `_similarity` -/
def Embeddings.similarity (S : Sel K) (e : Embeddings K) (query : List K) (k : Int)
    (skips : List PyStr) : Res (List (PyStr × K)) := do
  let words ← e.storage.slice (.upTo e.vocab.len)
  let sims ← words.dot query
  let skip := e.vocab.skipIndices skips
  let part ← S.argpartition sims (-k - skip.length)
  let part ← npSlice part ⟨some (-k - skip.length), none, none⟩
  let heap ← pushAll S e.vocab.words sims skip [] part
  return S.nlargest k heap

/-- embeddings.py:554-583 `embedding_similarity` -/
def Embeddings.embeddingSimilarity (S : Sel K) (e : Embeddings K) (query : List K) (k : Int)
    (skip : Option (List PyStr)) : Res (List (PyStr × K)) :=
  e.similarity S query k (skip.getD [])

/-- embeddings.py:525-552 `word_similarity` -/
def Embeddings.wordSimilarity (S : Sel K) (e : Embeddings K) (query : PyStr) (k : Int) :
    Res (Option (List (PyStr × K))) := do
  match ← e.embedding query with
  | none => return none
  | some v => do
    let r ← e.similarity S v k [query]
    return some r

/-- embeddings.py:516-519, the query vector of an analogy -/
def analogyVec (a b c : List K) : List K :=
  let diff := vsub b a
  let d := vadd c diff
  vdiv d (NumOps.norm d)

/-- embeddings.py:471-523 `analogy` -/
def Embeddings.analogy (S : Sel K) (e : Embeddings K) (w1 w2 w3 : PyStr) (k : Int)
    (skip : Option (List PyStr)) : Res (Option (List (PyStr × K))) := do
  let a ← e.embedding w1
  let b ← e.embedding w2
  let c ← e.embedding w3
  match a, b, c with
  | some a, some b, some c => do
    let r ← e.similarity S (analogyVec a b c) k (skip.getD [w1, w2, w3])
    return some r
  | _, _, _ => return none

end

end FF
