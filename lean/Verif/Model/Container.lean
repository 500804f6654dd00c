import Verif.Model.Lookup
/-!
# Container protocol: `len`, `in`, iteration, item access
vocab/vocab.py:74-90, subword/explicit_indexer.pyx:177-203, embeddings.py:585-592
-/

namespace FF

/-- What can stand on the left of `in`: a string, some other object with `__iter__` (with the objects it
yields), or an object without.  Iterables that yield infinitely many objects or contain themselves are
not modelled. -/
inductive PyItem where
  | str (s : PyStr)
  | iter (xs : List PyItem)
  | other

mutual
/-- vocab.py:77-84 `__contains__` -/
def Vocab.containsItem (v : Vocab) : PyItem → Bool
  | .str s => v.contains s
  | .iter xs => Vocab.containsItems v xs
  | .other => false

/-- vocab.py:83 `all(w in self for w in item)` -/
def Vocab.containsItems (v : Vocab) : List PyItem → Bool
  | [] => true
  | x :: xs => Vocab.containsItem v x && Vocab.containsItems v xs
end

/-- vocab.py:86-87 `__iter__` -/
def Vocab.iter (v : Vocab) : List PyStr := v.words

/-- A vocabulary as an iterable object -/
def Vocab.item (v : Vocab) : PyItem := .iter (v.iter.map .str)

/-! ### Explicit indexers -/

mutual
/-- explicit_indexer.pyx:198-203 `__contains__` -/
def ExplIndexer.containsItem (ix : ExplIndexer) : PyItem → Bool
  | .str s => (Dict.get? ix.index s).isSome
  | .iter xs => ExplIndexer.containsItems ix xs
  | .other => false

/-- explicit_indexer.pyx:202 `all(w in self for w in item)` -/
def ExplIndexer.containsItems (ix : ExplIndexer) : List PyItem → Bool
  | [] => true
  | x :: xs => ExplIndexer.containsItem ix x && ExplIndexer.containsItems ix xs
end

/-- explicit_indexer.pyx:177-178 `__getitem__` -/
def ExplIndexer.getItem (ix : ExplIndexer) (ngram : PyStr) : Res Int :=
  match Dict.get? ix.index ngram with
  | some i => .ok i
  | none => .error .keyError

/-- explicit_indexer.pyx:183-184 `__iter__` -/
def ExplIndexer.iter (ix : ExplIndexer) : List PyStr := ix.ngrams

/-- explicit_indexer.pyx:186-187 `__len__` -/
def ExplIndexer.len (ix : ExplIndexer) : Nat := ix.index.length

/-! ### Embeddings -/

section
variable {K : Type} [NumOps K]

/-- embeddings.py:585-586 `__contains__` -/
def Embeddings.containsItem (e : Embeddings K) (item : PyItem) : Bool := e.vocab.containsItem item

/-- `iter(storage)`: what each call of `next` gives; ndarray.py:142-143, quantized.py:273-274 -/
def Storage.nexts (s : Storage K) : List (Res (List K)) :=
  match s with
  | .nd m => m.rows.map .ok
  | .quant q => q.codes.map q.pq.reconstruct

omit [NumOps K] in
/-- `list(zip(words, rows, norms))` or `list(zip(words, rows))`: the iterators are advanced from the left
to the right, the first exhausted one ends the loop. -/
def zipIter : List PyStr → List (Res (List K)) → Option (List K) →
    Res (List (PyStr × List K × Option K))
  | [], _, _ => .ok []
  | _ :: _, [], _ => .ok []
  | w :: ws, r :: rs, none => do
    let x ← r
    let rest ← zipIter ws rs none
    return (w, x, none) :: rest
  | _ :: _, r :: _, some [] => do
    let _ ← r
    return []
  | w :: ws, r :: rs, some (n :: ns) => do
    let x ← r
    let rest ← zipIter ws rs (some ns)
    return (w, x, some n) :: rest

/-- embeddings.py:588-592 `list(embeddings)` -/
def Embeddings.iter (e : Embeddings K) : Res (List (PyStr × List K × Option K)) :=
  zipIter e.vocab.iter e.storage.nexts e.norms

end

end FF
