import Verif.Spec.Heap
/-!
# Sequences of calls
The queries and exports of embeddings, what a caller observes of them on the heap, and what the value
model says they should observe.
-/

namespace FF

/-- A query or an export of embeddings.  Arrays passed in are views of any buffer, also of one that
an earlier call returned. -/
inductive Call (K : Type) where
  | getItem (w : PyStr)
  | embedding (w : PyStr) (out default : Option View)
  | embeddingWithNorm (w : PyStr) (out : Option View) (default : Option (View × K))
  | wordSimilarity (w : PyStr) (k : Int)
  | embeddingSimilarity (query : View) (k : Int) (skip : Option (List PyStr))
  | analogy (w1 w2 w3 : PyStr) (k : Int) (skip : Option (List PyStr))
  | bucketToExplicit
  | word2vec
  | text (dims : Bool) (sep : PyStr)
  | fasttext

/-- What the caller sees: arrays by their elements at the time of the return, files by their bytes
and whether writing them raised. -/
inductive Answer (K : Type) where
  | vec (x : List K)
  | optVec (x : Option (List K))
  | optVecNorm (x : Option (List K × Option K))
  | sims (x : List (PyStr × K))
  | optSims (x : Option (List (PyStr × K)))
  | emb (x : Embeddings K)
  | file (r : Res Unit) (bs : Bytes)

/-- The buffer that the call may write to. -/
def Call.out {K : Type} : Call K → Option View
  | .embedding _ out _ => out
  | .embeddingWithNorm _ out _ => out
  | _ => none

/-- The cells of the output buffers. -/
def outCells {K : Type} (cs : List (Call K)) : Nat → Nat → Prop :=
  fun l i => ∃ c ∈ cs, ∃ o, c.out = some o ∧ o.cells l i

def observe {K α : Type} (f : Heap K → α → Answer K) (m : HM K α) (h : Heap K) :
    Res (Answer K) × Heap K := ((m h).1.map (f (m h).2), (m h).2)

def observeFile {K : Type} (m : HW K Unit) (h : Heap K) : Res (Answer K) × Heap K :=
  (.ok (.file (m (h, [])).1 (m (h, [])).2.2), (m (h, [])).2.1)

section
variable {K : Type} [NumOps K] [Codec K] [NumText K]

/-- The call in memory. -/
def Call.run (S : Sel K) (E : HEmb) : Call K → Heap K → Res (Answer K) × Heap K
  | .getItem w => observe (fun h v => .vec (h.read v)) (E.getItem w)
  | .embedding w out default => observe (fun h v => .optVec (v.map h.read)) (E.embedding w out default)
  | .embeddingWithNorm w out default =>
    observe (fun h v => .optVecNorm (v.map fun p => (h.read p.1, p.2)))
      (E.embeddingWithNorm w out default)
  | .wordSimilarity w k => observe (fun _ r => .optSims r) (E.wordSimilarity S w k)
  | .embeddingSimilarity q k skip => observe (fun _ r => .sims r) (E.embeddingSimilarity S q k skip)
  | .analogy w1 w2 w3 k skip => observe (fun _ r => .optSims r) (E.analogy S w1 w2 w3 k skip)
  | .bucketToExplicit => observe (fun h E' => .emb (E'.val h)) E.bucketToExplicit
  | .word2vec => observeFile (writeWord2vecH E)
  | .text dims sep => observeFile (writeTextH dims E sep)
  | .fasttext => observeFile (writeFasttextH E)

/-- Several calls, going on after exceptions. -/
def runCalls (S : Sel K) (E : HEmb) : List (Call K) → Heap K → Heap K
  | [], h => h
  | c :: cs, h => runCalls S E cs (c.run S E h).2

/-- The call in the value model.  Only the arguments come from memory. -/
def Call.expect (S : Sel K) (e : Embeddings K) (h : Heap K) : Call K → Res (Answer K)
  | .getItem w => (e.getItem w).map .vec
  | .embedding w _ default =>
    (e.embedding w).map fun r => .optVec (r.or (default.map h.read))
  | .embeddingWithNorm w _ default =>
    (e.embeddingWithNorm w).map fun r =>
      .optVecNorm (r.or (default.map fun d => (h.read d.1, some d.2)))
  | .wordSimilarity w k => (e.wordSimilarity S w k).map .optSims
  | .embeddingSimilarity q k skip => (e.embeddingSimilarity S (h.read q) k skip).map .sims
  | .analogy w1 w2 w3 k skip => (e.analogy S w1 w2 w3 k skip).map .optSims
  | .bucketToExplicit => e.bucketToExplicit.map .emb
  | .word2vec => .ok (.file (writeWord2vec e []).1 (writeWord2vec e []).2)
  | .text dims sep => .ok (.file (writeText dims e sep []).1 (writeText dims e sep []).2)
  | .fasttext => .ok (.file (writeFasttext e []).1 (writeFasttext e []).2)

end

end FF
