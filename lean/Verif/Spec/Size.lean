import Verif.Spec.Built
/-!
# How much data there is in embeddings
-/

namespace FF

/-- Characters of strings -/
def charsOf (ws : List PyStr) : Nat := (ws.map List.length).sum

/-- Numbers in a matrix -/
def numbersOf {K : Type} (rows : List (List K)) : Nat := (rows.map List.length).sum

/-- Characters of the n-grams that a vocabulary holds -/
def ngramChars (v : Vocab) : Nat :=
  match v.sub with
  | some (.expl ix) => charsOf ix.ngrams
  | _ => 0

/-- Bytes of the arrays of a storage: four for a float32 number, one for a code -/
def arrayBytes {K : Type} : Storage K → Nat
  | .nd m => 4 * numbersOf m.rows
  | .quant q => 4 * ((q.pq.projection.map fun p => numbersOf p.rows).getD 0) + 4 * (q.pq.quantizers.map numbersOf).sum +
      4 * ((q.norms.map List.length).getD 0) + numbersOf q.codes

/-- The characters of all strings and the bytes of all arrays -/
def dataSize {K : Type} (e : Embeddings K) : Nat :=
  charsOf e.vocab.words + ngramChars e.vocab + arrayBytes e.storage + 4 * (e.norms.map List.length).getD 0

end FF
