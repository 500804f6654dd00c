import Verif.Model.Word2Vec
import Verif.Spec.Quant
import Verif.Spec.Built
/-!
# Exported vectors and the word2vec file format
-/

namespace FF

section
variable {K : Type} [NumOps K]

/-- Row `i` of a storage. -/
def StoredRow (s : Storage K) (i : Nat) (v : List K) : Prop :=
  match s with
  | .nd m => m.rows[i]? = some v
  | .quant q => IsRow q i v

/-- `v` is the vector of word `i` with its original length: its row, multiplied by its norm if
there are norms. -/
def Exported (e : Embeddings K) (i : Nat) (v : List K) : Prop :=
  ∃ row, StoredRow e.storage i row ∧
    match e.norms with
    | none => v = row
    | some ns => ∃ n, ns[i]? = some n ∧ v.length = row.length ∧
        ∀ (t : Nat) x, row[t]? = some x → v[t]? = some (NumOps.mul x n)

/-- `vs` are the exported vectors of the words, in order. -/
def ExportedAll (e : Embeddings K) (vs : List (List K)) : Prop :=
  vs.length = e.vocab.words.length ∧ ∀ (i : Nat) v, vs[i]? = some v → Exported e i v

end

/-- A word2vec binary file: a line with the number of rows and columns; for each word its UTF-8
bytes, a space, its components as little-endian floats, and a newline. -/
def w2vFile (cols : Nat) (rows : List (PyStr × List F32)) : Bytes :=
  utf8 (decimal rows.length ++ [32] ++ decimal cols ++ [10]) ++
  rows.flatMap fun p => utf8 p.1 ++ [32] ++ f32sLE p.2 ++ [10]

/-- Words that survive the word2vec format: no space inside, no whitespace at either end, no lone
surrogates. -/
def W2vWord (w : PyStr) : Prop :=
  (∀ c ∈ w, c.val ≠ 32) ∧
  (∀ c, w.head? = some c → isSpace c = false) ∧ (∀ c, w.getLast? = some c → isSpace c = false) ∧
  (∀ c ∈ w, c.val < 0xD800 ∨ 0xDFFF < c.val)

/-- What the loaders of unnormalised formats return for these words and vectors: a simple
vocabulary, every vector divided by its norm, and the norms. -/
def Normalized {K : Type} [NumOps K] (cols : Nat) (words : List PyStr) (vs : List (List K))
    (e : Embeddings K) : Prop :=
  e.vocab.words = words ∧ e.vocab.sub = none ∧ BuiltVocab e.vocab ∧ e.metadata = none ∧
  e.norms = some (vs.map NumOps.normAxis) ∧
  ∃ rows, e.storage = .nd ⟨cols, rows⟩ ∧ rows.length = vs.length ∧
    ∀ (i : Nat) v, vs[i]? = some v → rows[i]? = some (v.map fun x => NumOps.div x (NumOps.normAxis v))

end FF
