import Verif.Model.Quantized
import Verif.Spec.Heap
import Verif.Spec.Quant
import Verif.Spec.Slice
/-!
# Which rows a key selects and where they go
-/

namespace FF

/-- Position `j` of `n`, counted from the beginning or from the end -/
def At (n : Nat) (i : Int) (j : Nat) : Prop := j < n ∧ (i = j ∨ i = (j : Int) - n)

/-- The key selects the positions `is` out of `n`; they are arranged in an array of this shape. -/
def KeySel (n : Nat) (key : Key) (shape is : List Nat) : Prop :=
  match key with
  | .int i => shape = [] ∧ ∃ j, is = [j] ∧ At n i j
  | .arr s js => shape = s ∧ List.Forall₂ (At n) js is
  | .mask bs => shape = [is.length] ∧ bs.length = n ∧ is.Pairwise (· < ·) ∧ ∀ j, j ∈ is ↔ bs[j]? = some true
  | .slice s => shape = [is.length] ∧ s.step ≠ some 0 ∧ SliceSel n s is

/-- The elements `xs` of an array of shape `(.., d)` are the rows that the positions `is` of the storage stand for, one
after the other. -/
def AreRows {K : Type} [NumOps K] (q : QArr K) (is : List Nat) (xs : List K) : Prop :=
  xs.length = is.length * q.pq.reconstructedLen ∧
  ∀ (k i : Nat), is[k]? = some i → IsRow q i ((xs.drop (k * q.pq.reconstructedLen)).take q.pq.reconstructedLen)

/-- All codes of these rows are numbers of centroids. -/
def RowsCoded {K : Type} (q : QArr K) (is : List Nat) : Prop :=
  ∀ i ∈ is, ∀ c, q.codes[i]? = some c → ∀ x ∈ c, x.toNat < q.pq.nCentroids

end FF
