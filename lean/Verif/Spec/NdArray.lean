import Verif.Model.NdArray
import Verif.Spec.Quantized
/-!
# What indexing a matrix returns
-/

namespace FF

section
variable {K : Type}

/-- The elements `xs` of an array of shape `(.., cols)` are the rows at the positions `is`, one after the other. -/
def DenseRows (m : Mat K) (is : List Nat) (xs : List K) : Prop :=
  xs.length = is.length * m.cols ∧
  ∀ (k i : Nat), is[k]? = some i → m.rows[i]? = some ((xs.drop (k * m.cols)).take m.cols)

/-- Two results of indexing are the same for the caller: arrays of the same shape with the same elements, or storages of
the same shape that stand for the same matrix. -/
def SameItem [NumOps K] (h1 h2 : Heap K) : Item → Item → Prop
  | .array a, .array b => a.shape = b.shape ∧ h1.read a.view = h2.read b.view
  | .storage s, .storage t => s.nRows = t.nRows ∧ s.nCols = t.nCols ∧
      ∃ rows, (s.val h1).toArray = .ok rows ∧ (t.val h2).toArray = .ok rows
  | _, _ => False

end

end FF
