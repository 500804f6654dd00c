import Verif.Model.Lookup
/-!
# Which positions a slice selects
After the documentation of Python sequences, independent of `slice.indices`.
-/

namespace FF

/-- Negative bounds count from the end. -/
def wrapBound (n : Nat) (b : Int) : Int := if b < 0 then n + b else b

/-- `is` are the positions selected by the slice from a sequence of `n` items.  Forward: in
increasing order every `step`-th position from the start bound (0 if absent or before the
beginning) and before the stop bound.  Backward: in decreasing order every `-step`-th position
from the start bound (the last item if absent or after the end) and after the stop bound. -/
def SliceSel (n : Nat) (s : PySlice) (is : List Nat) : Prop :=
  let step := s.step.getD 1
  (0 < step ∧ is.Pairwise (· < ·) ∧
    ∃ lo : Int, lo = max 0 ((s.start.map (wrapBound n)).getD 0) ∧
      ∀ x, x ∈ is ↔ x < n ∧ lo ≤ x ∧ (∀ b, s.stop = some b → (x : Int) < wrapBound n b) ∧
        step ∣ x - lo) ∨
  (step < 0 ∧ is.Pairwise (· > ·) ∧
    ∃ hi : Int, hi = min ((n : Int) - 1) ((s.start.map (wrapBound n)).getD (n - 1)) ∧
      ∀ x, x ∈ is ↔ x < n ∧ (x : Int) ≤ hi ∧ (∀ b, s.stop = some b → wrapBound n b < (x : Int)) ∧
        step ∣ hi - x)

end FF
