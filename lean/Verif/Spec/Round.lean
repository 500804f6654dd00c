import Verif.Model.Lookup
import Mathlib.Analysis.Real.Sqrt
/-!
# Rounded arithmetic

The standard model of floating point arithmetic: every operation returns the exact result up to a
relative error of at most `u`.  It holds for IEEE 754 arithmetic (float32: `u = 2⁻²⁴`) as long as
nothing overflows or underflows.
-/

namespace FF

/-- `r` is `x` up to a relative error of `u`. -/
def Near (u x r : ℝ) : Prop := |r - x| ≤ u * |x|

/-- `r` is a sum of the numbers with rounded additions, in some order and with some bracketing. -/
inductive RSum (u : ℝ) : List ℝ → ℝ → Prop where
  | nil : RSum u [] 0
  | one (x : ℝ) : RSum u [x] x
  | add {xs ys : List ℝ} {a b r : ℝ} : xs ≠ [] → ys ≠ [] → RSum u xs a → RSum u ys b →
      Near u (a + b) r → RSum u (xs ++ ys) r
  | perm {xs ys : List ℝ} {r : ℝ} : xs.Perm ys → RSum u xs r → RSum u ys r

/-- `r` is a dot product: rounded products (or exact ones, if multiplication and addition are fused),
summed up. -/
def RDot (u : ℝ) (xs ys : List ℝ) (r : ℝ) : Prop :=
  ∃ ps : List ℝ, ps.length = min xs.length ys.length ∧ RSum u ps r ∧
    ∀ (t : Nat) p x y, ps[t]? = some p → xs[t]? = some x → ys[t]? = some y → Near u (x * y) p

/-- The scalars stand for real numbers and the operations are rounded.  `dot` and the norms may sum in
any order; the norms are the rounded square roots of such dot products. -/
structure Rounded {K : Type} [NumOps K] (u : ℝ) (val : K → ℝ) : Prop where
  u_nonneg : 0 ≤ u
  u_lt : u < 1
  zero : val NumOps.zero = 0
  ofNat : ∀ n : Nat, Near u n (val (NumOps.ofNat n))
  add : ∀ x y, Near u (val x + val y) (val (NumOps.add x y))
  sub : ∀ x y, Near u (val x - val y) (val (NumOps.sub x y))
  mul : ∀ x y, Near u (val x * val y) (val (NumOps.mul x y))
  div : ∀ x y, val y ≠ 0 → Near u (val x / val y) (val (NumOps.div x y))
  dot : ∀ xs ys : List K, RDot u (xs.map val) (ys.map val) (val (NumOps.dot xs ys))
  norm : ∀ v : List K, ∃ d, RDot u (v.map val) (v.map val) d ∧ Near u (Real.sqrt d) (val (NumOps.norm v))
  normAxis : ∀ v : List K, ∃ d, RDot u (v.map val) (v.map val) d ∧
    Near u (Real.sqrt d) (val (NumOps.normAxis v))

/-- Exact dot product. -/
def exactDot : List ℝ → List ℝ → ℝ
  | x :: xs, y :: ys => x * y + exactDot xs ys
  | _, _ => 0

/-- Exact Euclidean length. -/
noncomputable def exactLen (v : List ℝ) : ℝ := Real.sqrt (exactDot v v)

/-- Bounds of the length of a normalised vector with `n` components: `u` per rounding, nothing else. -/
noncomputable def lenLo (u : ℝ) (n : Nat) : ℝ := (1 - u) / ((1 + u) * Real.sqrt ((1 + u) ^ n))

noncomputable def lenHi (u : ℝ) (n : Nat) : ℝ := (1 + u) / ((1 - u) * Real.sqrt (2 - (1 + u) ^ n))

/-- Cosine of the angle between two vectors. -/
noncomputable def exactCos (v w : List ℝ) : ℝ := exactDot v w / (exactLen v * exactLen w)

/-- Error of the similarity of two normalised vectors with `n` components: about `(2n + 6) u`. -/
noncomputable def cosErr (u : ℝ) (n : Nat) : ℝ :=
  ((1 + u) ^ (n + 2) - 1) / ((1 - u) ^ 2 * (2 - (1 + u) ^ n)) +
    max (1 / ((1 - u) ^ 2 * (2 - (1 + u) ^ n)) - 1) ((1 + u) ^ (n + 2) - 1)

end FF
