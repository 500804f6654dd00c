import Verif.Spec.Built
import Verif.Spec.Float32
import Verif.Spec.Quant
/-!
# Quantized storages of moderate float32 numbers
-/

namespace FF

open F32

/-- Finite and at most `2³⁰` -/
def Mild (x : F32) : Prop := Finite x ∧ |val x| ≤ 2 ^ 30

/-- All numbers are finite and not too large, vectors are not too long. -/
structure QMild (q : QArr F32) : Prop where
  cents : ∀ m ∈ q.pq.quantizers, ∀ r ∈ m, ∀ x ∈ r, Mild x
  proj : ∀ p, q.pq.projection = some p → ∀ r ∈ p.rows, ∀ x ∈ r, Mild x
  norms : ∀ ns, q.norms = some ns → ∀ x ∈ ns, Mild x
  length : q.pq.reconstructedLen ≤ 2 ^ 20

/-- The factor of row `i`: its norm, or 1 -/
def Factor (norms : Option (List F32)) (i : Nat) (n : ℝ) : Prop :=
  match norms with
  | none => n = 1
  | some ns => ∃ b, ns[i]? = some b ∧ n = val b

/-- The error of component `k` of a projected row: the factor `n` times the scalar product of `u` with a row `p`.  A
relative error of about `2 m 2⁻²⁴` for `m` components, relative to the lengths of `u` and `p`. -/
noncomputable def projErr (m : Nat) (n : ℝ) (u p : List ℝ) : ℝ :=
  2 * (m + 1) * (2⁻¹ ^ 24 * (|n| * (exactLen u * exactLen p)) + 2⁻¹ ^ 149 * (|n| + 1))

/-- Row `i` of the storage is approximately `v`.  Without a projection: the components of the centroids, multiplied by the
norm and correctly rounded.  With a projection: scalar products with its rows, times the norm, up to `projErr`. -/
def RowApprox (q : QArr F32) (i : Nat) (v : List F32) : Prop :=
  ∃ codes u, q.codes[i]? = some codes ∧ IsConcat q.pq codes u ∧ (∀ y ∈ v, Finite y) ∧
    match q.pq.projection, q.norms with
    | none, none => v = u
    | none, some ns => ∃ n, ns[i]? = some n ∧ v.length = u.length ∧
        ∀ (t : Nat) x y, u[t]? = some x → v[t]? = some y → RoundsTo (val n * val x) y
    | some p, norms => ∃ n, Factor norms i n ∧ v.length = p.rows.length ∧
        ∀ (t : Nat) r y, p.rows[t]? = some r → v[t]? = some y →
          |val y - n * exactDot (u.map val) (r.map val)| ≤ projErr u.length n (u.map val) (r.map val)

end FF
