import Verif.Model.Lookup
/-!
# The vector a quantized row stands for
-/

namespace FF

section
variable {K : Type} [NumOps K]

/-- `u` is the concatenation of the centroids selected by the codes: component `t` of part `j`
is component `t` of centroid `codes[j]` of quantizer `j`. -/
def IsConcat (pq : PQ K) (codes : List UInt8) (u : List K) : Prop :=
  u.length = pq.quantizers.length * pq.sub ∧
  ∀ (j : Nat) qs, pq.quantizers[j]? = some qs → ∃ c cent, codes[j]? = some c ∧
    qs[c.toNat]? = some cent ∧ ∀ t, t < pq.sub → u[j * pq.sub + t]? = cent[t]?

/-- `w` is `P * u`, or `u` without a projection. -/
def IsProjected (proj : Option (Mat K)) (u w : List K) : Prop :=
  match proj with
  | none => w = u
  | some p => w.length = p.rows.length ∧
      ∀ (r : Nat) row, p.rows[r]? = some row → w[r]? = some (NumOps.dot u row)

/-- `v` is `norms[i] * w`, or `w` without norms. -/
def IsScaled (norms : Option (List K)) (i : Nat) (w v : List K) : Prop :=
  match norms with
  | none => v = w
  | some ns => ∃ n, ns[i]? = some n ∧ v.length = w.length ∧
      ∀ (t : Nat) x, w[t]? = some x → v[t]? = some (NumOps.mul n x)

/-- Row `i` of the quantized array stands for `v`. -/
def IsRow (q : QArr K) (i : Nat) (v : List K) : Prop :=
  ∃ codes u w, q.codes[i]? = some codes ∧ IsConcat q.pq codes u ∧
    IsProjected q.pq.projection u w ∧ IsScaled q.norms i w v

end

end FF
