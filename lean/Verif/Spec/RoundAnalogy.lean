import Verif.Spec.Round
import Verif.Spec.Float32
/-! Analogies in exact arithmetic, and how far rounding may take the answers from it. -/

namespace FF

/-- The vector scaled to length one. -/
noncomputable def exactUnit (v : List ℝ) : List ℝ := v.map (· / exactLen v)

/-- What the fourth word of `a : b = c : ?` should be like: `c + (b - a)`, for vectors of length one. -/
noncomputable def exactTarget (a b c : List ℝ) : List ℝ :=
  List.zipWith (· + ·) (exactUnit c) (List.zipWith (· - ·) (exactUnit b) (exactUnit a))

/-- Relative error of a component of a normalised vector with `n` components: about `(n / 2 + 2) u`. -/
noncomputable def unitErr (u : ℝ) (n : Nat) : ℝ := max (1 - lenLo u n) (lenHi u n - 1)

/-- The same after a subtraction and an addition. -/
noncomputable def targetErr (u : ℝ) (n : Nat) : ℝ := (1 + unitErr u n) * (1 + u) ^ 2 - 1

/-- Error of the similarities of an analogy whose target has length `t`. -/
noncomputable def analogyErr (u : ℝ) (n : Nat) (t : ℝ) : ℝ := cosErr u n + 6 * targetErr u n / t

/-- Error of the similarities of an analogy whose target has length `t`, for vectors with `n` float32 components. -/
noncomputable def analogyErr32 (n : Nat) (t : ℝ) : ℝ := (3 * n + 16) * 2⁻¹ ^ 24 + 8 * ((n + 8) * 2⁻¹ ^ 24) / t

/-- The answers to a query in the direction of `T` if the words have the float32 vectors `vs`: `k` words that are
not skipped, with cosine similarities up to `err`; no word that is left out is more similar than an answer by more
than twice that. -/
structure TargetAnswer (words : List PyStr) (vs : List (List F32)) (T : List ℝ) (err : ℝ) (skips : List PyStr)
    (k : Nat) (res : List (PyStr × F32)) : Prop where
  length : res.length = k
  nodup : (res.map Prod.fst).Nodup
  scores : ∀ w x, (w, x) ∈ res → w ∉ skips ∧ F32.Finite x ∧ ∃ (i : Nat) (v : List F32), words[i]? = some w ∧
    vs[i]? = some v ∧ |F32.val x - exactCos (v.map F32.val) T| ≤ err
  best : ∀ (i i' : Nat) w w' v v', words[i]? = some w → vs[i]? = some v → words[i']? = some w' →
    vs[i']? = some v' → w' ∉ skips → w ∈ res.map Prod.fst → w' ∉ res.map Prod.fst →
    exactCos (v'.map F32.val) T ≤ exactCos (v.map F32.val) T + 2 * err

end FF
