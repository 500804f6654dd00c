/-!
# Comparing numbers
-/

namespace FF

/-- How Python and numpy compare numbers: `lt a b` is `a < b`, `nan a` is `a != a`.  A comparison with a NaN is
false; numbers that are not NaN are ordered, but different ones can be equal (`-0` and `0`). -/
class Score (K : Type) where
  lt : K → K → Bool
  nan : K → Bool
  nan_left : ∀ a b, nan a = true → lt a b = false
  nan_right : ∀ a b, nan b = true → lt a b = false
  asymm : ∀ a b, lt a b = true → lt b a = false
  trans : ∀ a b c, nan b = false → lt a b = false → lt b c = false → lt a c = false

/-- The order of `numpy.sort`, with NaNs at the end. -/
def Score.before {K : Type} [Score K] (a b : K) : Bool :=
  Score.lt a b || (Score.nan b && !Score.nan a)

end FF
