import Mathlib.Algebra.Order.Field.Basic
/-
Local thresholds with rounded arithmetic.
-/
namespace Boof
variable {K : Type} [Field K] [LinearOrder K]

/-- What the output shows at a pixel of value `a` where the mean is `b`: the exact comparison, unless the product with the scale rounds to
exactly the other number (so that the two are equal up to one rounding), when the pixel counts as not above the threshold. -/
structure LocalBit (rnd : K → Option K) (scale : K) (dark : Bool) (a b : K) (w : Bool) : Prop where
  down : dark = true → (w = true ↔ a ≤ b * scale ∨ rnd (b * scale) = some a)
  up : dark = false → (w = true ↔ a * scale > b ∧ rnd (a * scale) ≠ some b)

/-- The comparison is exact for pixels further than `e` from the threshold. -/
structure LocalNear (e scale : K) (dark : Bool) (a b : K) (w : Bool) : Prop where
  down : dark = true → (a ≤ b * scale - e → w = true) ∧ (w = true → a ≤ b * scale + e)
  up : dark = false → (a * scale > b + e → w = true) ∧ (w = true → a * scale > b - e)

/-- How far from the threshold a pixel of magnitude at most `Mx` can be compared wrongly, when the local means are wrong by at most `e`. -/
def localError (u η e scale Mx : K) (down : Bool) : K :=
  if down then |scale| * e + u * (|scale| * (Mx + e)) + η else e + u * (|scale| * Mx) + η

end Boof
