import Mathlib.Algebra.Order.Floor.Ring
import Verif.Spec.Rounding
/-
Levels of float pixels.
-/
namespace Boof
variable {K : Type} [Field K] [LinearOrder K] [IsStrictOrderedRing K] [FloorRing K]

/-- The level of a pixel `v` when the minimal value is `lo`: the integer part of the rounded difference. -/
def roundedLevel (rnd : K → Option K) (lo v : K) : Int := ⌊(rnd (v - lo)).getD 0⌋

end Boof
