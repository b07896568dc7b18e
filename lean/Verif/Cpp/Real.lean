import Mathlib.Algebra.Order.Field.Basic
import Mathlib.Algebra.Order.Floor.Ring
import Verif.Cpp.Core
/-
Floating point numbers as elements of an ordered field with a floor function.

`double`/`float` computations of the configuration, Otsu and kernel code are modelled with exact arithmetic in an
arbitrary such field `K` (e.g. the rationals or the reals).  Rounding, infinities and NaN are not modelled there.
-/
namespace Boof

variable {K : Type} [Field K] [LinearOrder K] [IsStrictOrderedRing K] [FloorRing K]

/-- Truncation towards zero, the conversion of a floating point number to an integer. -/
def truncK (v : K) : Int := if 0 ≤ v then ⌊v⌋ else ⌈v⌉

/-- `(T)v` for an integer type `T`: undefined when the truncated value does not fit. -/
def M.toInt {V : Type} (t : IntTy) (v : K) : M V Int := if t.InRange (truncK v) then pure (truncK v) else M.ub

end Boof
