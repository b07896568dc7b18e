import Verif.Cpp.Real
/-
`ConfigLength`, boofcv/config_types.h and config_types.cpp; `Point2D`, boofcv/geometry_types.h.
-/
namespace Boof

/-- config_types.h:24-34 (default member values: -1 and -1) -/
structure ConfigLength (K : Type) where
  length : K
  fraction : K
deriving DecidableEq

namespace ConfigLength
variable {K : Type} [Field K] [LinearOrder K] [IsStrictOrderedRing K] [FloorRing K] {V : Type}

/-- config_types.cpp:12 -/
def empty : ConfigLength K := ⟨-1, -1⟩

/-- config_types.cpp:14-16 -/
def fixed (pixels : K) : ConfigLength K := ⟨pixels, -1⟩

/-- config_types.cpp:18-20 (`minimum` is an `int` converted to `double`) -/
def relative (fraction : K) (minimum : Int) : ConfigLength K := ⟨minimum, fraction⟩

/-- config_types.cpp:22-32 -/
def compute (c : ConfigLength K) (totalLength : K) : K :=
  if c.fraction ≥ 0 then max (c.fraction * totalLength) c.length else c.length

/-- config_types.cpp:34-36 -/
def isRelative (c : ConfigLength K) : Bool := c.fraction ≥ 0

/-- config_types.cpp:38-40 -/
def isFixed (c : ConfigLength K) : Bool := c.fraction < 0

/-- config_types.cpp:42-48 -/
def computeI (c : ConfigLength K) (totalLength : K) : M V Int :=
  let size := c.compute totalLength
  if size ≥ 0 then M.toInt S32 (size + 1/2) else pure (-1)

/-- config_types.cpp:50-52 -/
def getLengthI (c : ConfigLength K) : M V Int := M.toInt S32 (c.length + 1/2)

/-- config_types.cpp:54-57 -/
def checkValidity (c : ConfigLength K) : M V Unit := if c.length < 0 ∧ c.fraction < 0 then M.throw else pure ()

end ConfigLength

/-- `Point2D<E>`, geometry_types.h:13-44, integer element type. -/
structure Point2D where
  x : Int
  y : Int
deriving DecidableEq

namespace Point2D
variable {V : Type}

/-- `distanceSq(x,y)`, geometry_types.h:31-35.  `x - this->x` is computed in the promoted type and converted to
`signed_type`; the products and the sum are computed in the promotion of `signed_type`; the result is converted to
`sum_type`. -/
def distanceSq (t : IntTy) (p : Point2D) (x y : Int) : M V Int := do
  let dx ← t.promote.arith (x - p.x)
  let dx := t.signedType.cast dx
  let dy ← t.promote.arith (y - p.y)
  let dy := t.signedType.cast dy
  let xx ← t.signedType.promote.arith (dx * dx)
  let yy ← t.signedType.promote.arith (dy * dy)
  let s ← t.signedType.promote.arith (xx + yy)
  pure (t.sumType.cast s)

/-- `distanceSq(p)`, geometry_types.h:37-39 -/
def distanceSqP (t : IntTy) (p q : Point2D) : M V Int := distanceSq t p q.x q.y

end Point2D
end Boof
