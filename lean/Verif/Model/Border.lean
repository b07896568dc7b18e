import Verif.Model.Image
/-
Image borders, boofcv/image_border.h.  Coordinates are `int32_t` values, given as integers.
-/
namespace Boof
variable {V : Type}

/-- The concrete classes derived from `ImageBorder`, image_border.h:61-120. -/
inductive Border (V : Type) where
  | extend
  | reflect
  | wrap
  | value (v : V)
deriving DecidableEq, Repr

namespace Border

/-- `adjust` of each class: image_border.h:86-91 (extend), 100-105 (reflect), 114-119 (wrap).
`x` is `int32_t`, `max` is `uint32_t`; mixed arithmetic is done in `uint32_t` and converted back.
The value class has no `adjust`. -/
def adjust (b : Border V) (x : Int) (max : Nat) : M V Int :=
  match b with
  | .extend =>
    if x < 0 then pure 0
    else if toU32 x ≥ max then pure (toS32 (sub32 max 1))
    else pure x
  | .reflect =>
    if x < 0 then S32.arith (-x)
    else if toU32 x ≥ max then pure (toS32 (sub32 (sub32 max 2) (sub32 (toU32 x) max)))
    else pure x
  | .wrap =>
    if x < 0 then pure (toS32 (wrap32 (max + toU32 x)))
    else if toU32 x ≥ max then pure (toS32 (sub32 (toU32 x) max))
    else pure x
  | .value _ => pure x

/-- `outside_get`, image_border.h:47-51 (index borders) and 75-77 (value border). -/
def outsideGet (b : Border V) (g : Gray) (x y : Int) : M V V :=
  match b with
  | .value v => pure v
  | b => do
    let x ← b.adjust x g.width
    let y ← b.adjust y g.height
    g.unsafeAt (toU32 x) (toU32 y)

/-- `get`, image_border.h:34-39 -/
def get (b : Border V) (g : Gray) (x y : Int) : M V V :=
  if x ≥ 0 ∧ y ≥ 0 ∧ toU32 x < g.width ∧ toU32 y < g.height then g.at' (toU32 x) (toU32 y)
  else b.outsideGet g x y

end Border

/-- `enum BorderType`, image_border.h:122-159 -/
inductive BorderType where
  | skip | extended | normalized | reflect | wrap | zero
deriving DecidableEq, Repr

/-- `FactoryImageBorder::create_SB`, image_border.h:165-180; `zero` is `(E)0`. -/
def createSB (zero : V) : BorderType → M V (Border V)
  | .extended => pure .extend
  | .reflect => pure .reflect
  | .wrap => pure .wrap
  | .zero => pure (.value zero)
  | _ => M.throw

/-- `value_SB`, image_border.h:183-186 -/
def valueSB (v : V) : Border V := .value v

end Boof
