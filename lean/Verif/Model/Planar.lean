import Verif.Model.Image
/-
Planar images, boofcpp/src/boofcv/image_types.h:219-320.

`Planar::at`, `setNumberOfBands` and `setTo` are not modelled: no program can call them, because their bodies do not
type-check once the template is instantiated (image_types.h:273 and 281 assign a `T**` to a `T*`; 300 returns a pixel as `T&`; 309
calls the former).
-/
namespace Boof
variable {V : Type}
open M

/-- `Planar<T>`, image_types.h:224-227.  The array `bands` of pointers to bands is a list; the bands themselves, which
are objects made by `new T(width,height)` and not shared, are its elements.  `num_bands` is its length. -/
structure Planar where
  bands : List Gray
  width : Nat
  height : Nat
  offset : Nat
  stride : Nat
  subimage : Bool
deriving DecidableEq, Repr

namespace Planar

/-- The loop of the constructor, image_types.h:238-240. -/
def newBands (z : V) (width height : Nat) : Nat → M V (List Gray)
  | 0 => pure []
  | n+1 => do
    let bs ← newBands z width height n
    let g ← Gray.new z width height
    pure (bs ++ [g])

/-- `Planar(width,height,num_bands)`, image_types.h:229-241; `Planar()` (243) is `new z 0 0 0`. -/
def new (z : V) (width height numBands : Nat) : M V Planar := do
  let bs ← newBands z width height numBands
  pure { bands := bs, width := width, height := height, offset := 0, stride := width, subimage := false }

/-- `~Planar`, image_types.h:246-256.  `delete bands` (line 252) releases, with the operator for single objects, the array of
pointers made with `new[]`, which is undefined behaviour; it is reached when there is a band. -/
def destroy (p : Planar) : M V Unit := if p.bands.length = 0 then pure () else M.ub

/-- The loop of `reshape`, image_types.h:262-264. -/
def reshapeBands (z : V) (width height : Nat) : List Gray → M V (List Gray)
  | [] => pure []
  | g :: gs => do
    let g' ← g.reshape z width height
    let gs' ← reshapeBands z width height gs
    pure (g' :: gs')

/-- image_types.h:258-268.  Simplification: when the reshape of a band throws, the outcome keeps the heap, but not
which of the bands have been reshaped already. -/
def reshape (z : V) (p : Planar) (width height : Nat) : M V Planar :=
  if p.subimage then M.throw
  else do
    let bs ← reshapeBands z width height p.bands
    pure { p with bands := bs, width := width, height := height, stride := width }

/-- image_types.h:315-319 -/
def getBand (p : Planar) (which : Nat) : M V Gray :=
  match p.bands[which]? with
  | none => M.throw
  | some g => pure g

end Planar
end Boof
