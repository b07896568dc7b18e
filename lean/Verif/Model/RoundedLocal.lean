import Verif.Model.Blur
/-
`ConfigLength` and `ThresholdOps::localMean` with rounded arithmetic (config_types.cpp, binary_ops.h).  `rnd x = none` is overflow,
outside the model.
-/
namespace Boof
open M
variable {V K : Type} [Field K] [LinearOrder K] [IsStrictOrderedRing K] [FloorRing K]

namespace ConfigLength

/-- `compute`, config_types.cpp:22-32: the product is rounded, `fmax` is exact. -/
def computeR (rnd : K → Option K) (c : ConfigLength K) (totalLength : K) : Option K :=
  if c.fraction ≥ 0 then do
    let size ← rnd (c.fraction * totalLength)
    pure (max size c.length)
  else pure c.length

/-- `computeI`, config_types.cpp:42-48: the sum is rounded. -/
def computeIR (rnd : K → Option K) (c : ConfigLength K) (totalLength : K) : M V Int := do
  let size ← opt (c.computeR rnd totalLength)
  if size ≥ 0 then do
    let s ← opt (rnd (size + 1/2))
    M.toInt S32 s
  else pure (-1)

end ConfigLength

namespace ThresholdOps

/-- The comparison in `localMean`, binary_ops.h:197 (`down`) and 207.  `conv` converts a pixel to the type of the product, which is `float` or
`double`; the product is rounded. -/
def localBit (rnd : K → Option K) (conv : V → Option K) (scale : K) (down : Bool) (v m : V) : Option Bool := do
  let a ← conv v
  let b ← conv m
  if down then do
    let p ← rnd (b * scale)
    pure (decide (a ≤ p))
  else do
    let p ← rnd (a * scale)
    pure (decide (p > b))

/-- `localMean`, binary_ops.h:176-211.  `rnd` rounds to the type of the products, `rndD` to `double`. -/
def localMeanR (rnd rndD : K → Option K) (z : V) (blur : Gray → Gray → Nat → Gray → M V (Gray × Gray)) (conv : V → Option K) (bit : Bool → V)
    (input output : Gray) (width : ConfigLength K) (scale : K) (down : Bool) (storage1 storage2 : Gray) :
    M V (Gray × Gray × Gray) := do
  let output ← output.reshape z input.width input.height
  let storage1 ← storage1.reshape z input.width input.height
  let storage2 ← storage2.reshape z input.width input.height
  let n ← width.computeIR rndD ((min input.width input.height : Nat) : K)
  let radius := toU32 n / 2
  let (mean, storage2) ← blur input storage1 radius storage2
  loop input.height (fun y => do
    let meanPtr := wrap32 (mean.offset + y * mean.stride)
    let inputPtr := wrap32 (input.offset + y * input.stride)
    let outputPtr := wrap32 (output.offset + y * output.stride)
    loop input.width (fun i => do
      let v ← rd input.buf (inputPtr + i)
      let m ← rd mean.buf (meanPtr + i)
      let b ← opt (localBit rnd conv scale down v m)
      wr output.buf (outputPtr + i) (bit b)))
  pure (output, mean, storage2)

end ThresholdOps
end Boof
