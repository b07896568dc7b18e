import Verif.Model.Blocks
import Verif.Model.RoundedOtsu
import Verif.Model.RoundedLocal
/-
The block threshold filters with rounded arithmetic (threshold_block_filters.h).  `rnd x = none` is overflow, outside the model: the theorems
have hypotheses that exclude it.
-/
namespace Boof
open M
variable {V K : Type} [Field K] [LinearOrder K] [IsStrictOrderedRing K] [FloorRing K]

namespace Blocks

/-- `process`, threshold_block_filters.h:69-88, with the rounded `ConfigLength::computeI`. -/
def processR (rnd : K → Option K) (ops : BlockOps V) (z : V) (config : ConfigLength K) (stats : Interleaved) (input output : Gray) :
    M V Blocks := do
  checkSameShape2 input.width input.height output.width output.height
  let requested ← config.computeIR rnd ((min input.width input.height : Nat) : K)
  run ops z stats (toU32 requested) input output

end Blocks

namespace BlockMean

/-- `scale*sum/(width*height)+0.5f`, threshold_block_filters.h:268: both integers are converted to `float`, and product, quotient and sum are
rounded. -/
def scaledR (rnd : K → Option K) (scale : K) (s : Int) (n : Nat) : Option K := do
  let a ← rnd (s : K)
  let p ← rnd (scale * a)
  let b ← rnd (n : K)
  let q ← rnd (p / b)
  rnd (q + 1/2)

/-- ThresholdBlockMean, 185-274 -/
def opsR (rnd : K → Option K) (t : IntTy) (scale : K) (useLocal down : Bool) : BlockOps Int :=
  ops t (fun s n => (scaledR rnd scale s n).getD 0) useLocal down

end BlockMean

namespace BlockMinMax

/-- `scale*((max+min)/2)`, threshold_block_filters.h:472: the integer is converted to `float`, and the product is rounded. -/
def scaleMulR (rnd : K → Option K) (scale : K) (m : Int) : Option K := do
  let a ← rnd (m : K)
  rnd (scale * a)

/-- ThresholdBlockMinMax, 397-500 -/
def opsR (rnd : K → Option K) (t : IntTy) (minimumSpread scale : K) (useLocal down : Bool) : BlockOps Int :=
  ops t minimumSpread (fun m => (scaleMulR rnd scale m).getD 0) useLocal down

end BlockMinMax

namespace BlockOtsu

/-- ThresholdBlockOtsu, 290-395, with the rounded `ComputeOtsu`. -/
def opsR (rnd : K → Option K) (otsu : ComputeOtsu K) (useLocal : Bool) : BlockOps Int :=
  opsWith (fun a T => otsu.computeR rnd a T) otsu.down useLocal

end BlockOtsu
end Boof
