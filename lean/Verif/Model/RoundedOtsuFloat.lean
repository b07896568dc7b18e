import Verif.Model.OtsuFloat
import Verif.Model.RoundedOtsu
/-
Histograms and Otsu thresholds of images of `float` with rounded arithmetic: as in Model/OtsuFloat.lean, with every operation on `float` followed by
`rnd` and every operation on `double` followed by `rndD`.  `none` is overflow, an error here.
-/
namespace Boof
open M
variable {K : Type} [Field K] [LinearOrder K] [IsStrictOrderedRing K] [FloorRing K]

/-- `histogram<F32>`, image_statistics.h:62-75: the difference in 71 is rounded before it is converted to `uint32_t`. -/
def ImageStatistics.histogramFR (rnd : K → Option K) (g : Gray) (minValue : K) (hist : GrowArray Int) : M K (GrowArray Int) := do
  let hist ← (match GrowArray.fill (intElem U32 (fun _ => 0)) 0 hist with
    | .ok _ a => (pure a : M K (GrowArray Int))
    | _ => M.ub)
  loopS g.height hist (fun y hist =>
    let index := wrap32 (g.offset + y * g.stride)
    let last := wrap32 (index + g.width)
    loopS (last - index) hist (fun k hist => do
      let v ← rd g.buf (index + k)
      let s ← opt (rnd (v - minValue))
      let d ← toInt U32 s
      match hist.data[d.toNat]? with
      | some c => pure { hist with data := hist.data.set d.toNat (U32.cast (c + 1)) }
      | none => M.ub))

/-- `computeOtsu<F32>`, binary_ops.h:111-124: `1+max_value - min_value` in 114 are two operations on `float`. -/
def ThresholdOps.computeOtsuFR (rnd rndD : K → Option K) (junk : Nat → Int) (input : Gray) (minValue maxValue : K) (otsu2 : Bool) : M K Int := do
  let r ← opt (rnd (1 + maxValue))
  let r ← opt (rnd (r - minValue))
  let range ← toInt U32 r
  let histogram ← (match GrowArray.new (intElem U32 junk) range.toNat with
    | .ok _ a => (pure a : M K (GrowArray Int))
    | _ => M.ub)
  let histogram ← ImageStatistics.histogramFR rnd input minValue histogram
  let threshold ← (ComputeOtsu.mk otsu2 (0 : K) true 1).computeR rndD histogram input.totalPixels
  toInt (K := K) U32 (threshold : K)

/-- `GlobalOtsuBinaryFilter<F32>::process`, binary_ops.h:256-259: the threshold is converted to `float`. -/
def ThresholdOps.globalOtsuFR (rnd rndD : K → Option K) (junk : Nat → Int) (minValue maxValue : K) (down : Bool) (input output : Gray) :
    M K Gray := do
  let thr ← computeOtsuFR rnd rndD junk input minValue maxValue false
  let thr ← opt (rnd (thr : K))
  threshold (fun a b => decide (a ≤ b)) (fun a b => decide (b < a)) (fun b => if b then 1 else 0) 0 input thr down output

end Boof
