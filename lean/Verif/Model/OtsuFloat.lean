import Verif.Model.Otsu
/-
Histograms and Otsu thresholds of images of `float`: image_statistics.h and binary_ops.h instantiated with `F32`.  Exact
arithmetic; the cells of the output stand for the `U8` values 0 and 1.
-/
namespace Boof
open M

section
variable {K : Type} [Field K] [LinearOrder K] [IsStrictOrderedRing K] [FloorRing K]

/-- `histogram<F32>`, image_statistics.h:62-75.  The index is the difference, converted to `uint32_t`. -/
def ImageStatistics.histogramF (g : Gray) (minValue : K) (hist : GrowArray Int) : M K (GrowArray Int) := do
  let hist ← (match GrowArray.fill (intElem U32 (fun _ => 0)) 0 hist with
    | .ok _ a => (pure a : M K (GrowArray Int))
    | _ => M.ub)
  loopS g.height hist (fun y hist =>
    let index := wrap32 (g.offset + y * g.stride)
    let last := wrap32 (index + g.width)
    loopS (last - index) hist (fun k hist => do
      let v ← rd g.buf (index + k)
      let d ← toInt U32 (v - minValue)
      match hist.data[d.toNat]? with
      | some c => pure { hist with data := hist.data.set d.toNat (U32.cast (c + 1)) }
      | none => M.ub))

/-- `computeOtsu<F32>`, binary_ops.h:111-124 -/
def ThresholdOps.computeOtsuF (junk : Nat → Int) (input : Gray) (minValue maxValue : K) (otsu2 : Bool) : M K Int := do
  let range ← toInt U32 (1 + maxValue - minValue)
  let histogram ← (match GrowArray.new (intElem U32 junk) range.toNat with
    | .ok _ a => (pure a : M K (GrowArray Int))
    | _ => M.ub)
  let histogram ← ImageStatistics.histogramF input minValue histogram
  let threshold ← (ComputeOtsu.mk otsu2 (0 : K) true 1).compute histogram input.totalPixels
  toInt (K := K) U32 (threshold : K)

/-- `GlobalOtsuBinaryFilter<F32>::process`, binary_ops.h:256-259 -/
def ThresholdOps.globalOtsuF (junk : Nat → Int) (minValue maxValue : K) (down : Bool) (input output : Gray) : M K Gray := do
  let thr ← computeOtsuF junk input minValue maxValue false
  threshold (fun a b => decide (a ≤ b)) (fun a b => decide (b < a)) (fun b => if b then 1 else 0) 0 input (thr : K) down output

end
end Boof
