import Verif.Model.Rounded
import Verif.Model.Otsu
import Verif.Model.BinaryOps
/-
Floating point numbers with infinities and not-a-number, for the convolutions of boofcv/convolve.h, the mean blur of
boofcv/image_blur.h, the comparison of boofcv/binary_ops.h and the extrema of boofcv/image_statistics.h.

Model/Rounded.lean stops at an overflow; here the computation goes on with an infinity, as IEEE 754 says.  Zeros have no sign:
the sums of the modelled code start from `+0`, so that a sum is never `-0` under rounding to nearest, the divisors are sums,
and comparisons take `-0` and `+0` for equal, so that the sign of a zero can be seen in the sign of another zero only.
-/
namespace Boof
open M
variable {V K : Type} [Field K] [LinearOrder K] [IsStrictOrderedRing K] [FloorRing K]

/-- A value of `float` or `double`. -/
inductive FP (K : Type) where
  /-- a finite number -/
  | num (x : K)
  /-- an infinity, negative if `neg` -/
  | inf (neg : Bool)
  /-- not-a-number -/
  | nan
deriving DecidableEq

namespace FP

/-- The exact value `x` rounded by `rnd`, which gives nothing for an overflow. -/
def round (rnd : K → Option K) (x : K) : FP K :=
  match rnd x with
  | some y => num y
  | none => inf (decide (x < 0))

/-- `a + b` -/
def add (rnd : K → Option K) : FP K → FP K → FP K
  | num a, num b => round rnd (a + b)
  | num _, inf t => inf t
  | inf s, num _ => inf s
  | inf s, inf t => if s = t then inf s else nan
  | _, _ => nan

/-- `a - b` -/
def sub (rnd : K → Option K) : FP K → FP K → FP K
  | num a, num b => round rnd (a - b)
  | num _, inf t => inf (!t)
  | inf s, num _ => inf s
  | inf s, inf t => if s = t then nan else inf s
  | _, _ => nan

/-- `a * b` -/
def mul (rnd : K → Option K) : FP K → FP K → FP K
  | num a, num b => round rnd (a * b)
  | num a, inf t => if a = 0 then nan else inf (xor (decide (a < 0)) t)
  | inf s, num b => if b = 0 then nan else inf (xor s (decide (b < 0)))
  | inf s, inf t => inf (xor s t)
  | _, _ => nan

/-- `a / b`; a divisor of zero is `+0`. -/
def div (rnd : K → Option K) : FP K → FP K → FP K
  | num a, num b => if b = 0 then (if a = 0 then nan else inf (decide (a < 0))) else round rnd (a / b)
  | num _, inf _ => num 0
  | inf s, num b => inf (xor s (decide (b < 0)))
  | inf _, inf _ => nan
  | _, _ => nan

/-- Conversion of a value to its own format. -/
def again (rnd : K → Option K) : FP K → FP K
  | num a => round rnd a
  | inf s => inf s
  | nan => nan

/-- `a < b` -/
def lt : FP K → FP K → Bool
  | num a, num b => decide (a < b)
  | num _, inf t => !t
  | inf s, num _ => s
  | inf s, inf t => s && !t
  | _, _ => false

/-- `a <= b` -/
def le : FP K → FP K → Bool
  | num a, num b => decide (a ≤ b)
  | num _, inf t => !t
  | inf s, num _ => s
  | inf s, inf t => s || !t
  | _, _ => false

/-- `a > b` -/
def gt (a b : FP K) : Bool := lt b a

end FP

/-- Floating point element types of the convolutions, convolve.h:28-1180 with `E` = `R` = `float` or `double`. -/
def specialArith (rnd : K → Option K) : Arith (FP K) (FP K) where
  zero := .num 0
  mac s c v := some (.add rnd s (.mul rnd c v))
  add s c := some (.add rnd s c)
  out s := some (.again rnd s)
  norm s d := some (.div rnd s d)
  narrow c := c
  isOne c := decide (c = .num 1)

/-- Floating point element types of the mean blur, image_blur.h:50-83 and 129-171.  Converting anything which is not a number
between `-1` and `2^32` to `uint32_t` is undefined. -/
def specialMean (rnd : K → Option K) : MeanArith (FP K) (FP K) where
  zero := .num 0
  add s v := some (.add rnd s v)
  sub s v := some (.sub rnd s v)
  fin n s := some (.div rnd s (.round rnd n))
  index base stride kernelWidth :=
    match FP.add rnd (.round rnd base) (.mul rnd (.round rnd stride) (.round rnd kernelWidth)) with
    | .num e => if -1 < e ∧ e < (P32 : K) then some ⌊e⌋.toNat else none
    | _ => none

namespace FactoryKernel

/-- `normalize` for floating point kernels, convolve_kernels.h:258-266. -/
def normalizeX (rnd : K → Option K) (k : Kernel (FP K)) : M V (Kernel (FP K)) := do
  let sum ← k.sum (.num 0) (fun a b => some (.add rnd a b))
  loopS k.width k (fun i k => do
    let v ← k.get i
    k.put i (.div rnd v sum))

/-- `mean1D`, convolve_kernels.h:242-247. -/
def mean1DX (rnd : K → Option K) (E : GrowArray.Elem (FP K)) (width : Nat) : M V (Kernel (FP K)) := do
  let k ← table1D E (.num 1) width
  normalizeX rnd k

end FactoryKernel

namespace ConvolveImageMean

/-- `horizontal` for floating point pixels, image_blur.h:173-187. -/
def horizontalX (rnd : K → Option K) (E : GrowArray.Elem (FP K)) (input output : Gray) (radius : Nat) : M (FP K) Unit :=
  horizontal (specialArith rnd) (specialMean rnd) (FactoryKernel.mean1DX rnd E)
    (ConvolveNormalized.horizontalF (specialArith rnd)) input output radius

/-- `vertical` for floating point pixels, image_blur.h:189-203. -/
def verticalX (rnd : K → Option K) (E : GrowArray.Elem (FP K)) (input output : Gray) (radius : Nat) : M (FP K) Unit :=
  vertical (specialArith rnd) (specialMean rnd) (FactoryKernel.mean1DX rnd E)
    (ConvolveNormalized.verticalF (specialArith rnd)) input output radius

end ConvolveImageMean

namespace BlurImageOps

/-- `mean` for floating point pixels, image_blur.h:217-228. -/
def meanX (rnd : K → Option K) (E : GrowArray.Elem (FP K)) (input output : Gray) (radius : Nat) (storage : Gray) :
    M (FP K) (Gray × Gray) :=
  mean (.num 0) (ConvolveImageMean.horizontalX rnd E) (ConvolveImageMean.verticalX rnd E) input output radius storage

/-- `gaussian` for floating point pixels, image_blur.h:240-251.  `mk` is `FactoryKernel::gaussian1D`, whose coefficients do not
depend on the pixels, see Model/RoundedGauss.lean. -/
def gaussianX (rnd : K → Option K) (mk : M (FP K) (Kernel (FP K))) (input output storage : Gray) : M (FP K) (Gray × Gray) :=
  gaussian (.num 0) mk (ConvolveNormalized.horizontalF (specialArith rnd)) (ConvolveNormalized.verticalF (specialArith rnd))
    input output storage

end BlurImageOps

/-- Conversion to `uint32_t`, undefined for anything which is not a number between `-1` and `2^32`. -/
def FP.toU32 : FP K → M V Nat
  | .num x => if -1 < x ∧ x < (P32 : K) then pure ⌊x⌋.toNat else M.ub
  | _ => M.ub

/-- `histogram` for floating point pixels, image_statistics.h:62-75. -/
def ImageStatistics.histogramX (rnd : K → Option K) (g : Gray) (minValue : FP K) (hist : GrowArray Int) :
    M (FP K) (GrowArray Int) := do
  let hist ← (match GrowArray.fill (intElem U32 (fun _ => 0)) 0 hist with
    | .ok _ a => (pure a : M (FP K) (GrowArray Int))
    | _ => M.ub)
  loopS g.height hist (fun y hist =>
    let index := wrap32 (g.offset + y * g.stride)
    let last := wrap32 (index + g.width)
    loopS (last - index) hist (fun k hist => do
      let v ← rd g.buf (index + k)
      let d ← FP.toU32 (.sub rnd v minValue)
      match hist.data[d]? with
      | some c => pure { hist with data := hist.data.set d (U32.cast (c + 1)) }
      | none => M.ub))

/-- `computeOtsu` for floating point pixels, binary_ops.h:111-124.  `compute` stands for what `ComputeOtsu` makes of the
histogram, which holds counts. -/
def ThresholdOps.computeOtsuX (rnd : K → Option K) (junk : Nat → Int) (compute : GrowArray Int → Nat → M (FP K) (FP K))
    (input : Gray) (minValue maxValue : FP K) : M (FP K) Nat := do
  let range ← FP.toU32 (.sub rnd (.add rnd (.num 1) maxValue) minValue)
  let histogram ← (match GrowArray.new (intElem U32 junk) range with
    | .ok _ a => (pure a : M (FP K) (GrowArray Int))
    | _ => M.ub)
  let histogram ← ImageStatistics.histogramX rnd input minValue histogram
  let threshold ← compute histogram input.totalPixels
  FP.toU32 threshold

/-- `GlobalOtsuBinaryFilter::process` for floating point pixels, binary_ops.h:256-259. -/
def ThresholdOps.globalOtsuX (rnd : K → Option K) (junk : Nat → Int) (compute : GrowArray Int → Nat → M (FP K) (FP K))
    (minValue maxValue : FP K) (down : Bool) (input output : Gray) : M (FP K) Gray := do
  let thr ← computeOtsuX rnd junk compute input minValue maxValue
  threshold FP.le FP.gt (fun b => .num (if b then 1 else 0)) (.num 0) input (.round rnd (thr : K)) down output

end Boof
