import Verif.Model.Convolve
import Verif.Model.Config
/-
boofcv/image_blur.h, and the part of boofcv/binary_ops.h which thresholds by a local mean.

The element arithmetic of the sliding sums is a parameter `B`; see `intMean` and `fieldMean` for the instances.
-/
namespace Boof
open M
variable {V S T : Type}

/-- Arithmetic of `sum_type` in `ConvolveImageMean`; `none` is undefined behaviour. -/
structure MeanArith (V T : Type) where
  /-- `0` -/
  zero : T
  /-- `total + pixel` -/
  add : T → V → Option T
  /-- `total - pixel` -/
  sub : T → V → Option T
  /-- `(E)((total + divisor/2)/divisor)` for integers, `(E)(total/divisor)` for floating point types; the divisor is the
  kernel's width -/
  fin : Nat → T → Option V
  /-- `uint32_t i = base + stride*kernelWidth` where `kernelWidth` has type `sum_type`, so that the index goes through it -/
  index : Nat → Nat → Nat → Option Nat

/-- Result of an operation of type `t` with the given exact value. -/
def IntTy.arithO (t : IntTy) (v : Int) : Option Int :=
  if t.signed then (if t.InRange v then some v else none) else some (t.cast v)

/-- Integral element type `t`, image_blur.h:15-49 and 86-128. -/
def intMean (t : IntTy) : MeanArith Int Int where
  zero := 0
  add s v := t.sumType.arithO (s + v)
  sub s v := t.sumType.arithO (s - v)
  fin n s :=
    let divisor := t.sumType.cast n
    if divisor = 0 then none
    else (t.sumType.arithO (s + divisor.tdiv 2)).bind (fun a =>
      (t.sumType.arithO (a.tdiv divisor)).bind (fun q => some (t.cast q)))
  index base stride kernelWidth := some (wrap32 (base + stride * kernelWidth))

/-- Floating point element types with exact arithmetic, image_blur.h:51-84 and 130-171. -/
def fieldMean (K : Type) [Field K] [DecidableEq K] : MeanArith K K where
  zero := 0
  add s v := some (s + v)
  sub s v := some (s - v)
  fin n s := if (n : K) = 0 then none else some (s / n)
  index base stride kernelWidth := some (wrap32 (base + stride * kernelWidth))

namespace ConvolveImageMean

/-- `inner_horizontal`, image_blur.h:15-49 (integral) and 51-84 (floating point) -/
def innerHorizontal (B : MeanArith V T) (input output : Gray) (radius : Nat) : M V Unit := do
  let kernelWidth := wrap32 (radius * 2 + 1)
  loop input.height (fun y => do
    let indexIn := wrap32 (input.offset + input.stride * y)
    let indexOut := wrap32 (output.offset + output.stride * y + radius)
    let indexEnd := wrap32 (indexIn + kernelWidth)
    let total ← loopS (indexEnd - indexIn) B.zero (fun i total => do
      let v ← rd input.buf (indexIn + i)
      opt (B.add total v))
    let v ← opt (B.fin kernelWidth total)
    wr output.buf indexOut v
    let front := sub32 (max indexIn indexEnd) kernelWidth
    let back := max indexIn indexEnd
    let n := sub32 input.width kernelWidth
    let _ ← loopS n total (fun i total => do
      let a ← rd input.buf (front + i)
      let b ← rd input.buf (back + i)
      let t ← opt (B.sub total a)
      let total ← opt (B.add t b)
      let v ← opt (B.fin kernelWidth total)
      wr output.buf (indexOut + 1 + i) v
      pure total)
    pure ())

/-- Number of iterations of `for( ; i < end; i += step)`.  (The additions are taken not to wrap around; when `end - i` is a
multiple of `step`, as in all calls where `end` has not wrapped around, they do not.) -/
def stepCount (i last step : Nat) : Nat := (last - i + (step - 1)) / step

/-- `inner_vertical`, image_blur.h:86-128 (integral) and 130-171 (floating point).  `totals` maps the elements of the local
array that have been assigned to their values.  The indexes `backStep` and `indexEnd` go through `sum_type`, see
`MeanArith.index`; this is exact modulo 2^32 for the integral types. -/
def innerVertical (B : MeanArith V T) (input output : Gray) (radius : Nat) : M V Unit := do
  let kernelWidth := wrap32 (radius * 2 + 1)
  let backStep ← opt (B.index 0 input.stride kernelWidth)
  let totals ← loopS input.width (fun _ => none) (fun x (totals : Nat → Option T) => do
    let indexIn := wrap32 (input.offset + x)
    let indexOut := wrap32 (output.offset + output.stride * radius + x)
    let indexEnd ← opt (B.index indexIn input.stride kernelWidth)
    let total ← loopS (stepCount indexIn indexEnd input.stride) B.zero (fun i total => do
      let v ← rd input.buf (wrap32 (indexIn + i * input.stride))
      opt (B.add total v))
    let v ← opt (B.fin kernelWidth total)
    wr output.buf indexOut v
    pure (fun j => if j = x then some total else totals j))
  let y0 := wrap32 (radius + 1)
  let _ ← loopS (sub32 output.height radius - y0) totals (fun i totals => do
    let y := y0 + i
    let indexIn := wrap32 (input.offset + wrap32 (y + radius) * input.stride)
    let indexOut := wrap32 (output.offset + y * output.stride)
    let front := sub32 indexIn backStep
    loopS input.width totals (fun x totals => do
      let t ← opt (totals x)
      let a ← rd input.buf (front + x)
      let b ← rd input.buf (indexIn + x)
      let t ← opt (B.sub t a)
      let total ← opt (B.add t b)
      let v ← opt (B.fin kernelWidth total)
      wr output.buf (indexOut + x) v
      pure (fun j => if j = x then some total else totals j)))
  pure ()

/-- `horizontal`, image_blur.h:173-187; `mk` is `FactoryKernel::mean1D`, `conv` the overload of
`ConvolveNormalized::horizontal`. -/
def horizontal (A : Arith V S) (B : MeanArith V T) (mk : Nat → M V (Kernel S)) (conv : Kernel S → Gray → Gray → M V Unit)
    (input output : Gray) (radius : Nat) : M V Unit := do
  checkSameShape2 input.width input.height output.width output.height
  let kernel ← mk (wrap32 (radius * 2 + 1))
  if kernel.width > input.width then conv kernel input output
  else do
    ConvolveNormalizedJustBorder.horizontal A kernel input output
    innerHorizontal B input output radius

/-- `vertical`, image_blur.h:189-203.  The test on line 197 compares the kernel to the width of the image, not its height. -/
def vertical (A : Arith V S) (B : MeanArith V T) (mk : Nat → M V (Kernel S)) (conv : Kernel S → Gray → Gray → M V Unit)
    (input output : Gray) (radius : Nat) : M V Unit := do
  checkSameShape2 input.width input.height output.width output.height
  let kernel ← mk (wrap32 (radius * 2 + 1))
  if kernel.width > input.width then conv kernel input output
  else do
    ConvolveNormalizedJustBorder.vertical A kernel input output
    innerVertical B input output radius

/-- `horizontal` for integral pixels of type `t` -/
def horizontalInt (t : IntTy) (E : GrowArray.Elem Int) (input output : Gray) (radius : Nat) : M Int Unit :=
  horizontal (intArith t t) (intMean t) (FactoryKernel.mean1DInt E) (ConvolveNormalized.horizontal (intArith t t))
    input output radius

/-- `vertical` for integral pixels of type `t` -/
def verticalInt (t : IntTy) (E : GrowArray.Elem Int) (input output : Gray) (radius : Nat) : M Int Unit :=
  vertical (intArith t t) (intMean t) (FactoryKernel.mean1DInt E) (ConvolveNormalized.vertical (intArith t t))
    input output radius

variable {K : Type} [Field K] [LinearOrder K] [IsStrictOrderedRing K] [FloorRing K]

/-- `horizontal` for floating point pixels -/
def horizontalFloat (E : GrowArray.Elem K) (input output : Gray) (radius : Nat) : M K Unit :=
  horizontal (fieldArith K) (fieldMean K) (FactoryKernel.mean1D E) (ConvolveNormalized.horizontalF (fieldArith K))
    input output radius

/-- `vertical` for floating point pixels -/
def verticalFloat (E : GrowArray.Elem K) (input output : Gray) (radius : Nat) : M K Unit :=
  vertical (fieldArith K) (fieldMean K) (FactoryKernel.mean1D E) (ConvolveNormalized.verticalF (fieldArith K))
    input output radius

end ConvolveImageMean

namespace BlurImageOps

/-- `mean`, image_blur.h:217-228; `hor` and `ver` are the overloads of `ConvolveImageMean`.  Returns output and storage. -/
def mean (z : V) (hor ver : Gray → Gray → Nat → M V Unit) (input output : Gray) (radius : Nat) (storage : Gray) :
    M V (Gray × Gray) := do
  if radius ≤ 0 then M.throw
  else do
    let output ← output.reshape z input.width input.height
    let storage ← storage.reshape z input.width input.height
    hor input storage radius
    ver storage output radius
    pure (output, storage)

/-- `gaussian`, image_blur.h:240-251; `mk` is `FactoryKernel::gaussian1D(sigma,width)`, `hor` and `ver` the overloads of
`ConvolveNormalized`.  Returns output and storage. -/
def gaussian (z : V) (mk : M V (Kernel S)) (hor ver : Kernel S → Gray → Gray → M V Unit) (input output storage : Gray) :
    M V (Gray × Gray) := do
  let output ← output.reshape z input.width input.height
  let storage ← storage.reshape z input.width input.height
  let kernel ← mk
  hor kernel input storage
  ver kernel storage output
  pure (output, storage)

/-- `mean` for integral pixels -/
def meanInt (t : IntTy) (E : GrowArray.Elem Int) (input output : Gray) (radius : Nat) (storage : Gray) : M Int (Gray × Gray) :=
  mean 0 (ConvolveImageMean.horizontalInt t E) (ConvolveImageMean.verticalInt t E) input output radius storage

variable {K : Type} [Field K] [LinearOrder K] [IsStrictOrderedRing K] [FloorRing K]

/-- `mean` for floating point pixels -/
def meanFloat (E : GrowArray.Elem K) (input output : Gray) (radius : Nat) (storage : Gray) : M K (Gray × Gray) :=
  mean 0 (ConvolveImageMean.horizontalFloat E) (ConvolveImageMean.verticalFloat E) input output radius storage

/-- `gaussian` for integral pixels of type `t` -/
def gaussianInt (t : IntTy) (E : GrowArray.Elem K) (EI : GrowArray.Elem Int) (ex : K → K) (c : K) (input output : Gray)
    (sigma : K) (width : Int) (storage : Gray) : M Int (Gray × Gray) :=
  gaussian 0 (FactoryKernel.gaussian1DInt E EI t.signedType ex c sigma width) (ConvolveNormalized.horizontal (intArith t t))
    (ConvolveNormalized.vertical (intArith t t)) input output storage

/-- `gaussian` for floating point pixels -/
def gaussianFloat (E : GrowArray.Elem K) (ex : K → K) (c : K) (input output : Gray) (sigma : K) (width : Int)
    (storage : Gray) : M K (Gray × Gray) :=
  gaussian 0 (FactoryKernel.gaussian1D E ex c sigma width) (ConvolveNormalized.horizontalF (fieldArith K))
    (ConvolveNormalized.verticalF (fieldArith K)) input output storage

end BlurImageOps

namespace ThresholdOps
variable {K : Type} [Field K] [LinearOrder K] [IsStrictOrderedRing K] [FloorRing K]

/-- `localMean`, binary_ops.h:176-211.  `blur` is `BlurImageOps::mean`, `toK` the conversion of a pixel to `float` (exact
here), `bit` the conversion of a `bool` to a pixel of the output.  Returns output, storage1 and storage2. -/
def localMean (z : V) (blur : Gray → Gray → Nat → Gray → M V (Gray × Gray)) (toK : V → K) (bit : Bool → V)
    (input output : Gray) (width : ConfigLength K) (scale : K) (down : Bool) (storage1 storage2 : Gray) :
    M V (Gray × Gray × Gray) := do
  let output ← output.reshape z input.width input.height
  let storage1 ← storage1.reshape z input.width input.height
  let storage2 ← storage2.reshape z input.width input.height
  let n ← width.computeI ((min input.width input.height : Nat) : K)
  let radius := toU32 n / 2
  let (mean, storage2) ← blur input storage1 radius storage2
  loop input.height (fun y => do
    let meanPtr := wrap32 (mean.offset + y * mean.stride)
    let inputPtr := wrap32 (input.offset + y * input.stride)
    let outputPtr := wrap32 (output.offset + y * output.stride)
    loop input.width (fun i => do
      let v ← rd input.buf (inputPtr + i)
      let m ← rd mean.buf (meanPtr + i)
      wr output.buf (outputPtr + i)
        (bit (if down then decide (toK v ≤ toK m * scale) else decide (toK v * scale > toK m)))))
  pure (output, mean, storage2)

/-- `LocalMeanBinaryFilter::process`, binary_ops.h:279-281: the same with the object's own storage. -/
def localMeanFilter (z : V) (blur : Gray → Gray → Nat → Gray → M V (Gray × Gray)) (toK : V → K) (bit : Bool → V)
    (width : ConfigLength K) (scale : K) (down : Bool) (storage1 storage2 input output : Gray) : M V (Gray × Gray × Gray) :=
  localMean z blur toK bit input output width scale down storage1 storage2

end ThresholdOps
end Boof
