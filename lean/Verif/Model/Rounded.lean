import Verif.Model.Blur
import Mathlib.Data.Int.Log
/-
Floating point arithmetic with rounding, for the convolutions of boofcv/convolve.h and the mean blur of boofcv/image_blur.h.

`rnd x` is the number of the floating point format which represents `x`; `none` is an overflow (C++ would go on with an
infinity, which is not modelled).  All numbers of a computation have the same format, every operation rounds its exact result
(there is no excess precision and no fused multiply and add).
-/
namespace Boof
open M
variable {V K : Type} [Field K] [LinearOrder K] [IsStrictOrderedRing K] [FloorRing K]

/-- The nearest integer, the even one of two. -/
def roundEven (q : K) : Int :=
  if q - ⌊q⌋ < 1/2 then ⌊q⌋
  else if 1/2 < q - ⌊q⌋ then ⌊q⌋ + 1
  else if ⌊q⌋ % 2 = 0 then ⌊q⌋ else ⌊q⌋ + 1

/-- IEEE 754 binary format with rounding to nearest: `p` significant bits, smallest positive number `2^-q`, largest number
below `2^w`. -/
def ieee (p q w : Nat) (x : K) : Option K :=
  let e := max (Int.log 2 |x| - (p - 1 : Nat)) (-(q : Int))
  let y := (roundEven (x / (2 : K) ^ e) : K) * (2 : K) ^ e
  if |y| < 2 ^ w then some y else none

/-- `float` (binary32). -/
def float32 (x : K) : Option K := ieee 24 149 128 x

/-- `double` (binary64). -/
def float64 (x : K) : Option K := ieee 53 1074 1024 x

/-- Floating point element types of the convolutions, with rounding.  Division by zero is an error here. -/
def roundArith (rnd : K → Option K) : Arith K K where
  zero := 0
  mac s c v := (rnd (c * v)).bind (fun p => rnd (s + p))
  add s c := rnd (s + c)
  out s := rnd s
  norm s d := if d = 0 then none else rnd (s / d)
  narrow c := c
  isOne c := decide (c = 1)

/-- Floating point element types of the mean blur with rounding, image_blur.h:50-83 and 129-171.  Converting a number outside
the range of `uint32_t` is undefined. -/
def roundMean (rnd : K → Option K) : MeanArith K K where
  zero := 0
  add s v := rnd (s + v)
  sub s v := rnd (s - v)
  fin n s := (rnd n).bind (fun d => if d = 0 then none else rnd (s / d))
  index base stride kernelWidth :=
    (rnd base).bind (fun b => (rnd stride).bind (fun s => (rnd kernelWidth).bind (fun k =>
      (rnd (s * k)).bind (fun p => (rnd (b + p)).bind (fun e =>
        if -1 < e ∧ e < (P32 : K) then some ⌊e⌋.toNat else none)))))

namespace FactoryKernel

/-- `normalize` for floating point kernels with rounding, convolve_kernels.h:258-266. -/
def normalizeR (rnd : K → Option K) (k : Kernel K) : M V (Kernel K) := do
  let sum ← k.sum 0 (fun a b => rnd (a + b))
  loopS k.width k (fun i k => do
    let v ← k.get i
    if sum = 0 then M.ub else do
      let q ← opt (rnd (v / sum))
      k.put i q)

/-- `mean1D` with rounding, convolve_kernels.h:242-247. -/
def mean1DR (rnd : K → Option K) (E : GrowArray.Elem K) (width : Nat) : M V (Kernel K) := do
  let k ← table1D E 1 width
  normalizeR rnd k

end FactoryKernel

namespace ConvolveImageMean

/-- `horizontal` for floating point pixels with rounding, image_blur.h:173-187. -/
def horizontalR (rnd : K → Option K) (E : GrowArray.Elem K) (input output : Gray) (radius : Nat) : M K Unit :=
  horizontal (roundArith rnd) (roundMean rnd) (FactoryKernel.mean1DR rnd E) (ConvolveNormalized.horizontalF (roundArith rnd))
    input output radius

/-- `vertical` for floating point pixels with rounding, image_blur.h:189-203. -/
def verticalR (rnd : K → Option K) (E : GrowArray.Elem K) (input output : Gray) (radius : Nat) : M K Unit :=
  vertical (roundArith rnd) (roundMean rnd) (FactoryKernel.mean1DR rnd E) (ConvolveNormalized.verticalF (roundArith rnd))
    input output radius

end ConvolveImageMean

/-- `BlurImageOps::mean` for floating point pixels with rounding, image_blur.h:218-229. -/
def BlurImageOps.meanR (rnd : K → Option K) (E : GrowArray.Elem K) (input output : Gray) (radius : Nat) (storage : Gray) :
    M K (Gray × Gray) :=
  mean 0 (ConvolveImageMean.horizontalR rnd E) (ConvolveImageMean.verticalR rnd E) input output radius storage

end Boof
