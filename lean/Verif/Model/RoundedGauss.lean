import Verif.Model.Rounded
/-
Gaussian kernels and the Gaussian blur with rounding, boofcv/convolve_kernels.h:276-424 and boofcv/image_blur.h:232-252.

`rnd` rounds to `double`, `rndE` to the element type of the kernel (`float` or `double`), see `Verif/Model/Rounded.lean`.  `ex` is
`std::exp` of the library, any function; `c` is the constant `SQRT_2_PI`.  A division by zero and an overflow are errors here, C++ would
go on with infinities or NaN.
-/
namespace Boof
open M
variable {V K : Type} [Field K] [LinearOrder K] [IsStrictOrderedRing K] [FloorRing K]

namespace FactoryKernel

/-- `5.0+0.8*order`, 280 and 296 -/
def spreadR (rnd : K → Option K) (order : Int) : M V K := do
  let f ← opt (rnd (4 / 5))
  let p ← opt (rnd (f * (order : K)))
  opt (rnd (5 + p))

/-- `sigmaForRadius`, 276-281 -/
def sigmaForRadiusR (rnd : K → Option K) (radius : K) (order : Int) : M V K :=
  if radius ≤ 0 then M.throw
  else do
    let d ← opt (rnd (radius * 2))
    let n ← opt (rnd (d + 1))
    let s ← spreadR rnd order
    if s = 0 then M.ub else opt (rnd (n / s))

/-- `radiusForSigma`, 292-297 -/
def radiusForSigmaR (rnd : K → Option K) (sigma : K) (order : Int) : M V Int :=
  if sigma ≤ 0 then M.throw
  else do
    let s ← spreadR rnd order
    let p ← opt (rnd (s * sigma))
    let m ← opt (rnd (p - 1))
    let r ← opt (rnd (m / 2))
    M.toInt S32 (((⌈r⌉ : Int)) : K)

/-- `computePDF`, 376-380 -/
def computePDFR (rnd : K → Option K) (ex : K → K) (c mean sigma sample : K) : M V K := do
  let delta ← opt (rnd (sample - mean))
  let num ← opt (rnd (-delta * delta))
  let two ← opt (rnd (2 * sigma))
  let den ← opt (rnd (two * sigma))
  if den = 0 then M.ub else do
    let q ← opt (rnd (num / den))
    let d ← opt (rnd (sigma * c))
    if d = 0 then M.ub else opt (rnd (ex q / d))

/-- `gaussian1D` for floating point kernels, 309-329 -/
def gaussian1DR (rnd rndE : K → Option K) (E : GrowArray.Elem K) (ex : K → K) (c : K) (sigma : K) (width : Int) : M V (Kernel K) := do
  let (sigma, width) ←
    (if width ≤ 0 then do
      let r ← radiusForSigmaR rnd sigma 0
      let w2 ← S32.arith (r * 2)
      let w ← S32.arith (w2 + 1)
      pure (sigma, w)
    else if sigma ≤ 0 then do
      let s ← sigmaForRadiusR rnd ((width.tdiv 2 : Int) : K) 0
      pure (s, width)
    else pure (sigma, width))
  let ret ← Kernel1D.newWidth E (toU32 width)
  let radius := width.tdiv 2
  let adjust : K := if width.tmod 2 = 1 then 0 else 1/2
  let ret ← loopS width.toNat ret (fun i k => do
    let sample ← opt (rnd (((i : Int) - radius : Int) + adjust))
    let p ← computePDFR rnd ex c 0 sigma sample
    let p ← opt (rndE p)
    k.put i p)
  normalizeR rndE ret

/-- `gaussian2D` for floating point kernels, 331-347 -/
def gaussian2DR (rnd rndE : K → Option K) (E : GrowArray.Elem K) (ex : K → K) (c : K) (sigma : K) (width : Int) : M V (Kernel K) := do
  let seed ← gaussian1DR rnd rndE E ex c sigma width
  let output ← Kernel2D.new E (toU32 width) (toU32 (width.tdiv 2))
  let output ← loopS width.toNat output (fun i k => loopS width.toNat k (fun j k => do
    let a ← Kernel1D.at' seed i
    let b ← Kernel1D.at' seed j
    let p ← opt (rndE (a * b))
    Kernel2D.setAt k i j p))
  normalizeR rndE output

/-- The divisor of `float_to_int`, 396-397 and 413-414 -/
def quantumR (rnd : K → Option K) (original : Kernel K) (minFrac : K) : M V K := do
  let mx ← original.elementAbsMax
  let mn ← original.elementAbsMin
  let q ← opt (rnd (mx * minFrac))
  pure (max mn q)

/-- `float_to_int` for 1D kernels, 389-404, target type `t` -/
def floatToInt1DR (rnd : K → Option K) (E : GrowArray.Elem Int) (t : IntTy) (original : Kernel K) (minFrac : K) : M V (Kernel Int) := do
  let output ← Kernel1D.new E original.width original.offset
  let q ← quantumR rnd original minFrac
  loopS original.width output (fun i k => do
    let v ← original.get i
    if q = 0 then M.ub else do
      let p ← opt (rnd (v / q))
      let n ← M.toInt t p
      k.put i n)

/-- `float_to_int` for 2D kernels, 406-423, target type `t` -/
def floatToInt2DR (rnd : K → Option K) (E : GrowArray.Elem Int) (t : IntTy) (original : Kernel K) (minFrac : K) : M V (Kernel Int) := do
  let output ← Kernel2D.new E original.width original.offset
  let q ← quantumR rnd original minFrac
  loopS original.width output (fun i k => loopS original.width k (fun j k => do
    let v ← Kernel2D.at' original j i
    if q = 0 then M.ub else do
      let p ← opt (rnd (v / q))
      let n ← M.toInt t p
      Kernel2D.setAt k j i n))

/-- `gaussian1D` for integral kernels, 359-365; `1.0/100.0` is a rounded quotient. -/
def gaussian1DIntR (rnd : K → Option K) (E : GrowArray.Elem K) (EI : GrowArray.Elem Int) (t : IntTy) (ex : K → K) (c : K) (sigma : K)
    (width : Int) : M V (Kernel Int) := do
  let k ← gaussian1DR rnd rnd E ex c sigma width
  let f ← opt (rnd (1 / 100))
  floatToInt1DR rnd EI t k f

/-- `gaussian2D` for integral kernels, 367-373 -/
def gaussian2DIntR (rnd : K → Option K) (E : GrowArray.Elem K) (EI : GrowArray.Elem Int) (t : IntTy) (ex : K → K) (c : K) (sigma : K)
    (width : Int) : M V (Kernel Int) := do
  let k ← gaussian2DR rnd rnd E ex c sigma width
  let f ← opt (rnd (1 / 100))
  floatToInt2DR rnd EI t k f

end FactoryKernel

namespace BlurImageOps

/-- `gaussian` for floating point pixels, image_blur.h:240-251; pixels and coefficients have the same type. -/
def gaussianFloatR (rnd rndE : K → Option K) (E : GrowArray.Elem K) (ex : K → K) (c : K) (input output : Gray) (sigma : K) (width : Int)
    (storage : Gray) : M K (Gray × Gray) :=
  gaussian 0 (FactoryKernel.gaussian1DR rnd rndE E ex c sigma width) (ConvolveNormalized.horizontalF (roundArith rndE))
    (ConvolveNormalized.verticalF (roundArith rndE)) input output storage

/-- `gaussian` for integral pixels of type `t`, image_blur.h:240-251 -/
def gaussianIntR (t : IntTy) (rnd : K → Option K) (E : GrowArray.Elem K) (EI : GrowArray.Elem Int) (ex : K → K) (c : K)
    (input output : Gray) (sigma : K) (width : Int) (storage : Gray) : M Int (Gray × Gray) :=
  gaussian 0 (FactoryKernel.gaussian1DIntR rnd E EI t.signedType ex c sigma width) (ConvolveNormalized.horizontal (intArith t t))
    (ConvolveNormalized.vertical (intArith t t)) input output storage

end BlurImageOps
end Boof
