import Verif.Model.Native
import Verif.Model.Convolve
import Verif.Model.Blur
/-
Convolution as called from Java: what `NativeConvolveImage.java`, `NativeImageConvolve.cpp` and
`NativeImageConvolveNormalized.cpp` do around the C++ functions.
-/
namespace Boof
open GrowArray (Elem)
variable {V S : Type}

/-- A Java kernel object (`boofcv.struct.convolve.Kernel1D`, `Kernel2D`): the fields which JNIBoofCPP.cpp:366-449 read. -/
structure JKernel (S : Type) where
  width : Int
  offset : Int
  data : List S
deriving DecidableEq, Repr

/-- `extractKernel1D_S32` and `extractKernel1D_F32`, JNIBoofCPP.cpp:367-386 and 388-407.  The Java array of the kernel is only
read, it is not part of the modelled heap. -/
def extractKernel1D (E : Elem S) (j : JKernel S) : M V (Kernel S) := do
  let k ← Kernel1D.new E (toU32 j.width) (toU32 j.offset)
  let a ← ofGrow (k.data.set E j.data j.data.length)
  pure { k with data := a }

/-- `extractKernel2D_S32` and `extractKernel2D_F32`, JNIBoofCPP.cpp:409-428 and 430-449 -/
def extractKernel2D (E : Elem S) (j : JKernel S) : M V (Kernel S) := do
  let k ← Kernel2D.new E (toU32 j.width) (toU32 j.offset)
  let a ← ofGrow (k.data.set E j.data j.data.length)
  pure { k with data := a }

/-- `borderJavaToCpp`, NativeImageConvolve.cpp:13-28 -/
def borderJavaToCpp (type : Int) : M V BorderType :=
  if type = 1 then pure .extended
  else if type = 3 then pure .reflect
  else if type = 4 then pure .wrap
  else if type = 5 then pure .zero
  else M.throw

/-- The rules a Java `ImageBorder1D` can have for one axis (`BorderIndex1D_Extend`, ...; `other` for any further class). -/
inductive JRule where
  | extend | reflect | wrap | other
deriving DecidableEq, Repr

/-- A Java `ImageBorder`: `ImageBorderValue` or `ImageBorder1D` with its two rules, or another class. -/
inductive JBorder (V : Type) where
  | value (v : V)
  | rules (row col : JRule)
  | other

/-- `borderToType(border).ordinal()`, NativeConvolveImage.java:61-89 (an exception is `none`).  The ordinals are those of
`boofcv.core.image.border.BorderType`: SKIP, EXTENDED, NORMALIZED, REFLECT, WRAP, ZERO; they agree with
NativeImageConvolve.cpp:13-28. -/
def borderToType [Zero V] [DecidableEq V] : JBorder V → Option Int
  | .value v => if v = 0 then some 5 else none
  | .rules .extend _ => some 1
  | .rules .reflect _ => some 3
  | .rules .wrap _ => some 4
  | .rules .other _ => none
  | .other => none

/-- Which of the three functions is called. -/
inductive Pass where
  | horizontal | vertical | box
deriving DecidableEq, Repr

/-- Extraction of the kernel for that function. -/
def Pass.extract (E : Elem S) : Pass → JKernel S → M V (Kernel S)
  | .box => extractKernel2D E
  | _ => extractKernel1D E

/-- `ConvolveImage::horizontal`, `vertical` or `convolve` (with the optional kernel and border arguments given). -/
def Pass.call (z : V) (A : Arith V S) (k : Kernel S) (b : Border V) : Pass → Gray → Gray → M V Gray
  | .horizontal => ConvolveImage.horizontal z A k b
  | .vertical => ConvolveImage.vertical z A k b
  | .box => ConvolveImage.convolve z A k b

/-- `NativeConvolveImage.nativeHorizontal`, `nativeVertical` and `nativeConvolve` for integer images,
NativeImageConvolve.cpp:30-78, 99-140 and 162-203.  The pixel types of the output are chosen by `outputBits`.  The input image is wrapped a
second time in the model of the call proper (`nativeConvolve`) after the check of `outputBits`; wrapping has no effect but to leave an
array without elements behind. -/
def nativeImageConvolveInt (p : Pass) (E : Elem Int) (inputBits outputBits border : Int) (jk : JKernel Int) (ji jo : JImage)
    (copyIn copyOut : Bool) : J Int Unit := do
  let bt ← J.lift (borderJavaToCpp border)
  if inputBits ≠ 8 then J.throw
  else do
    let k ← J.lift (p.extract E jk)
    let b ← J.lift (createSB 0 bt)
    if outputBits = 16 then
      nativeConvolve 0 (p.call 0 (intArith U8 S16) k b) true ji jo copyIn copyOut
    else if outputBits = 32 then
      nativeConvolve 0 (p.call 0 (intArith U8 S32) k b) true ji jo copyIn copyOut
    else do
      let _ ← wrapCritical 0 ji
      J.throw

/-- The same for floating point images, NativeImageConvolve.cpp:78-97, 141-160 and 204-223.  The kernel and the border are
extracted before the images are wrapped, which can only be noticed in what is left behind by a call that throws. -/
def nativeImageConvolveFloat {K : Type} [Field K] [DecidableEq K] (p : Pass) (E : Elem K) (inputBits outputBits border : Int)
    (jk : JKernel K) (ji jo : JImage) (copyIn copyOut : Bool) : J K Unit := do
  let bt ← J.lift (borderJavaToCpp border)
  if inputBits ≠ 32 ∨ outputBits ≠ 32 then J.throw
  else do
    let k ← J.lift (p.extract E jk)
    let b ← J.lift (createSB 0 bt)
    nativeConvolve 0 (p.call 0 (fieldArith K) k b) false ji jo copyIn copyOut

/-- `NativeImageConvolveNormalized.nativehorizontal` and `nativevertical` for integer images, NativeImageConvolveNormalized.cpp:10-29
and 46-65.  The kernel is extracted before the images are wrapped, which can only be noticed in what is left behind by a call that
throws; `vertical` chooses the function. -/
def nativeNormalizedInt (vertical : Bool) (E : Elem Int) (jk : JKernel Int) (ji jo : JImage) (copyIn copyOut : Bool) :
    J Int Unit := do
  let k ← J.lift (extractKernel1D E jk)
  nativeConvolve 0 (fun i o =>
    (if vertical then ConvolveNormalized.vertical (intArith U8 U8) k i o else ConvolveNormalized.horizontal (intArith U8 U8) k i o)
      >>= fun _ => pure o) false ji jo copyIn copyOut

/-- The same for floating point images, 30-43 and 66-79. -/
def nativeNormalizedFloat {K : Type} [Field K] [DecidableEq K] (vertical : Bool) (E : Elem K) (jk : JKernel K) (ji jo : JImage)
    (copyIn copyOut : Bool) : J K Unit := do
  let k ← J.lift (extractKernel1D E jk)
  nativeConvolve 0 (fun i o =>
    (if vertical then ConvolveNormalized.verticalF (fieldArith K) k i o else ConvolveNormalized.horizontalF (fieldArith K) k i o)
      >>= fun _ => pure o) false ji jo copyIn copyOut

/-- `NativeImageBlurOps.nativeGaussian` for integer images, NativeImageBlurOps.cpp:46-69. -/
def nativeGaussianInt {K : Type} [Field K] [LinearOrder K] [IsStrictOrderedRing K] [FloorRing K] (E : Elem K) (EI : Elem Int)
    (ex : K → K) (c : K) (ji jo : JImage) (sigma : K) (radius : Int) (js : JImage) (c1 c2 c3 : Bool) : J Int Unit := do
  let width ← J.lift (nativeGaussianWidth radius)
  nativeBlur 0 (fun i o st => BlurImageOps.gaussianInt U8 E EI ex c i o sigma width st) ji jo js c1 c2 c3

/-- The same for floating point images, 70-83. -/
def nativeGaussianFloat {K : Type} [Field K] [LinearOrder K] [IsStrictOrderedRing K] [FloorRing K] (E : Elem K)
    (ex : K → K) (c : K) (ji jo : JImage) (sigma : K) (radius : Int) (js : JImage) (c1 c2 c3 : Bool) : J K Unit := do
  let width ← J.lift (nativeGaussianWidth radius)
  nativeBlur 0 (fun i o st => BlurImageOps.gaussianFloat E ex c i o sigma width st) ji jo js c1 c2 c3

/-- `NativeImageBlurOps.nativeMean` for integer images, NativeImageBlurOps.cpp:8-29: the radius is converted to `uint32_t`. -/
def nativeMeanInt (E : Elem Int) (ji jo : JImage) (radius : Int) (js : JImage) (c1 c2 c3 : Bool) : J Int Unit :=
  nativeBlur 0 (fun i o st => BlurImageOps.meanInt U8 E i o (toU32 radius) st) ji jo js c1 c2 c3

/-- The same for floating point images, 30-43. -/
def nativeMeanFloat {K : Type} [Field K] [LinearOrder K] [IsStrictOrderedRing K] [FloorRing K] (E : Elem K) (ji jo : JImage) (radius : Int)
    (js : JImage) (c1 c2 c3 : Bool) : J K Unit :=
  nativeBlur 0 (fun i o st => BlurImageOps.meanFloat E i o (toU32 radius) st) ji jo js c1 c2 c3

end Boof
