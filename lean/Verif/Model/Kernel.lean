import Verif.Cpp.Real
import Verif.Model.GrowArray
/-
Convolution kernels, boofcv/convolve_kernels.h.

A kernel is a value (its array is not part of the image heap).  Floating point element types are an ordered field `K`
with exact arithmetic where the arithmetic of the coefficients matters.
-/
namespace Boof
open M
variable {V S : Type}

/-- Members of `KernelBase`, convolve_kernels.h:18-30; used for `Kernel1D` and `Kernel2D`. -/
structure Kernel (S : Type) where
  width : Nat
  offset : Nat
  data : GrowArray S
deriving DecidableEq, Repr

/-- An array operation on a kernel's private array. -/
def ofGrow (r : Res (GrowArray S) Unit) : M V (GrowArray S) :=
  match r with
  | .ok _ a => pure a
  | .throw _ => M.throw
  | .ub => M.ub
  | .timeout => M.timeout

/-- `data[i]` as an rvalue -/
def Kernel.get (k : Kernel S) (i : Nat) : M V S :=
  match k.data.data[i]? with
  | some v => pure v
  | none => M.ub

/-- `data[i] = v` -/
def Kernel.put (k : Kernel S) (i : Nat) (v : S) : M V (Kernel S) :=
  if i < k.data.data.length then pure { k with data := { k.data with data := k.data.data.set i v } } else M.ub

namespace Kernel1D

/-- `Kernel1D(width,offset)`, 112-114 with `KernelBase(width,offset)`, 37-42 -/
def new (E : GrowArray.Elem S) (width offset : Nat) : M V (Kernel S) :=
  if offset ≥ width then M.throw
  else do
    let a ← ofGrow (GrowArray.newDefault E)
    let a ← ofGrow (a.resize E width)
    pure ⟨width, offset, a⟩

/-- `Kernel1D(width)`, 116-117 -/
def newWidth (E : GrowArray.Elem S) (width : Nat) : M V (Kernel S) := new E width (width / 2)

/-- `Kernel1D(offset,{...})`, 119-121 (a list of 2^32 or more coefficients is not modelled). -/
def ofList (E : GrowArray.Elem S) (offset : Nat) (l : List S) : M V (Kernel S) :=
  if offset ≥ l.length then M.throw
  else do
    let a ← ofGrow (GrowArray.newDefault E)
    let a ← ofGrow (a.setTo E l)
    pure ⟨l.length, offset, a⟩

/-- `Kernel1D()`, 123-124 with `KernelBase()`, 32-35: the array has the ten elements of `GrowArray()` -/
def newEmpty (E : GrowArray.Elem S) : M V (Kernel S) := do
  let a ← ofGrow (GrowArray.newDefault E)
  pure ⟨0, 0, a⟩

/-- `reshape`, 126-130 -/
def reshape (E : GrowArray.Elem S) (width offset : Nat) (k : Kernel S) : M V (Kernel S) := do
  let a ← ofGrow (k.data.resize E width)
  pure ⟨width, offset, a⟩

/-- `at(index)` as an rvalue, 132-134 -/
def at' (k : Kernel S) (index : Nat) : M V S := if index ≥ k.data.size then M.throw else k.get index

/-- `operator[]`, 136-138 -/
def idx (k : Kernel S) (index : Nat) : M V S := k.get index

end Kernel1D

namespace Kernel2D

/-- `Kernel2D(width,offset)`, 161-163 -/
def new (E : GrowArray.Elem S) (width offset : Nat) : M V (Kernel S) :=
  if offset ≥ width then M.throw
  else do
    let a ← ofGrow (GrowArray.newDefault E)
    let a ← ofGrow (a.resize E (wrap32 (width * width)))
    pure ⟨width, offset, a⟩

/-- `Kernel2D(width)`, 165-166 -/
def newWidth (E : GrowArray.Elem S) (width : Nat) : M V (Kernel S) := new E width (width / 2)

/-- `Kernel2D(offset,{{...},...})`, 168-183; the offset is not checked. -/
def ofList (E : GrowArray.Elem S) (offset : Nat) (l : List (List S)) : M V (Kernel S) := do
  let w := l.length
  let a ← ofGrow (GrowArray.newDefault E)
  let a ← ofGrow (a.resize E (wrap32 (w * w)))
  loopS l.length (⟨w, offset, a⟩ : Kernel S) (fun r k =>
    match l[r]? with
    | none => M.ub
    | some row =>
      if row.length ≠ w then M.throw
      else loopS row.length k (fun c k => match row[c]? with
        | none => M.ub
        | some v => k.put (r * w + c) v))

/-- `Kernel2D()`, 185-186 with `KernelBase()`, 32-35 -/
def newEmpty (E : GrowArray.Elem S) : M V (Kernel S) := do
  let a ← ofGrow (GrowArray.newDefault E)
  pure ⟨0, 0, a⟩

/-- `reshape`, 188-192 -/
def reshape (E : GrowArray.Elem S) (width offset : Nat) (k : Kernel S) : M V (Kernel S) := do
  let a ← ofGrow (k.data.resize E (wrap32 (width * width)))
  pure ⟨width, offset, a⟩

/-- `at(x,y)` as an rvalue, 198-202 -/
def at' (k : Kernel S) (x y : Nat) : M V S :=
  if x ≥ k.width ∨ y ≥ k.width then M.throw
  else if wrap32 (y * k.width + x) ≥ k.data.size then M.throw
  else k.get (wrap32 (y * k.width + x))

/-- `at(x,y) = v`, 198-202 -/
def setAt (k : Kernel S) (x y : Nat) (v : S) : M V (Kernel S) :=
  if x ≥ k.width ∨ y ≥ k.width then M.throw
  else if wrap32 (y * k.width + x) ≥ k.data.size then M.throw
  else k.put (wrap32 (y * k.width + x)) v

end Kernel2D

/-- `operator=` between different kernels, 144-152 and 204-212 -/
def Kernel.assign (E : GrowArray.Elem S) (k other : Kernel S) : M V (Kernel S) := do
  let a ← ofGrow (k.data.assign E other.data)
  pure ⟨other.width, other.offset, a⟩

/-- `radius()`, 46-48 -/
def Kernel.radius (k : Kernel S) : Nat := k.width / 2

/-- `sum()`, 52-58; `add` is the addition of `sum_type`, undefined on overflow. -/
def Kernel.sum (zero : S) (add : S → S → Option S) (k : Kernel S) : M V S :=
  loopS k.data.size zero (fun i total => do
    let v ← k.get i
    match add total v with
    | some t => pure t
    | none => M.ub)

/-- The four scans `element_max`, `element_min`, `element_abs_max`, `element_abs_min`, 60-102: `pre` is the identity or
`std::abs`, `better a b` is `a > b` or `a < b`. -/
def Kernel.scanElems (pre : S → S) (better : S → S → Bool) (k : Kernel S) : M V S := do
  let a ← Kernel1D.at' k 0
  loopS (k.data.size - 1) (pre a) (fun i best => do
    let a ← k.get (1 + i)
    pure (if better (pre a) best then pre a else best))

/-- `element_max` for integral kernels, 60-69 -/
def Kernel.elementMaxInt (k : Kernel Int) : M V Int := k.scanElems id (fun a b => decide (a > b))
/-- `element_min` for integral kernels, 71-80 -/
def Kernel.elementMinInt (k : Kernel Int) : M V Int := k.scanElems id (fun a b => decide (a < b))

/-- `std::abs(a)` stored in an `E` of integer type `t`, 83, 85, 94, 96: types narrower than `int` are promoted and the
result is converted back; the most negative `int` (or `int64_t`) has no absolute value. -/
def absIn (t : IntTy) (a : Int) : M V Int :=
  if t.bits < 32 then pure (t.cast (if a < 0 then -a else a))
  else if a < 0 then (if -a ≤ t.hi then pure (-a) else M.ub) else pure a

/-- `element_abs_max` (`better a b` is `a > b`) and `element_abs_min` (`a < b`) for integral kernels, 82-102 -/
def Kernel.scanAbsInt (t : IntTy) (better : Int → Int → Bool) (k : Kernel Int) : M V Int := do
  let a ← Kernel1D.at' k 0
  let best ← absIn t a
  loopS (k.data.size - 1) best (fun i best => do
    let a ← k.get (1 + i)
    let a ← absIn t a
    pure (if better a best then a else best))

/-- 82-91 -/
def Kernel.elementAbsMaxInt (t : IntTy) (k : Kernel Int) : M V Int := k.scanAbsInt t (fun a b => decide (a > b))
/-- 93-102 -/
def Kernel.elementAbsMinInt (t : IntTy) (k : Kernel Int) : M V Int := k.scanAbsInt t (fun a b => decide (a < b))

section
variable {K : Type} [Field K] [LinearOrder K] [IsStrictOrderedRing K] [FloorRing K]

/-- `sum()` with exact arithmetic, 52-58 -/
def Kernel.sumK (k : Kernel K) : M V K := k.sum 0 (fun a b => some (a + b))
/-- 60-69 -/
def Kernel.elementMax (k : Kernel K) : M V K := k.scanElems id (fun a b => decide (a > b))
/-- 71-80 -/
def Kernel.elementMin (k : Kernel K) : M V K := k.scanElems id (fun a b => decide (a < b))
/-- 82-91 -/
def Kernel.elementAbsMax (k : Kernel K) : M V K := k.scanElems (fun a => |a|) (fun a b => decide (a > b))
/-- 93-102 -/
def Kernel.elementAbsMin (k : Kernel K) : M V K := k.scanElems (fun a => |a|) (fun a b => decide (a < b))

namespace FactoryKernel

/-- `table1D`, 227-234; `one` is `(E)1`. -/
def table1D (E : GrowArray.Elem S) (one : S) (width : Nat) : M V (Kernel S) := do
  let k ← Kernel1D.newWidth E width
  loopS width k (fun i k => k.put i one)

/-- `normalize` for floating point kernels, 257-265.  A division by zero (infinities or NaN in C++) is an error here. -/
def normalize (k : Kernel K) : M V (Kernel K) := do
  let sum ← k.sumK
  loopS k.width k (fun i k => do
    let v ← k.get i
    if sum = 0 then M.ub else k.put i (v / sum))

/-- `mean1D`, 242-247, floating point -/
def mean1D (E : GrowArray.Elem K) (width : Nat) : M V (Kernel K) := do
  let k ← table1D E 1 width
  normalize k

/-- `mean1D`, 242-247, integral (`normalize` does nothing, 249-252) -/
def mean1DInt (E : GrowArray.Elem Int) (width : Nat) : M V (Kernel Int) := table1D E 1 width

/-- `sigmaForRadius`, 276-281 -/
def sigmaForRadius (radius : K) (order : Int) : M V K :=
  if radius ≤ 0 then M.throw else pure ((radius * 2 + 1) / (5 + (4/5) * (order : K)))

/-- `radiusForSigma`, 292-297 -/
def radiusForSigma (sigma : K) (order : Int) : M V Int :=
  if sigma ≤ 0 then M.throw
  else M.toInt S32 (((⌈((5 + (4/5) * (order : K)) * sigma - 1) / 2⌉ : Int)) : K)

/-- `computePDF`, 376-380.  `ex` is the exponential function and `c` the constant `SQRT_2_PI`. -/
def computePDF (ex : K → K) (c : K) (mean sigma sample : K) : K :=
  ex (-((sample - mean) * (sample - mean)) / (2 * sigma * sigma)) / (sigma * c)

/-- `gaussian1D` for floating point kernels, 309-329.  (`width/2` of an `int32_t` is an integer division.) -/
def gaussian1D (E : GrowArray.Elem K) (ex : K → K) (c : K) (sigma : K) (width : Int) : M V (Kernel K) := do
  let (sigma, width) ←
    (if width ≤ 0 then do
      let r ← radiusForSigma sigma 0
      let w2 ← S32.arith (r * 2)
      let w ← S32.arith (w2 + 1)
      pure (sigma, w)
    else if sigma ≤ 0 then do
      let s ← sigmaForRadius ((width.tdiv 2 : Int) : K) 0
      pure (s, width)
    else pure (sigma, width))
  let ret ← Kernel1D.newWidth E (toU32 width)
  let radius := width.tdiv 2
  let adjust : K := if width.tmod 2 = 1 then 0 else 1/2
  let ret ← loopS width.toNat ret (fun i k =>
    k.put i (computePDF ex c 0 sigma (((i : Int) - radius : Int) + adjust)))
  normalize ret

/-- `gaussian2D` for floating point kernels, 331-347 -/
def gaussian2D (E : GrowArray.Elem K) (ex : K → K) (c : K) (sigma : K) (width : Int) : M V (Kernel K) := do
  let seed ← gaussian1D E ex c sigma width
  let output ← Kernel2D.new E (toU32 width) (toU32 (width.tdiv 2))
  let output ← loopS width.toNat output (fun i k => loopS width.toNat k (fun j k => do
    let a ← Kernel1D.at' seed i
    let b ← Kernel1D.at' seed j
    Kernel2D.setAt k i j (a * b)))
  normalize output

/-- The divisor of `float_to_int`, 396-397 and 413-414 -/
def quantum (original : Kernel K) (minFrac : K) : M V K := do
  let mx ← original.elementAbsMax
  let mn ← original.elementAbsMin
  pure (max mn (mx * minFrac))

/-- `float_to_int` for 1D kernels, 389-404, target type `t`.  (The loop counts in an `int`: kernels of 2^31 or more coefficients are not
modelled.) -/
def floatToInt1D (E : GrowArray.Elem Int) (t : IntTy) (original : Kernel K) (minFrac : K) : M V (Kernel Int) := do
  let output ← Kernel1D.new E original.width original.offset
  let q ← quantum original minFrac
  loopS original.width output (fun i k => do
    let v ← original.get i
    let n ← if q = 0 then M.ub else M.toInt t (v / q)
    k.put i n)

/-- `float_to_int` for 2D kernels, 406-423, target type `t` -/
def floatToInt2D (E : GrowArray.Elem Int) (t : IntTy) (original : Kernel K) (minFrac : K) : M V (Kernel Int) := do
  let output ← Kernel2D.new E original.width original.offset
  let q ← quantum original minFrac
  loopS original.width output (fun i k => loopS original.width k (fun j k => do
    let v ← Kernel2D.at' original j i
    let n ← if q = 0 then M.ub else M.toInt t (v / q)
    Kernel2D.setAt k j i n))

/-- `gaussian1D` for integral kernels, 359-365 -/
def gaussian1DInt (E : GrowArray.Elem K) (EI : GrowArray.Elem Int) (t : IntTy) (ex : K → K) (c : K) (sigma : K) (width : Int) :
    M V (Kernel Int) := do
  let k ← gaussian1D E ex c sigma width
  floatToInt1D EI t k (1/100)

/-- `gaussian2D` for integral kernels, 367-373 -/
def gaussian2DInt (E : GrowArray.Elem K) (EI : GrowArray.Elem Int) (t : IntTy) (ex : K → K) (c : K) (sigma : K) (width : Int) :
    M V (Kernel Int) := do
  let k ← gaussian2D E ex c sigma width
  floatToInt2D EI t k (1/100)

end FactoryKernel
end

namespace KernelOps

/-- `fill_uniform` for 1D kernels, 437-455 (both overloads).  `draw i` is the value returned by the `i`-th call of the random
number distribution. -/
def fillUniform1D (k : Kernel S) (draw : Nat → S) : M V (Kernel S) := loopS k.width k (fun i k => k.put i (draw i))

/-- `fill_uniform` for 2D kernels, 457-477 (both overloads) -/
def fillUniform2D (k : Kernel S) (draw : Nat → S) : M V (Kernel S) :=
  loopS (wrap32 (k.width * k.width)) k (fun i k => k.put i (draw i))

end KernelOps
end Boof
