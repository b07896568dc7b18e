import Verif.Model.Kernel
import Verif.Model.Border
import Verif.Model.Sanity
/-
Convolution, boofcv/convolve.h.

The element arithmetic is a parameter (`Arith`), so that one model covers the integral and the floating point
instantiations of each template.  The order of the two factors of a product and the order of evaluation of the two
operands are not modelled.  Forming the address of an array element is not checked, only reading and writing it is.
Loops that advance a pointer or index together with the loop counter are written with the sum of both.
-/
namespace Boof
open M
variable {V S : Type}

/-- The arithmetic of an instantiation with element type `E` (cells `V`) and `signed_type` (type `S`).
`none` is undefined behaviour: overflow or division by zero. -/
structure Arith (V S : Type) where
  /-- `0` -/
  zero : S
  /-- `total += coefficient * pixel` -/
  mac : S → S → V → Option S
  /-- `weight += coefficient` -/
  add : S → S → Option S
  /-- `(R)total` -/
  out : S → Option V
  /-- `(E)((total + weight/2)/weight)` for integers, `(E)(total/weight)` for floating point types -/
  norm : S → S → Option V
  /-- `E v = coefficient`, converted back -/
  narrow : S → S
  /-- `sum == 1` (only asked for floating point types) -/
  isOne : S → Bool

/-- Integral element type `t` with output type `r` (and `t` for normalised convolution); S = `signed_type` of `t`. -/
def intArith (t r : IntTy) : Arith Int Int where
  zero := 0
  mac s c v :=
    if t.signedType.InRange (c * v) ∧ t.signedType.InRange (s + c * v) then some (s + c * v) else none
  add s c := if t.signedType.InRange (s + c) then some (s + c) else none
  out s := some (r.cast s)
  norm s d :=
    if d = 0 then none
    else if t.signedType.InRange (s + d.tdiv 2) ∧ t.signedType.InRange ((s + d.tdiv 2).tdiv d) then
      some (t.cast ((s + d.tdiv 2).tdiv d))
    else none
  narrow c := t.cast c
  isOne _ := false

/-- Floating point element types with exact arithmetic.  Division by zero is an error here. -/
def fieldArith (K : Type) [Field K] [DecidableEq K] : Arith K K where
  zero := 0
  mac s c v := some (s + c * v)
  add s c := some (s + c)
  out s := some s
  norm s d := if d = 0 then none else some (s / d)
  narrow c := c
  isOne c := decide (c = 1)

/-- A computation that is undefined when the option is empty. -/
def opt {α : Type} (o : Option α) : M V α :=
  match o with
  | some a => pure a
  | none => M.ub

namespace ConvolveNaive

/-- `horizontal`, convolve.h:24-81; `fin` is the conversion of the sum, 38, 58 or 78. -/
def horizontal (A : Arith V S) (fin : S → Option V) (kernel : Kernel S) (b : Border V) (input output : Gray) : M V Unit :=
  loop input.height (fun y => loop input.width (fun x => do
    let sum ← loopS kernel.width A.zero (fun k sum => do
      let xx := toS32 (wrap32 (sub32 x kernel.offset + k))
      let c ← Kernel1D.at' kernel k
      let v ← b.get input xx (toS32 y)
      opt (A.mac sum c v))
    let v ← opt (fin sum)
    output.setAt x y v))

/-- `vertical`, convolve.h:83-140; `fin` is the conversion of the sum, 97, 117 or 137. -/
def vertical (A : Arith V S) (fin : S → Option V) (kernel : Kernel S) (b : Border V) (input output : Gray) : M V Unit :=
  loop input.height (fun y => loop input.width (fun x => do
    let sum ← loopS kernel.width A.zero (fun k sum => do
      let yy := toS32 (wrap32 (sub32 y kernel.offset + k))
      let c ← Kernel1D.at' kernel k
      let v ← b.get input (toS32 x) yy
      opt (A.mac sum c v))
    let v ← opt (fin sum)
    output.setAt x y v))

/-- `convolve`, convolve.h:142-210; `fin` is the conversion of the sum, 159, 183 or 207. -/
def convolve (A : Arith V S) (fin : S → Option V) (kernel : Kernel S) (b : Border V) (input output : Gray) : M V Unit :=
  loop input.height (fun y => loop input.width (fun x => do
    let sum ← loopS kernel.width A.zero (fun k sum => do
      let yy := toS32 (wrap32 (sub32 y kernel.offset + k))
      loopS kernel.width sum (fun l sum => do
        let xx := toS32 (wrap32 (sub32 x kernel.offset + l))
        let c ← Kernel2D.at' kernel l k
        let v ← b.get input xx yy
        opt (A.mac sum c v)))
    let v ← opt (fin sum)
    output.setAt x y v))

end ConvolveNaive

namespace ConvolveNormalizedNaive

/-- The range of pixels under the kernel, convolve.h:229-238 (also 262-271, 295-304, 328-337), as `int32_t` values. -/
def range (kernel : Kernel S) (x n : Nat) : Int × Int :=
  let (start, stop) :=
    if x < kernel.offset then ((0 : Int), toS32 (sub32 kernel.width (sub32 kernel.offset x)))
    else
      let start := toS32 (sub32 x kernel.offset)
      (start, toS32 (wrap32 (toU32 start + kernel.width)))
  (start, if toU32 stop > n then toS32 n else stop)

/-- `horizontal`, convolve.h:220-284 -/
def horizontal (A : Arith V S) (kernel : Kernel S) (input output : Gray) : M V Unit :=
  loop input.height (fun y => loop input.width (fun x => do
    let (startX, endX) := range kernel x input.width
    let (total, weight) ← loopS (endX - startX).toNat (A.zero, A.zero) (fun i (total, weight) => do
      let j := startX + i
      let c ← Kernel1D.idx kernel (wrap32 (sub32 (toU32 j) x + kernel.offset))
      let v ← input.unsafeAt (toU32 j) y
      let total ← opt (A.mac total c v)
      let weight ← opt (A.add weight c)
      pure (total, weight))
    let v ← opt (A.norm total weight)
    output.setUnsafeAt x y v))

/-- `vertical`, convolve.h:286-350.  The coefficient passes through a variable of the element type (310, 343). -/
def vertical (A : Arith V S) (kernel : Kernel S) (input output : Gray) : M V Unit :=
  loop input.height (fun y => loop input.width (fun x => do
    let (startY, endY) := range kernel y input.height
    let (total, weight) ← loopS (endY - startY).toNat (A.zero, A.zero) (fun i (total, weight) => do
      let j := startY + i
      let c ← Kernel1D.at' kernel (wrap32 (sub32 (toU32 j) y + kernel.offset))
      let c := A.narrow c
      let v ← input.unsafeAt x (toU32 j)
      let total ← opt (A.mac total c v)
      let weight ← opt (A.add weight c)
      pure (total, weight))
    let v ← opt (A.norm total weight)
    output.setUnsafeAt x y v))

end ConvolveNormalizedNaive

namespace ConvolveNormalizedJustBorder

/-- The loop shared by both sides of `horizontal`, convolve.h:376-383 and 392-401: coefficients `k0 .. k1-1` with pixels
from index `src` on. -/
def span (A : Arith V S) (kernel : Kernel S) (input : Gray) (k0 k1 src : Nat) : M V (S × S) :=
  loopS (k1 - k0) (A.zero, A.zero) (fun i (total, weight) => do
    let w ← kernel.get (k0 + i)
    let weight ← opt (A.add weight w)
    let v ← rd input.buf (wrap32 (src + i))
    let total ← opt (A.mac total w v)
    pure (total, weight))

/-- `horizontal`, convolve.h:359-453 -/
def horizontal (A : Arith V S) (kernel : Kernel S) (input output : Gray) : M V Unit := do
  let offsetL := kernel.offset
  let offsetR := sub32 (sub32 kernel.width offsetL) 1
  loop input.height (fun i => do
    let indexDest := wrap32 (output.offset + i * output.stride)
    let jStart := wrap32 (input.offset + i * input.stride)
    let jEnd := wrap32 (jStart + offsetL)
    forRange jStart jEnd (fun j => do
      let (total, weight) ← span A kernel input (sub32 kernel.width (sub32 (offsetR + 1 + j) jStart)) kernel.width jStart
      let v ← opt (A.norm total weight)
      wr output.buf (wrap32 (indexDest + (j - jStart))) v)
    let skip := sub32 input.width (wrap32 (offsetL + offsetR))
    let j0 := wrap32 (jStart + (jEnd - jStart) + skip)
    let indexDest := wrap32 (indexDest + (jEnd - jStart) + skip)
    let jEnd := wrap32 (jStart + input.width)
    forRange j0 jEnd (fun j => do
      let indexSrc := sub32 j offsetL
      let (total, weight) ← span A kernel input 0 (sub32 jEnd indexSrc) indexSrc
      let v ← opt (A.norm total weight)
      wr output.buf (wrap32 (indexDest + (j - j0))) v))

/-- The weight of coefficients `k0 .. k1-1`, convolve.h:474-477 and 496-499 -/
def weight (A : Arith V S) (kernel : Kernel S) (k0 k1 : Nat) : M V S :=
  loopS (k1 - k0) A.zero (fun i weight => do
    let w ← kernel.get (k0 + i)
    opt (A.add weight w))

/-- The sum over coefficients `k0 .. k1-1` down a column, convolve.h:480-484 and 502-506 -/
def column (A : Arith V S) (kernel : Kernel S) (input : Gray) (k0 k1 src : Nat) : M V S :=
  loopS (k1 - k0) A.zero (fun i total => do
    let v ← rd input.buf (wrap32 (src + i * input.stride))
    let w ← kernel.get (k0 + i)
    opt (A.mac total w v))

/-- `vertical`, convolve.h:455-567 -/
def vertical (A : Arith V S) (kernel : Kernel S) (input output : Gray) : M V Unit := do
  let offsetL := kernel.offset
  let offsetR := sub32 (sub32 kernel.width offsetL) 1
  let yEnd := sub32 input.height offsetR
  loop offsetL (fun y => do
    let indexDst := wrap32 (output.offset + y * output.stride)
    let i0 := wrap32 (input.offset + y * input.stride)
    let iEnd := wrap32 (i0 + input.width)
    let kStart := sub32 offsetL y
    let w ← weight A kernel kStart kernel.width
    forRange i0 iEnd (fun i => do
      let total ← column A kernel input kStart kernel.width (sub32 i (wrap32 (y * input.stride)))
      let v ← opt (A.norm total w)
      wr output.buf (wrap32 (indexDst + (i - i0))) v))
  forRange yEnd input.height (fun y => do
    let indexDst := wrap32 (output.offset + y * output.stride)
    let i0 := wrap32 (input.offset + y * input.stride)
    let iEnd := wrap32 (i0 + input.width)
    let kEnd := sub32 input.height (sub32 y offsetL)
    let w ← weight A kernel 0 kEnd
    forRange i0 iEnd (fun i => do
      let total ← column A kernel input 0 kEnd (sub32 i (wrap32 (offsetL * input.stride)))
      let v ← opt (A.norm total w)
      wr output.buf (wrap32 (indexDst + (i - i0))) v))

end ConvolveNormalizedJustBorder

namespace ConvolveInner

/-- The sum over the kernel of consecutive pixels from index `src` on, convolve.h:611-618, 639-644, 678-685 -/
def rowSum (A : Arith V S) (kernel : Kernel S) (input : Gray) (src : Nat) : M V S :=
  loopS kernel.width A.zero (fun k total => do
    let v ← rd input.buf (src + k)
    let c ← kernel.get k
    opt (A.mac total c v))

/-- `horizontal` with pointers, convolve.h:595-622 (integral, with divisor) and 665-689 (without divisor).
`horizontal_unrolled`, 579-593 and 650-663, calls this function in every case. -/
def horizontal (A : Arith V S) (fin : S → Option V) (kernel : Kernel S) (input output : Gray) : M V Unit :=
  loop input.height (fun i => do
    let dst := wrap32 (output.offset + i * output.stride + kernel.offset)
    let src := wrap32 (input.offset + i * input.stride)
    loop (sub32 input.width (sub32 kernel.width 1)) (fun j => do
      let total ← rowSum A kernel input (src + j)
      let v ← opt (fin total)
      wr output.buf (dst + j) v))

/-- An index of type `int32_t` used as a subscript. -/
def subscript (i : Int) : M V Nat := if i < 0 then M.ub else pure i.toNat

/-- `horizontal` with `int32_t` indexes, convolve.h:624-648 (floating point, with divisor). -/
def horizontalF (A : Arith V S) (fin : S → Option V) (kernel : Kernel S) (input output : Gray) : M V Unit :=
  loop input.height (fun i => do
    let dst := wrap32 (output.offset + i * output.stride + kernel.offset)
    let j0 := toS32 (wrap32 (input.offset + i * input.stride))
    let jEnd := toS32 (sub32 (wrap32 (toU32 j0 + input.width)) (sub32 kernel.width 1))
    loop (jEnd - j0).toNat (fun j => do
      let src ← subscript (j0 + j)
      let total ← rowSum A kernel input src
      let v ← opt (fin total)
      wr output.buf (wrap32 (dst + j)) v))

/-- The sum over the kernel down a column, convolve.h:726-734, 757-762, 799-807 -/
def columnSum (A : Arith V S) (kernel : Kernel S) (input : Gray) (src : Nat) : M V S :=
  loopS kernel.width A.zero (fun k total => do
    let v ← rd input.buf (src + k * input.stride)
    let c ← kernel.get k
    opt (A.mac total c v))

/-- `vertical` with pointers, convolve.h:707-738 (integral, with divisor) and 783-811 (without divisor); `y` and `yEnd` are
`int32_t`.  `vertical_unrolled`, 691-705 and 768-781, calls this function in every case. -/
def vertical (A : Arith V S) (fin : S → Option V) (kernel : Kernel S) (input output : Gray) : M V Unit := do
  let yEnd := toS32 (sub32 input.height (sub32 (sub32 kernel.width kernel.offset) 1))
  let y0 := toS32 kernel.offset
  loop (yEnd - y0).toNat (fun n => do
    let y := toU32 (y0 + n)
    let dst := wrap32 (output.offset + y * output.stride)
    let src := wrap32 (input.offset + sub32 y kernel.offset * input.stride)
    loop input.width (fun x => do
      let total ← columnSum A kernel input (src + x)
      let v ← opt (fin total)
      wr output.buf (dst + x) v))

/-- `vertical` with indexes, convolve.h:740-766 (floating point, with divisor). -/
def verticalF (A : Arith V S) (fin : S → Option V) (kernel : Kernel S) (input output : Gray) : M V Unit := do
  let yEnd := sub32 input.height (sub32 (sub32 kernel.width kernel.offset) 1)
  forRange kernel.offset yEnd (fun y => do
    let dst := wrap32 (output.offset + y * output.stride)
    let i0 := toS32 (wrap32 (input.offset + sub32 y kernel.offset * input.stride))
    let iEnd := toS32 (wrap32 (toU32 i0 + input.width))
    loop (iEnd - i0).toNat (fun x => do
      let src := toU32 (i0 + x)
      let total ← loopS kernel.width A.zero (fun k total => do
        let v ← rd input.buf (wrap32 (src + k * input.stride))
        let c ← kernel.get k
        opt (A.mac total c v))
      let v ← opt (fin total)
      wr output.buf (wrap32 (dst + x)) v))

/-- `convolve`, convolve.h:813-894 (`kernel_ptr` runs through the coefficients in order). -/
def convolve (A : Arith V S) (fin : S → Option V) (kernel : Kernel S) (input output : Gray) : M V Unit := do
  let offsetL := kernel.offset
  let offsetR := sub32 (sub32 kernel.width kernel.offset) 1
  forRange offsetL (sub32 input.height offsetR) (fun y => do
    let dst := wrap32 (output.offset + y * output.stride + offsetL)
    forRange offsetL (sub32 input.width offsetR) (fun x => do
      let total ← loopS kernel.width A.zero (fun ki total => do
        let src := sub32 (wrap32 (input.offset + sub32 (y + ki) offsetL * input.stride + x)) offsetL
        loopS kernel.width total (fun kj total => do
          let v ← rd input.buf (src + kj)
          let c ← kernel.get (ki * kernel.width + kj)
          opt (A.mac total c v)))
      let v ← opt (fin total)
      wr output.buf (wrap32 (dst + (x - offsetL))) v))

end ConvolveInner

namespace ConvolveBorder

/-- The sum over the kernel along a row with the border, convolve.h:918-922 and 928-934; `x0` is `x - offset`.  (At 921 the
coordinate is computed as `x+k-offset`; `int32_t` overflow of the sum is not modelled, the sizes are below 2^31.) -/
def rowSum (A : Arith V S) (kernel : Kernel S) (b : Border V) (input : Gray) (x0 : Int) (y : Nat) : M V S :=
  loopS kernel.width A.zero (fun k total => do
    let v ← b.get input (x0 + k) (toS32 y)
    let c ← kernel.get k
    opt (A.mac total c v))

/-- `horizontal`, convolve.h:904-938.  (`x` is an `int32_t` compared with a `uint32_t` at 927.) -/
def horizontal (A : Arith V S) (kernel : Kernel S) (b : Border V) (input output : Gray) : M V Unit := do
  let offset := toS32 kernel.offset
  let borderRight := toS32 (sub32 (sub32 kernel.width (toU32 offset)) 1)
  loop output.height (fun y => do
    let dst := wrap32 (output.offset + y * output.stride)
    loop offset.toNat (fun x => do
      let total ← rowSum A kernel b input ((x : Int) - offset) y
      let v ← opt (A.out total)
      wr output.buf (dst + x) v)
    let dst := sub32 (wrap32 (output.offset + y * output.stride + output.width)) (toU32 borderRight)
    let x0 := sub32 output.width (toU32 borderRight)
    forRange x0 output.width (fun x => do
      let total ← rowSum A kernel b input (toS32 x - offset) y
      let v ← opt (A.out total)
      wr output.buf (dst + (x - x0)) v))

/-- The sum over the kernel along a column with the border, convolve.h:953-957 and 963-967 -/
def columnSum (A : Arith V S) (kernel : Kernel S) (b : Border V) (input : Gray) (x y : Nat) : M V S :=
  loopS kernel.width A.zero (fun k total => do
    let v ← b.get input (toS32 x) (toS32 (sub32 (y + k) kernel.offset))
    let c ← kernel.get k
    opt (A.mac total c v))

/-- `vertical`, convolve.h:940-971.  (`y` is an `int32_t` compared with a `uint32_t` at 962.) -/
def vertical (A : Arith V S) (kernel : Kernel S) (b : Border V) (input output : Gray) : M V Unit := do
  let borderBottom := sub32 (sub32 kernel.width kernel.offset) 1
  loop output.width (fun x => do
    loop kernel.offset (fun y => do
      let total ← columnSum A kernel b input x y
      let v ← opt (A.out total)
      wr output.buf (wrap32 (wrap32 (output.offset + x) + y * output.stride)) v)
    let y0 := sub32 output.height borderBottom
    let dst := wrap32 (output.offset + y0 * output.stride + x)
    forRange y0 output.height (fun y => do
      let total ← columnSum A kernel b input x y
      let v ← opt (A.out total)
      wr output.buf (wrap32 (dst + (y - y0) * output.stride)) v))

/-- The sum over a 2D kernel with the border, convolve.h:989-995 (also 1001-1007, 1017-1023, 1029-1035); `i` and `j` run from
`-offsetL` to `offsetR`.  (`int32_t` overflow of the coordinates is not modelled, the sizes are below 2^31.) -/
def boxSum (A : Arith V S) (kernel : Kernel S) (b : Border V) (input : Gray) (offsetL offsetR : Int) (x y : Nat) : M V S :=
  let n := (offsetR + offsetL + 1).toNat
  loopS n A.zero (fun i total => loopS n total (fun j total => do
    let v ← b.get input (toS32 x + ((j : Int) - offsetL)) (toS32 y + ((i : Int) - offsetL))
    let c ← kernel.get (i * n + j)
    opt (A.mac total c v)))

/-- `convolve`, convolve.h:973-1039 -/
def convolve (A : Arith V S) (kernel : Kernel S) (b : Border V) (input output : Gray) : M V Unit := do
  let offsetL := toS32 kernel.offset
  let offsetR := toS32 (sub32 (sub32 kernel.width (toU32 offsetL)) 1)
  loop output.height (fun y => do
    let dst := wrap32 (output.offset + y * output.stride)
    loop offsetL.toNat (fun x => do
      let total ← boxSum A kernel b input offsetL offsetR x y
      let v ← opt (A.out total)
      wr output.buf (wrap32 (dst + x)) v)
    let dst := sub32 (wrap32 (output.offset + y * output.stride + output.width)) (toU32 offsetR)
    let x0 := sub32 output.width (toU32 offsetR)
    forRange x0 output.width (fun x => do
      let total ← boxSum A kernel b input offsetL offsetR x y
      let v ← opt (A.out total)
      wr output.buf (wrap32 (dst + (x - x0))) v))
  forRange (toU32 offsetL) (sub32 output.width (toU32 offsetR)) (fun x => do
    loop offsetL.toNat (fun y => do
      let total ← boxSum A kernel b input offsetL offsetR x y
      let v ← opt (A.out total)
      wr output.buf (wrap32 (wrap32 (output.offset + x) + y * output.stride)) v)
    let y0 := sub32 output.height (toU32 offsetR)
    let dst := wrap32 (output.offset + y0 * output.stride + x)
    forRange y0 output.height (fun y => do
      let total ← boxSum A kernel b input offsetL offsetR x y
      let v ← opt (A.out total)
      wr output.buf (wrap32 (dst + (y - y0) * output.stride)) v))

end ConvolveBorder

namespace ConvolveImage

/-- `horizontal`, convolve.h:1047-1059 -/
def horizontal (z : V) (A : Arith V S) (kernel : Kernel S) (b : Border V) (input output : Gray) : M V Gray := do
  let output ← output.reshape z input.width input.height
  (if kernel.width ≥ output.width then ConvolveNaive.horizontal A A.out kernel b input output
   else do
    ConvolveInner.horizontal A A.out kernel input output
    ConvolveBorder.horizontal A kernel b input output)
  pure output

/-- `vertical`, convolve.h:1061-1073 -/
def vertical (z : V) (A : Arith V S) (kernel : Kernel S) (b : Border V) (input output : Gray) : M V Gray := do
  let output ← output.reshape z input.width input.height
  (if kernel.width ≥ output.height then ConvolveNaive.vertical A A.out kernel b input output
   else do
    ConvolveInner.vertical A A.out kernel input output
    ConvolveBorder.vertical A kernel b input output)
  pure output

/-- `convolve`, convolve.h:1075-1087 -/
def convolve (z : V) (A : Arith V S) (kernel : Kernel S) (b : Border V) (input output : Gray) : M V Gray := do
  let output ← output.reshape z input.width input.height
  (if kernel.width ≥ output.width ∨ kernel.width ≥ output.height then ConvolveNaive.convolve A A.out kernel b input output
   else do
    ConvolveInner.convolve A A.out kernel input output
    ConvolveBorder.convolve A kernel b input output)
  pure output

end ConvolveImage

namespace ConvolveNormalized

/-- `horizontal` for integral types, convolve.h:1096-1108 -/
def horizontal (A : Arith V S) (kernel : Kernel S) (input output : Gray) : M V Unit := do
  checkSameShape2 input.width input.height output.width output.height
  if kernel.width ≥ input.width then ConvolveNormalizedNaive.horizontal A kernel input output
  else do
    let sum ← kernel.sum A.zero A.add
    ConvolveInner.horizontal A (fun t => A.norm t sum) kernel input output
    ConvolveNormalizedJustBorder.horizontal A kernel input output

/-- `horizontal` for floating point types, convolve.h:1110-1128 -/
def horizontalF (A : Arith V S) (kernel : Kernel S) (input output : Gray) : M V Unit := do
  checkSameShape2 input.width input.height output.width output.height
  if kernel.width ≥ input.width then ConvolveNormalizedNaive.horizontal A kernel input output
  else do
    let sum ← kernel.sum A.zero A.add
    (if A.isOne sum then ConvolveInner.horizontal A A.out kernel input output
     else ConvolveInner.horizontalF A (fun t => A.norm t sum) kernel input output)
    ConvolveNormalizedJustBorder.horizontal A kernel input output

/-- `vertical` for integral types, convolve.h:1130-1142 -/
def vertical (A : Arith V S) (kernel : Kernel S) (input output : Gray) : M V Unit := do
  checkSameShape2 input.width input.height output.width output.height
  if kernel.width ≥ input.height then ConvolveNormalizedNaive.vertical A kernel input output
  else do
    let sum ← kernel.sum A.zero A.add
    ConvolveInner.vertical A (fun t => A.norm t sum) kernel input output
    ConvolveNormalizedJustBorder.vertical A kernel input output

/-- `vertical` for floating point types, convolve.h:1144-1162 -/
def verticalF (A : Arith V S) (kernel : Kernel S) (input output : Gray) : M V Unit := do
  checkSameShape2 input.width input.height output.width output.height
  if kernel.width ≥ input.height then ConvolveNormalizedNaive.vertical A kernel input output
  else do
    let sum ← kernel.sum A.zero A.add
    (if A.isOne sum then ConvolveInner.vertical A A.out kernel input output
     else ConvolveInner.verticalF A (fun t => A.norm t sum) kernel input output)
    ConvolveNormalizedJustBorder.vertical A kernel input output

/-- `convolve`, convolve.h:1172-1181; `isFloat` selects the overloads. -/
def convolve (z : V) (A : Arith V S) (isFloat : Bool) (kernel : Kernel S) (input output workspace : Gray) : M V (Gray × Gray) := do
  let output ← output.reshape z input.width input.height
  let workspace ← workspace.reshape z input.width input.height
  (if isFloat then horizontalF A kernel input workspace else horizontal A kernel input workspace)
  (if isFloat then verticalF A kernel workspace output else vertical A kernel workspace output)
  pure (output, workspace)

end ConvolveNormalized
end Boof
