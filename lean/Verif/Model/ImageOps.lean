import Verif.Model.Image
import Verif.Model.GrowArray
/-
boofcv/image_misc_ops.h, boofcv/image_statistics.h, boofcv/image_convert.h.

A pointer or index that is advanced by one (or by the stride) per iteration is written as start plus iteration number;
`uint32_t` indexes wrap, pointers do not.
-/
namespace Boof
open M
variable {V : Type}

namespace ImageMiscOps

/-- `fill(Gray)`, image_misc_ops.h:10-27 -/
def fill (g : Gray) (value : V) : M V Unit :=
  if g.subimage then
    loop g.height (fun y => loop g.width (fun x => wr g.buf (wrap32 (g.offset + y * g.stride) + x) value))
  else loop g.totalPixels (fun i => wr g.buf i value)

/-- `fill_border`, image_misc_ops.h:29-59 -/
def fillBorder (g : Gray) (value : V) (radius : Nat) : M V Unit :=
  if radius ≥ g.width ∨ radius ≥ g.height then fill g value
  else do
    loop radius (fun y => loop g.width (fun x => do
      wr g.buf (wrap32 (g.offset + y * g.stride + x)) value
      wr g.buf (wrap32 (g.offset + (g.height - y - 1) * g.stride + x)) value))
    loop radius (fun x => loop ((g.height - radius) - radius) (fun k => do
      wr g.buf (wrap32 (g.offset + radius * g.stride + x + k * g.stride)) value
      wr g.buf (wrap32 (g.offset + radius * g.stride + (g.width - 1 - x) + k * g.stride)) value))

/-- `fill(Interleaved)`, image_misc_ops.h:61-68 -/
def fill3 (g : Interleaved) (value : V) : M V Unit :=
  loop (wrap32 (wrap32 (g.width * g.height) * g.numBands)) (fun i => wr g.buf i value)

/-- `fill_uniform`, image_misc_ops.h:78-99 (both overloads).  `draw i` is the value returned by the `i`-th call
of the distribution; the generator itself belongs to the C++ library and is not modelled. -/
def fillUniform (g : Gray) (draw : Nat → V) : M V Unit := loop g.totalPixels (fun i => wr g.buf i (draw i))

end ImageMiscOps

namespace ImageStatistics

/-- `min`, image_statistics.h:11-25; `top` is `std::numeric_limits<T>::max()`, `lt` is `<` on `T`. -/
def min (lt : V → V → Bool) (top : V) (g : Gray) : M V V :=
  loopS g.totalPixels top (fun i m => do
    let v ← rd g.buf i
    pure (if lt v m then v else m))

/-- `max`, image_statistics.h:27-41; `bot` is `std::numeric_limits<T>::min()`, which for floating types is the
smallest positive number. -/
def max (lt : V → V → Bool) (bot : V) (g : Gray) : M V V :=
  loopS g.totalPixels bot (fun i m => do
    let v ← rd g.buf i
    pure (if lt m v then v else m))

/-- `sum`, image_statistics.h:43-54, integer element type `t`. -/
def sum (t : IntTy) (g : Gray) : M Int Int :=
  loopS g.height 0 (fun y total =>
    let index := wrap32 (g.offset + y * g.stride)
    let last := wrap32 (index + g.width)
    loopS (last - index) total (fun k total => do
      let v ← rd g.buf (index + k)
      t.sumType.arith (total + v)))

/-- `a / n` for `a` of type `sum_type` and `n` of type `uint32_t`: `int32_t` operands are converted to `uint32_t`. -/
def divU32 (st : IntTy) (a : Int) (n : Nat) : M Int Int :=
  if n = 0 then M.ub
  else if st = S64 then pure (a.tdiv n) else pure ((toU32 a / n : Nat) : Int)

/-- `mean`, image_statistics.h:56-60, integer element type `t`. -/
def mean (t : IntTy) (g : Gray) : M Int Int := do
  let a ← sum t g
  let q ← divU32 t.sumType a (wrap32 (g.width * g.height))
  pure (t.cast q)

/-- `histogram`, image_statistics.h:62-75.  The value is the histogram array afterwards; `histogram.fill(0)` is
`GrowArray::fill`, the increment uses the unchecked `operator[]`. -/
def histogram (t : IntTy) (g : Gray) (minValue : Int) (hist : GrowArray Int) : M Int (GrowArray Int) := do
  let hist ← (match GrowArray.fill (intElem U32 (fun _ => 0)) 0 hist with
    | .ok _ a => (pure a : M Int (GrowArray Int))
    | _ => M.ub)
  loopS g.height hist (fun y hist =>
    let index := wrap32 (g.offset + y * g.stride)
    let last := wrap32 (index + g.width)
    loopS (last - index) hist (fun k hist => do
      let v ← rd g.buf (index + k)
      let d ← t.promote.arith (v - minValue)
      match hist.data[toU32 d]? with
      | some c => pure { hist with data := hist.data.set (toU32 d) (U32.cast (c + 1)) }
      | none => M.ub))

end ImageStatistics

/-- `convert_average`, image_convert.h:16-38, integer element type `t`.  The value is the output image afterwards. -/
def convertAverage (t : IntTy) (input : Interleaved) (output : Gray) : M Int Gray := do
  let output ← output.reshape 0 input.width input.height
  loop input.height (fun y => loop input.width (fun x => do
    let sum ← loopS input.numBands 0 (fun band sum => do
      let v ← rd input.buf (wrap32 (input.offset + y * input.stride) + (x * input.numBands + band))
      t.sumType.arith (sum + v))
    let q ← ImageStatistics.divU32 t.sumType sum input.numBands
    wr output.buf (wrap32 (output.offset + y * output.stride) + x) (t.cast q)))
  pure output

end Boof
