import Verif.Model.Sanity
/-
`BinaryImageOps` (boofcv/binary_ops.cpp:8-84) and `ThresholdOps::threshold` (boofcv/binary_ops.h:137-160).

All images live in one heap whose cells are untyped; 8-bit images hold the values 0..255 of `Int`.
-/
namespace Boof
open M
variable {V : Type}

/-- `static_cast<U8>(bool)` -/
def b2i (b : Bool) : Int := if b then 1 else 0

namespace BinaryImageOps

/-- `logicAnd`, binary_ops.cpp:8-23.  `&&` evaluates its right operand only when the left one is non-zero.
`int end` is compared with a `uint32_t` and is converted back, so it has the value of the `uint32_t` sum. -/
def logicAnd (a b output : Gray) : M Int Gray := do
  checkSameShape2 a.width a.height b.width b.height
  let output ← output.reshape 0 a.width a.height
  loop a.height (fun y =>
    let indexA := wrap32 (a.offset + y * a.stride)
    let indexB := wrap32 (b.offset + y * b.stride)
    let indexOut := wrap32 (output.offset + y * output.stride)
    let last := wrap32 (indexA + a.width)
    loop (last - indexA) (fun k => do
      let va ← rd a.buf (indexA + k)
      if va ≠ 0 then do
        let vb ← rd b.buf (wrap32 (indexB + k))
        wr output.buf (wrap32 (indexOut + k)) (b2i (vb ≠ 0))
      else wr output.buf (wrap32 (indexOut + k)) (b2i false)))
  pure output

/-- `logicOr`, binary_ops.cpp:25-40 -/
def logicOr (a b output : Gray) : M Int Gray := do
  checkSameShape2 a.width a.height b.width b.height
  let output ← output.reshape 0 a.width a.height
  loop a.height (fun y =>
    let indexA := wrap32 (a.offset + y * a.stride)
    let indexB := wrap32 (b.offset + y * b.stride)
    let indexOut := wrap32 (output.offset + y * output.stride)
    let last := wrap32 (indexA + a.width)
    loop (last - indexA) (fun k => do
      let va ← rd a.buf (indexA + k)
      if va ≠ 0 then wr output.buf (wrap32 (indexOut + k)) (b2i true)
      else do
        let vb ← rd b.buf (wrap32 (indexB + k))
        wr output.buf (wrap32 (indexOut + k)) (b2i (vb ≠ 0))))
  pure output

/-- The loops of `erode4` (binary_ops.cpp:45-61) and `dilate4` (67-84): `test s` decides from the sum of the five pixels.
`const int h = height-1` and `w = width-2` are only used in `uint32_t` expressions. -/
def cross4 (test : Int → Bool) (input output : Gray) : M Int Gray := do
  let output ← output.reshape 0 input.width input.height
  let h := sub32 input.height 1
  let w := sub32 input.width 2
  forRange 1 h (fun y =>
    let indexIn := wrap32 (input.offset + y * input.stride + 1)
    let indexOut := wrap32 (output.offset + y * output.stride + 1)
    let last := wrap32 (indexIn + w)
    loop (last - indexIn) (fun k => do
      let v0 ← rd input.buf (indexIn + k)
      let v1 ← rd input.buf (sub32 (indexIn + k) 1)
      let v2 ← rd input.buf (wrap32 (indexIn + k + 1))
      let v3 ← rd input.buf (sub32 (indexIn + k) input.stride)
      let v4 ← rd input.buf (wrap32 (indexIn + k + input.stride))
      wr output.buf (wrap32 (indexOut + k)) (b2i (test (v0 + v1 + v2 + v3 + v4)))))
  pure output

/-- `erode4`, binary_ops.cpp:42-62 -/
def erode4 (input output : Gray) : M Int Gray := cross4 (fun s => s = 5) input output

/-- `dilate4`, binary_ops.cpp:64-85 -/
def dilate4 (input output : Gray) : M Int Gray := cross4 (fun s => s > 0) input output

end BinaryImageOps

namespace ThresholdOps

/-- `threshold`, binary_ops.h:136-160.  `le` is `<=` on the pixel type and `gt` is `>`; `bit` is the cell holding
`static_cast<U8>(bool)`; `z` is the value of a fresh output cell. -/
def threshold (le gt : V → V → Bool) (bit : Bool → V) (z : V) (input : Gray) (thr : V) (down : Bool) (output : Gray) :
    M V Gray := do
  let output ← output.reshape z input.width input.height
  if down then
    loop input.height (fun y => loop input.width (fun x => do
      let v ← rd input.buf (wrap32 (input.offset + y * input.stride) + x)
      wr output.buf (wrap32 (output.offset + y * output.stride) + x) (bit (le v thr))))
  else
    loop input.height (fun y => loop input.width (fun x => do
      let v ← rd input.buf (wrap32 (input.offset + y * input.stride) + x)
      wr output.buf (wrap32 (output.offset + y * output.stride) + x) (bit (gt v thr))))
  pure output

/-- `GlobalFixedBinaryFilter::process`, binary_ops.h:229-243 -/
def globalFixed (le gt : V → V → Bool) (bit : Bool → V) (z : V) (thr : V) (down : Bool) (input output : Gray) :
    M V Gray := threshold le gt bit z input thr down output

end ThresholdOps
end Boof
