import Verif.Cpp.Real
import Verif.Model.ImageOps
import Verif.Model.BinaryOps
/-
`ComputeOtsu` (boofcv/binary_ops.cpp:87-193) and its users in binary_ops.h.

`double` is an ordered field `K` (see Cpp/Real.lean).  A histogram is a `GrowArray<uint32_t>`, read with the unchecked
`operator[]`.
-/
namespace Boof
open M
variable {K : Type} [Field K] [LinearOrder K] [IsStrictOrderedRing K] [FloorRing K] {V : Type}

/-- `histogram[i]`, base_types.h:164-166 -/
def GrowArray.get (a : GrowArray Int) (i : Nat) : M V Int :=
  match a.data[i]? with
  | some c => pure c
  | none => M.ub

/-- binary_ops.h, class ComputeOtsu: configuration (constructors binary_ops.cpp:87-95). -/
structure ComputeOtsu (K : Type) where
  useOtsu2 : Bool
  tuning : K
  down : Bool
  scale : K

namespace ComputeOtsu

/-- Local variables of the scan in `computeOtsu` (119-146) and `computeOtsu2` (156-187).  `done` is set by `break`. -/
structure Scan (K : Type) where
  wB : Nat
  sumB : K
  variance : K
  threshold : K
  selectedMB : K
  selectedMF : K
  done : Bool

/-- `sum += (i / dlength) * histogram[i]`, binary_ops.cpp:113-116 and 150-153.  (In `computeOtsu2` the index is an
`int`; the two loops agree for sizes below 2^31.) -/
def total (hist : GrowArray Int) : M V K :=
  loopS hist.size (0 : K) (fun i sum => do
    let c ← hist.get i
    pure (sum + ((i : K) / (hist.size : K)) * (c : K)))

/-- The scan over all splits, binary_ops.cpp:118-146 and 155-187.  The two functions have the same loop except that one
records `threshold = i` (144) and the other `selectedMB`, `selectedMF` (185-186); both are recorded here. -/
def scan (hist : GrowArray Int) (sum : K) (totalPixels : Nat) : M V (Scan K) :=
  loopS hist.size (⟨0, 0, 0, 0, 0, 0, false⟩ : Scan K) (fun i s =>
    if s.done then pure s
    else do
      let c ← hist.get i
      let wB := wrap32 (s.wB + c.toNat)
      if wB = 0 then pure { s with wB := wB }
      else
        let wF := sub32 totalPixels wB
        if wF = 0 then pure { s with wB := wB, done := true }
        else
          let f : K := (i : K) / (hist.size : K)
          let sumB := s.sumB + f * (c : K)
          let mB := sumB / (wB : K)
          let mF := (sum - sumB) / (wF : K)
          let varBetween := (wB : K) * (wF : K) * (mB - mF) * (mB - mF)
          if varBetween > s.variance then
            pure { s with wB := wB, sumB := sumB, variance := varBetween, threshold := (i : K), selectedMB := mB,
                          selectedMF := mF }
          else pure { s with wB := wB, sumB := sumB })

/-- `computeOtsu`, binary_ops.cpp:112-147: (threshold, variance). -/
def computeOtsu (hist : GrowArray Int) (totalPixels : Nat) : M V (K × K) := do
  let sum ← total hist
  let s ← scan hist sum totalPixels
  pure (s.threshold, s.variance)

/-- `computeOtsu2`, binary_ops.cpp:149-193: (threshold, variance). -/
def computeOtsu2 (hist : GrowArray Int) (totalPixels : Nat) : M V (K × K) := do
  let sum ← total hist
  let s ← scan hist sum totalPixels
  pure ((hist.size : K) * (s.selectedMB + s.selectedMF) / 2, s.variance)

/-- `compute`, binary_ops.cpp:97-110.  The value is the final `threshold`, an `int` stored in a `double`. -/
def compute (o : ComputeOtsu K) (hist : GrowArray Int) (totalPixels : Nat) : M V Int := do
  let r : K × K ← (if o.useOtsu2 then computeOtsu2 hist totalPixels else computeOtsu hist totalPixels)
  let variance := r.2 + 1/1000
  let adjustment ← toInt S32 (o.tuning * r.1 * o.tuning * r.1 / variance + 1/2)
  let delta ← (if o.down then S32.arith (-adjustment) else pure adjustment)
  let threshold := r.1 + (delta : K)
  toInt S32 (o.scale * max threshold 0 + 1/2)

end ComputeOtsu

namespace ThresholdOps

/-- `computeOtsu`, binary_ops.h:111-124.  `t` is the pixel type, `junk` the indeterminate contents of `new uint32_t[n]`.
The result is relative to `minValue`. -/
def computeOtsu (K : Type) [Field K] [LinearOrder K] [IsStrictOrderedRing K] [FloorRing K] (t : IntTy) (junk : Nat → Int)
    (input : Gray) (minValue maxValue : Int) (otsu2 : Bool) : M Int Int := do
  let r ← t.promote.arith (1 + maxValue)
  let r ← t.promote.arith (r - minValue)
  let range := toU32 r
  let histogram ← (match GrowArray.new (intElem U32 junk) range with
    | .ok _ a => (pure a : M Int (GrowArray Int))
    | _ => M.ub)
  let histogram ← ImageStatistics.histogram t input minValue histogram
  let threshold ← (ComputeOtsu.mk otsu2 (0 : K) true 1).compute histogram input.totalPixels
  toInt (K := K) U32 (threshold : K)

/-- `GlobalOtsuBinaryFilter::process`, binary_ops.h:256-259 -/
def globalOtsu (K : Type) [Field K] [LinearOrder K] [IsStrictOrderedRing K] [FloorRing K] (t : IntTy) (junk : Nat → Int)
    (minValue maxValue : Int) (down : Bool) (input output : Gray) : M Int Gray := do
  let thr ← computeOtsu K t junk input minValue maxValue false
  threshold (fun a b => decide (a ≤ b)) (fun a b => decide (b < a)) b2i 0 input (t.cast thr) down output

end ThresholdOps
end Boof
