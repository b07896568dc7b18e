import Verif.Model.Rounded
import Verif.Model.Otsu
/-
`ComputeOtsu` (boofcv/binary_ops.cpp:97-193) and `ThresholdOps::computeOtsu` with rounded floating point arithmetic: as in Model/Otsu.lean, with every
operation on `double` followed by `rnd` (see Model/Rounded.lean).  Conversions of `uint32_t` and `int` to `double` are exact.  Infinities and NaN are
not modelled: an overflow and a division by zero are errors here.
-/
namespace Boof
open M
variable {K : Type} [Field K] [LinearOrder K] [IsStrictOrderedRing K] [FloorRing K] {V : Type}

namespace ComputeOtsu

/-- `sum + (i / dlength) * histogram[i]`, binary_ops.cpp:116, 132-133, 153 and 169-170. -/
def addR (rnd : K → Option K) (n i : Nat) (c : Int) (sum : K) : Option K :=
  (rnd ((i : K) / (n : K))).bind (fun f => (rnd (f * (c : K))).bind (fun p => rnd (sum + p)))

/-- The sum over all levels, binary_ops.cpp:113-116 and 150-153. -/
def totalR (rnd : K → Option K) (hist : GrowArray Int) : M V K :=
  loopS hist.size (0 : K) (fun i sum => do
    let c ← hist.get i
    opt (addR rnd hist.size i c sum))

/-- `mB`, `mF` and `varBetween`, binary_ops.cpp:135-139 and 172-176. -/
def classesR (rnd : K → Option K) (sum sumB : K) (wB wF : Nat) : Option (K × K × K) :=
  (rnd (sumB / (wB : K))).bind (fun mB =>
  (rnd (sum - sumB)).bind (fun d =>
  (rnd (d / (wF : K))).bind (fun mF =>
  (rnd (mB - mF)).bind (fun e =>
  (rnd ((wB : K) * (wF : K))).bind (fun p =>
  (rnd (p * e)).bind (fun q =>
  (rnd (q * e)).bind (fun v => some (mB, mF, v))))))))

/-- The scan over all splits, binary_ops.cpp:118-146 and 155-187. -/
def scanR (rnd : K → Option K) (hist : GrowArray Int) (sum : K) (totalPixels : Nat) : M V (Scan K) :=
  loopS hist.size (⟨0, 0, 0, 0, 0, 0, false⟩ : Scan K) (fun i s =>
    if s.done then pure s
    else do
      let c ← hist.get i
      let wB := wrap32 (s.wB + c.toNat)
      if wB = 0 then pure { s with wB := wB }
      else
        let wF := sub32 totalPixels wB
        if wF = 0 then pure { s with wB := wB, done := true }
        else do
          let sumB ← opt (addR rnd hist.size i c s.sumB)
          let m ← opt (classesR rnd sum sumB wB wF)
          if m.2.2 > s.variance then
            pure { s with wB := wB, sumB := sumB, variance := m.2.2, threshold := (i : K), selectedMB := m.1, selectedMF := m.2.1 }
          else pure { s with wB := wB, sumB := sumB })

/-- `computeOtsu`, binary_ops.cpp:112-147. -/
def computeOtsuR (rnd : K → Option K) (hist : GrowArray Int) (totalPixels : Nat) : M V (K × K) := do
  let sum ← totalR rnd hist
  let s ← scanR rnd hist sum totalPixels
  pure (s.threshold, s.variance)

/-- `computeOtsu2`, binary_ops.cpp:149-193. -/
def computeOtsu2R (rnd : K → Option K) (hist : GrowArray Int) (totalPixels : Nat) : M V (K × K) := do
  let sum ← totalR rnd hist
  let s ← scanR rnd hist sum totalPixels
  let m ← opt (rnd (s.selectedMB + s.selectedMF))
  let m ← opt (rnd ((hist.size : K) * m))
  let m ← opt (rnd (m / 2))
  pure (m, s.variance)

/-- `compute`, binary_ops.cpp:97-110. -/
def computeR (rnd : K → Option K) (o : ComputeOtsu K) (hist : GrowArray Int) (totalPixels : Nat) : M V Int := do
  let r : K × K ← (if o.useOtsu2 then computeOtsu2R rnd hist totalPixels else computeOtsuR rnd hist totalPixels)
  let m ← opt (rnd (1/1000))
  let variance ← opt (rnd (r.2 + m))
  let a ← opt (rnd (o.tuning * r.1))
  let a ← opt (rnd (a * o.tuning))
  let a ← opt (rnd (a * r.1))
  if variance = 0 then M.ub
  else do
    let a ← opt (rnd (a / variance))
    let a ← opt (rnd (a + 1/2))
    let adjustment ← toInt S32 a
    let delta ← (if o.down then S32.arith (-adjustment) else pure adjustment)
    let threshold ← opt (rnd (r.1 + (delta : K)))
    let s ← opt (rnd (o.scale * max threshold 0))
    let s ← opt (rnd (s + 1/2))
    toInt S32 s

end ComputeOtsu

namespace ThresholdOps

/-- `computeOtsu`, binary_ops.h:111-124, with rounding. -/
def computeOtsuR {K : Type} [Field K] [LinearOrder K] [IsStrictOrderedRing K] [FloorRing K] (rnd : K → Option K) (t : IntTy) (junk : Nat → Int)
    (input : Gray) (minValue maxValue : Int) (otsu2 : Bool) : M Int Int := do
  let r ← t.promote.arith (1 + maxValue)
  let r ← t.promote.arith (r - minValue)
  let range := toU32 r
  let histogram ← (match GrowArray.new (intElem U32 junk) range with
    | .ok _ a => (pure a : M Int (GrowArray Int))
    | _ => M.ub)
  let histogram ← ImageStatistics.histogram t input minValue histogram
  let threshold ← (ComputeOtsu.mk otsu2 (0 : K) true 1).computeR rnd histogram input.totalPixels
  toInt (K := K) U32 (threshold : K)

/-- `GlobalOtsuBinaryFilter::process`, binary_ops.h:256-259, with rounding. -/
def globalOtsuR {K : Type} [Field K] [LinearOrder K] [IsStrictOrderedRing K] [FloorRing K] (rnd : K → Option K) (t : IntTy) (junk : Nat → Int)
    (minValue maxValue : Int) (down : Bool) (input output : Gray) : M Int Gray := do
  let thr ← computeOtsuR rnd t junk input minValue maxValue false
  threshold (fun a b => decide (a ≤ b)) (fun a b => decide (b < a)) b2i 0 input (t.cast thr) down output

end ThresholdOps
end Boof
