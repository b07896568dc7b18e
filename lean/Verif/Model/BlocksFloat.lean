import Verif.Model.Blocks
/-
Block threshold filters for images of `float`, boofcv/threshold_block_filters.h: `ThresholdBlockMean<F32>`,
`ThresholdBlockMinMax<F32>` and `ThresholdBlockOtsu<F32>`.

The floating point operations are arbitrary functions of the right type, so the model is about the rounded arithmetic the
machine performs, whatever its rounding.  As in the other models the output image has cells of the same type as the input;
`bit` gives the cells that stand for the `U8` values 0 and 1.
-/
namespace Boof
open M
variable {V : Type}

/-! ### ThresholdBlockMean<F32>, 185-274 -/

/-- The floating point operations `ThresholdBlockMean<F32>` uses. -/
structure MeanOps (V : Type) where
  zero : V
  /-- `sum += v` -/
  add : V → V → V
  /-- `scale*sum/(width*height)` -/
  scaled : V → Nat → V
  /-- `sum/(number of blocks)` -/
  divide : V → Nat → V
  /-- `a <= b` -/
  le : V → V → Bool
  bit : Bool → V

namespace BlockMeanF

/-- `computeBlockStatistics`, 251-273; the pixel type is not integral, so 270 applies. -/
def blockStats (A : MeanOps V) (stats : Interleaved) (x0 y0 width height indexStats : Nat) (input : Gray) : M V Unit := do
  let sum ← loopS height A.zero (fun y sum =>
    loopS width sum (fun k sum => do
      let v ← rd input.buf (wrap32 (input.offset + (y0 + y) * input.stride + x0) + k)
      pure (A.add sum v)))
  wr stats.buf indexStats (A.scaled sum (wrap32 (width * height)))

/-- `thresholdBlock`, 202-249 -/
def thresholdBlock (A : MeanOps V) (useLocal down : Bool) (b : Blocks) (blockX blockY : Nat) (input output : Gray) :
    M V Unit := do
  let (x0, x1) := Blocks.bounds blockX b.stats.width b.blockWidth input.width
  let (y0, y1) := Blocks.bounds blockY b.stats.height b.blockHeight input.height
  let (bx0, bx1) := Blocks.localRange useLocal blockX b.stats.width
  let (by0, by1) := Blocks.localRange useLocal blockY b.stats.height
  let sum ← loopS (by1 + 1 - by0) A.zero (fun j sum =>
    loopS (bx1 + 1 - bx0) sum (fun i sum => do
      let v ← rd b.stats.buf (b.stats.indexOf (bx0 + i) (by0 + j) 0)
      pure (A.add sum v)))
  let mean := A.divide sum (wrap32 ((by1 - by0 + 1) * (bx1 - bx0 + 1)))
  forRange y0 y1 (fun y => loop (x1 - x0) (fun k => do
    let v ← rd input.buf (wrap32 (input.offset + y * input.stride + x0) + k)
    wr output.buf (wrap32 (output.offset + y * output.stride + x0) + k) (A.bit (down == A.le v mean))))

def ops (A : MeanOps V) (useLocal down : Bool) : BlockOps V :=
  ⟨fun _ => pure (), blockStats A, thresholdBlock A useLocal down⟩

end BlockMeanF

/-! ### ThresholdBlockMinMax<F32>, 397-500 -/

/-- The floating point constants and operations `ThresholdBlockMinMax<F32>` uses.  Comparisons are those of the linear order
of `V`: not-a-number is left out. -/
structure MinMaxOps (V : Type) where
  /-- `std::numeric_limits<float>::max()` -/
  huge : V
  /-- `std::numeric_limits<float>::min()`, which is the smallest positive normalised number -/
  tiny : V
  /-- `max-min` -/
  sub : V → V → V
  /-- `scale*((max+min)/2)`, for `max` and `min` -/
  mid : V → V → V
  bit : Bool → V

namespace BlockMinMaxF
variable [LT V] [DecidableLT V] [LE V] [DecidableLE V]

/-- `computeBlockStatistics`, 479-499 -/
def blockStats (stats : Interleaved) (x0 y0 width height indexStats : Nat) (input : Gray) : M V Unit := do
  let v0 ← input.at' x0 y0
  let mm ← loopS height (v0, v0) (fun y mm =>
    loopS width mm (fun k mm => do
      let value ← rd input.buf (wrap32 (wrap32 (input.offset + (y0 + y) * input.stride + x0) + k))
      if value < mm.1 then pure (value, mm.2)
      else if value > mm.2 then pure (mm.1, value)
      else pure mm))
  wr stats.buf indexStats mm.1
  wr stats.buf (wrap32 (indexStats + 1)) mm.2

/-- `thresholdBlock`, 424-477.  `minimumSpread` is the `float` member; `sum_type` is `float`, so the conversions to it change
nothing. -/
def thresholdBlock (A : MinMaxOps V) (minimumSpread : V) (useLocal down : Bool) (b : Blocks) (blockX blockY : Nat)
    (input output : Gray) : M V Unit := do
  let (x0, x1) := Blocks.bounds blockX b.stats.width b.blockWidth input.width
  let (y0, y1) := Blocks.bounds blockY b.stats.height b.blockHeight input.height
  let (bx0, bx1) := Blocks.localRange useLocal blockX b.stats.width
  let (by0, by1) := Blocks.localRange useLocal blockY b.stats.height
  let mm ← loopS (by1 + 1 - by0) (A.huge, A.tiny) (fun j mm =>
    loopS (bx1 + 1 - bx0) mm (fun i mm => do
      let localMin ← b.stats.at' (bx0 + i) (by0 + j) 0
      let localMax ← b.stats.at' (bx0 + i) (by0 + j) 1
      pure (if localMin < mm.1 then localMin else mm.1, if localMax > mm.2 then localMax else mm.2)))
  forRange y0 y1 (fun y => loop (x1 - x0) (fun k => do
    if A.sub mm.2 mm.1 ≤ minimumSpread then
      wr output.buf (wrap32 (output.offset + y * output.stride + x0) + k) (A.bit true)
    else do
      let v ← rd input.buf (wrap32 (input.offset + y * input.stride + x0) + k)
      wr output.buf (wrap32 (output.offset + y * output.stride + x0) + k) (A.bit (down == decide (v ≤ A.mid mm.2 mm.1)))))

def ops (A : MinMaxOps V) (minimumSpread : V) (useLocal down : Bool) : BlockOps V :=
  ⟨fun _ => pure (), blockStats, thresholdBlock A minimumSpread useLocal down⟩

end BlockMinMaxF

/-! ### ThresholdBlockOtsu<F32>, 284-395 -/

/-- How `ThresholdBlockOtsu<F32>` looks at the cells of its three images.  The statistics image is an `Interleaved<S32>`; as in the
other models its cells, and those of the output, have the type of the pixels, and `count c` and `bit b` are the cells that stand
for the `S32` value `c` and the `U8` value `b`. -/
structure OtsuOps (V : Type) where
  /-- `(U8)v`; `none` where that conversion is undefined: the truncated value does not fit, or `v` is infinite or not a number -/
  toU8 : V → Option Int
  count : Int → V
  value : V → Int
  bit : Bool → V

namespace BlockOtsuF

/-- `(U8)v` -/
def convert (A : OtsuOps V) (v : V) : M V Int :=
  match A.toU8 v with
  | some u => pure u
  | none => M.ub

/-- `computeBlockStatistics`, 317-333 -/
def blockStats (A : OtsuOps V) (stats : Interleaved) (x0 y0 width height indexStats : Nat) (input : Gray) : M V Unit :=
  loop height (fun y => loop width (fun k => do
    let v ← rd input.buf (wrap32 (input.offset + (y0 + y) * input.stride + x0) + k)
    let u ← convert A v
    let c ← rd stats.buf (indexStats + u.toNat)
    let c ← S32.arith (A.value c + 1)
    wr stats.buf (indexStats + u.toNat) (A.count c)))

/-- `thresholdBlock`, 335-394.  The member `histogram` (256 entries) is zeroed first (357), so it is modelled as a local
array; `compute` is `ComputeOtsu::compute`. -/
def thresholdBlockWith (A : OtsuOps V) (compute : GrowArray Int → Nat → M V Int) (down useLocal : Bool) (b : Blocks) (blockX blockY : Nat) (input output : Gray) : M V Unit := do
  let (x0, x1) := Blocks.bounds blockX b.stats.width b.blockWidth input.width
  let (y0, y1) := Blocks.bounds blockY b.stats.height b.blockHeight input.height
  let (bx0, bx1) := Blocks.localRange useLocal blockX b.stats.width
  let (by0, by1) := Blocks.localRange useLocal blockY b.stats.height
  let hist ← loopS (by1 + 1 - by0) (List.replicate 256 (0 : Int)) (fun j hist =>
    let stat := b.stats.indexOf bx0 (by0 + j) 0
    loopS (bx1 + 1 - bx0) hist (fun k hist =>
      loopS 256 hist (fun i hist => do
        let v ← rd b.stats.buf (stat + (k * 256 + i))
        match hist[i]? with
        | some c => pure (hist.set i (U32.cast (c + A.value v)))
        | none => M.ub)))
  let total ← loopS 256 0 (fun i total =>
    match hist[i]? with
    | some c => pure (wrap32 (total + c.toNat))
    | none => M.ub)
  let threshold ← compute ⟨hist, 256, 0, true⟩ total
  forRange y0 y1 (fun y =>
    let indexInput := wrap32 (input.offset + y * input.stride + x0)
    let indexOutput := wrap32 (output.offset + y * output.stride + x0)
    let last := wrap32 (indexOutput + (x1 - x0))
    loop (last - indexOutput) (fun k => do
      let v ← rd input.buf (wrap32 (indexInput + k))
      let u ← convert A v
      wr output.buf (indexOutput + k) (A.bit (down == decide (u ≤ threshold)))))

/-- `computeStatistics` (312-315) zeroes the statistics image first. -/
def opsWith (A : OtsuOps V) (compute : GrowArray Int → Nat → M V Int) (down useLocal : Bool) : BlockOps V :=
  ⟨fun stats => ImageMiscOps.fill3 stats (A.count 0), blockStats A, thresholdBlockWith A compute down useLocal⟩

/-- ThresholdBlockOtsu<F32>, 290-395 -/
def ops {K : Type} [Field K] [LinearOrder K] [IsStrictOrderedRing K] [FloorRing K] (A : OtsuOps V) (otsu : ComputeOtsu K)
    (useLocal : Bool) : BlockOps V :=
  opsWith A otsu.compute otsu.down useLocal

end BlockOtsuF

end Boof
