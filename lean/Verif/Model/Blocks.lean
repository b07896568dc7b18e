import Verif.Model.Config
import Verif.Model.Sanity
import Verif.Model.Otsu
/-
Block threshold filters, boofcv/threshold_block_filters.h.

A filter object is modelled by its mutable members `stats`, `blockWidth`, `blockHeight` and by its two virtual functions.
Floating point: configuration lengths, the texture limit and Otsu's computation are numbers of an ordered field `K`;
products and quotients of `float`s are arbitrary functions, so any rounding is allowed.
-/
namespace Boof
open M
variable {V : Type}

/-- Members of `ThresholdBlockCommon`, threshold_block_filters.h:37-48 (`requestedBlockWidth` and
`thresholdFromLocalBlocks` are passed separately). -/
structure Blocks where
  stats : Interleaved
  blockWidth : Nat
  blockHeight : Nat
deriving DecidableEq

/-- The virtual functions of `ThresholdBlockCommon`: `init` is what an override of `computeStatistics` does first,
`blockStats stats x0 y0 width height indexStats input` (152-154) and `thresholdBlock blocks blockX blockY input output`
(163). -/
structure BlockOps (V : Type) where
  init : Interleaved → M V Unit
  blockStats : Interleaved → Nat → Nat → Nat → Nat → Nat → Gray → M V Unit
  thresholdBlock : Blocks → Nat → Nat → Gray → Gray → M V Unit

namespace Blocks

/-- Integer division; by zero it is undefined. -/
def divM (a b : Nat) : M V Nat := if b = 0 then M.ub else pure (a / b)

/-- `selectBlockSize`, 93-100: (blockWidth, blockHeight). -/
def selectBlockSize (width height requested : Nat) : M V (Nat × Nat) := do
  let rows ← divM height requested
  let cols ← divM width requested
  let bh ← divM height rows
  let bw ← divM width cols
  pure (bw, bh)

/-- Number of iterations of `for (x = 0; x < n; x += step)`, `0 < step`, when `x` does not wrap around. -/
def steps (n step : Nat) : Nat := (n + step - 1) / step

/-- `computeStatistics`, 116-141.  `numBands` is `statPixelStride`. -/
def computeStatistics (ops : BlockOps V) (b : Blocks) (input : Gray) (innerWidth innerHeight : Nat) : M V Unit := do
  ops.init b.stats
  let nb := b.stats.numBands
  let index ← loopS (steps innerHeight b.blockHeight) 0 (fun j index => do
    let y := j * b.blockHeight
    let index ← loopS (steps innerWidth b.blockWidth) index (fun i index => do
      ops.blockStats b.stats (i * b.blockWidth) y b.blockWidth b.blockHeight index input
      pure (wrap32 (index + nb)))
    if innerWidth ≠ input.width then do
      ops.blockStats b.stats innerWidth y (sub32 input.width innerWidth) b.blockHeight index input
      pure (wrap32 (index + nb))
    else pure index)
  if innerHeight ≠ input.height then do
    let y := innerHeight
    let bh := sub32 input.height innerHeight
    let index ← loopS (steps innerWidth b.blockWidth) index (fun i index => do
      ops.blockStats b.stats (i * b.blockWidth) y b.blockWidth bh index input
      pure (wrap32 (index + nb)))
    if innerWidth ≠ input.width then
      ops.blockStats b.stats innerWidth y (sub32 input.width innerWidth) bh index input
    else pure ()
  else pure ()

/-- `applyThreshold`, 105-111 -/
def applyThreshold (ops : BlockOps V) (b : Blocks) (input output : Gray) : M V Unit :=
  loop b.stats.height (fun blockY => loop b.stats.width (fun blockX => ops.thresholdBlock b blockX blockY input output))

/-- The part of `process` after the requested width is known, 73-87.  `z` is the value of a fresh statistics cell. -/
def run (ops : BlockOps V) (z : V) (stats : Interleaved) (requested : Nat) (input output : Gray) : M V Blocks :=
  if input.width < requested ∨ input.height < requested then M.throw
  else do
    let bs ← selectBlockSize input.width input.height requested
    let sw ← divM input.width bs.1
    let sh ← divM input.height bs.2
    let stats ← stats.reshape z sw sh
    let innerWidth := if input.width % bs.1 = 0 then input.width
      else sub32 (sub32 input.width bs.1) (input.width % bs.1)
    let innerHeight := if input.height % bs.2 = 0 then input.height
      else sub32 (sub32 input.height bs.2) (input.height % bs.2)
    let b : Blocks := ⟨stats, bs.1, bs.2⟩
    computeStatistics ops b input innerWidth innerHeight
    applyThreshold ops b input output
    pure b

/-- `process`, 69-88 -/
def process {K : Type} [Field K] [LinearOrder K] [IsStrictOrderedRing K] [FloorRing K] (ops : BlockOps V) (z : V)
    (config : ConfigLength K) (stats : Interleaved) (input output : Gray) : M V Blocks := do
  checkSameShape2 input.width input.height output.width output.height
  let requested ← config.computeI ((min input.width input.height : Nat) : K)
  run ops z stats (toU32 requested) input output

/-- Pixel bounds (x0,x1) or (y0,y1) of a block, 204-208 (the same in 337-341 and 426-430). -/
def bounds (block n size total : Nat) : Nat × Nat :=
  (wrap32 (block * size), if block = sub32 n 1 then total else wrap32 ((block + 1) * size))

/-- Range of blocks (first, last) that contribute to the threshold of `block`, 211-221 (344-354, 433-443). -/
def localRange (useLocal : Bool) (block n : Nat) : Nat × Nat :=
  if useLocal then ((if block > 0 then block - 1 else 0), min (sub32 n 1) (wrap32 (block + 1))) else (block, block)

end Blocks

/-! ### ThresholdBlockMean, 185-274 -/
namespace BlockMean

/-- `computeBlockStatistics`, 251-273, integer pixel type `t`.  `scaled s n` is the `float` value of
`scale*s/n + 0.5f`. -/
def blockStats {K : Type} [Field K] [LinearOrder K] [IsStrictOrderedRing K] [FloorRing K] (t : IntTy)
    (scaled : Int → Nat → K) (stats : Interleaved) (x0 y0 width height indexStats : Nat) (input : Gray) : M Int Unit := do
  let sum ← loopS height (0 : Int) (fun y sum =>
    loopS width sum (fun k sum => do
      let v ← rd input.buf (wrap32 (input.offset + (y0 + y) * input.stride + x0) + k)
      t.sumType.arith (sum + v)))
  let s ← toInt t.sumType (scaled sum (wrap32 (width * height)))
  wr stats.buf indexStats (t.cast s)

/-- `thresholdBlock`, 202-249 -/
def thresholdBlock (t : IntTy) (useLocal down : Bool) (b : Blocks) (blockX blockY : Nat) (input output : Gray) :
    M Int Unit := do
  let (x0, x1) := Blocks.bounds blockX b.stats.width b.blockWidth input.width
  let (y0, y1) := Blocks.bounds blockY b.stats.height b.blockHeight input.height
  let (bx0, bx1) := Blocks.localRange useLocal blockX b.stats.width
  let (by0, by1) := Blocks.localRange useLocal blockY b.stats.height
  let sum ← loopS (by1 + 1 - by0) (0 : Int) (fun j sum =>
    loopS (bx1 + 1 - bx0) sum (fun i sum => do
      let v ← rd b.stats.buf (b.stats.indexOf (bx0 + i) (by0 + j) 0)
      t.sumType.arith (sum + v)))
  let mean ← ImageStatistics.divU32 t.sumType sum (wrap32 ((by1 - by0 + 1) * (bx1 - bx0 + 1)))
  let mean := t.cast mean
  forRange y0 y1 (fun y => loop (x1 - x0) (fun k => do
    let v ← rd input.buf (wrap32 (input.offset + y * input.stride + x0) + k)
    wr output.buf (wrap32 (output.offset + y * output.stride + x0) + k) (b2i (down == decide (v ≤ mean)))))

def ops {K : Type} [Field K] [LinearOrder K] [IsStrictOrderedRing K] [FloorRing K] (t : IntTy)
    (scaled : Int → Nat → K) (useLocal down : Bool) : BlockOps Int :=
  ⟨fun _ => pure (), blockStats t scaled, thresholdBlock t useLocal down⟩

end BlockMean

/-! ### ThresholdBlockMinMax, 397-500 -/
namespace BlockMinMax

/-- `computeBlockStatistics`, 479-499 -/
def blockStats (stats : Interleaved) (x0 y0 width height indexStats : Nat) (input : Gray) : M Int Unit := do
  let v0 ← input.at' x0 y0
  let mm ← loopS height (v0, v0) (fun y mm =>
    loopS width mm (fun k mm => do
      let value ← rd input.buf (wrap32 (wrap32 (input.offset + (y0 + y) * input.stride + x0) + k))
      if value < mm.1 then pure (value, mm.2)
      else if value > mm.2 then pure (mm.1, value)
      else pure mm))
  wr stats.buf indexStats mm.1
  wr stats.buf (wrap32 (indexStats + 1)) mm.2

/-- `a <= b` for a promoted pixel (or difference) `a` and `b` of `sum_type`: with an unsigned `sum_type` both are
converted to `uint32_t`. -/
def leSum (t : IntTy) (a b : Int) : Bool := if t.sumType.signed then decide (a ≤ b) else decide ((toU32 a : Int) ≤ b)

/-- `thresholdBlock`, 424-477.  `minimumSpread` is the `float` member, `scaleMul m` the `float` product `scale*m`. -/
def thresholdBlock {K : Type} [Field K] [LinearOrder K] [IsStrictOrderedRing K] [FloorRing K] (t : IntTy)
    (minimumSpread : K) (scaleMul : Int → K) (useLocal down : Bool) (b : Blocks) (blockX blockY : Nat)
    (input output : Gray) : M Int Unit := do
  let (x0, x1) := Blocks.bounds blockX b.stats.width b.blockWidth input.width
  let (y0, y1) := Blocks.bounds blockY b.stats.height b.blockHeight input.height
  let (bx0, bx1) := Blocks.localRange useLocal blockX b.stats.width
  let (by0, by1) := Blocks.localRange useLocal blockY b.stats.height
  let mm ← loopS (by1 + 1 - by0) (t.hi, t.lo) (fun j mm =>
    loopS (bx1 + 1 - bx0) mm (fun i mm => do
      let localMin ← b.stats.at' (bx0 + i) (by0 + j) 0
      let localMax ← b.stats.at' (bx0 + i) (by0 + j) 1
      pure (if localMin < mm.1 then localMin else mm.1, if localMax > mm.2 then localMax else mm.2)))
  let textureThreshold ← toInt t.sumType minimumSpread
  forRange y0 y1 (fun y => loop (x1 - x0) (fun k => do
    let d ← t.promote.arith (mm.2 - mm.1)
    if leSum t d textureThreshold then
      wr output.buf (wrap32 (output.offset + y * output.stride + x0) + k) 1
    else do
      let s ← t.promote.arith (mm.2 + mm.1)
      let average ← toInt t.sumType (scaleMul (s.tdiv 2))
      let v ← rd input.buf (wrap32 (input.offset + y * input.stride + x0) + k)
      wr output.buf (wrap32 (output.offset + y * output.stride + x0) + k) (b2i (down == leSum t v average))))

def ops {K : Type} [Field K] [LinearOrder K] [IsStrictOrderedRing K] [FloorRing K] (t : IntTy)
    (minimumSpread : K) (scaleMul : Int → K) (useLocal down : Bool) : BlockOps Int :=
  ⟨fun _ => pure (), blockStats, thresholdBlock t minimumSpread scaleMul useLocal down⟩

end BlockMinMax

/-! ### ThresholdBlockOtsu, 290-395 -/
namespace BlockOtsu

/-- `computeBlockStatistics`, 317-333 -/
def blockStats (stats : Interleaved) (x0 y0 width height indexStats : Nat) (input : Gray) : M Int Unit :=
  loop height (fun y => loop width (fun k => do
    let v ← rd input.buf (wrap32 (input.offset + (y0 + y) * input.stride + x0) + k)
    let c ← rd stats.buf (indexStats + (U8.cast v).toNat)
    let c ← S32.arith (c + 1)
    wr stats.buf (indexStats + (U8.cast v).toNat) c))

/-- `thresholdBlock`, 335-394.  The member `histogram` (256 entries) is zeroed first (357), so it is modelled as a local
array.  `compute` and `down` are the members of the same name of the `ComputeOtsu` object. -/
def thresholdBlockWith (compute : GrowArray Int → Nat → M Int Int) (down useLocal : Bool) (b : Blocks) (blockX blockY : Nat)
    (input output : Gray) : M Int Unit := do
  let (x0, x1) := Blocks.bounds blockX b.stats.width b.blockWidth input.width
  let (y0, y1) := Blocks.bounds blockY b.stats.height b.blockHeight input.height
  let (bx0, bx1) := Blocks.localRange useLocal blockX b.stats.width
  let (by0, by1) := Blocks.localRange useLocal blockY b.stats.height
  let hist ← loopS (by1 + 1 - by0) (List.replicate 256 (0 : Int)) (fun j hist =>
    let stat := b.stats.indexOf bx0 (by0 + j) 0
    loopS (bx1 + 1 - bx0) hist (fun k hist =>
      loopS 256 hist (fun i hist => do
        let v ← rd b.stats.buf (stat + (k * 256 + i))
        match hist[i]? with
        | some c => pure (hist.set i (U32.cast (c + v)))
        | none => M.ub)))
  let total ← loopS 256 0 (fun i total =>
    match hist[i]? with
    | some c => pure (wrap32 (total + c.toNat))
    | none => M.ub)
  let threshold ← compute ⟨hist, 256, 0, true⟩ total
  forRange y0 y1 (fun y =>
    let indexInput := wrap32 (input.offset + y * input.stride + x0)
    let indexOutput := wrap32 (output.offset + y * output.stride + x0)
    let last := wrap32 (indexOutput + (x1 - x0))
    loop (last - indexOutput) (fun k => do
      let v ← rd input.buf (wrap32 (indexInput + k))
      wr output.buf (indexOutput + k) (b2i (down == decide (U8.cast v ≤ threshold)))))

/-- `computeStatistics` (312-315) zeroes the statistics image first. -/
def opsWith (compute : GrowArray Int → Nat → M Int Int) (down useLocal : Bool) : BlockOps Int :=
  ⟨fun stats => ImageMiscOps.fill3 stats 0, blockStats, thresholdBlockWith compute down useLocal⟩

/-- With exact arithmetic. -/
def ops {K : Type} [Field K] [LinearOrder K] [IsStrictOrderedRing K] [FloorRing K] (otsu : ComputeOtsu K)
    (useLocal : Bool) : BlockOps Int := opsWith otsu.compute otsu.down useLocal

end BlockOtsu
end Boof
