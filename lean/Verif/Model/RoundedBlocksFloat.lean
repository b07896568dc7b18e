import Verif.Model.BlocksFloat
import Verif.Model.RoundedBlocks
/-
The block mean and min-max filters for images of `float` with rounded arithmetic (threshold_block_filters.h).  `rnd x = none` is overflow, outside
the model: the theorems have hypotheses that exclude it.
-/
namespace Boof
variable {K : Type} [Field K] [LinearOrder K]

/-- The operations of `ThresholdBlockMean<F32>`, 185-274: the additions in 228 and 263, `sum/(number of blocks)` in 231 and
`scale*sum/(width*height)` in 270; the integers are converted to `float`. -/
def roundMeanF (rnd : K → Option K) (scale : K) : MeanOps K where
  zero := 0
  add a b := (rnd (a + b)).getD 0
  scaled s n := ((do
    let p ← rnd (scale * s)
    let b ← rnd (n : K)
    rnd (p / b)) : Option K).getD 0
  divide s n := ((do
    let b ← rnd (n : K)
    rnd (s / b)) : Option K).getD 0
  le a b := decide (a ≤ b)
  bit b := if b then 1 else 0

/-- The operations of `ThresholdBlockMinMax<F32>`, 397-500: `max-min` in 468 and `scale*((max+min)/2)` in 472. -/
def roundMinMaxF (rnd : K → Option K) (scale huge tiny : K) : MinMaxOps K where
  huge := huge
  tiny := tiny
  sub a b := (rnd (a - b)).getD 0
  mid a b := ((do
    let s ← rnd (a + b)
    let m ← rnd (s / 2)
    rnd (scale * m)) : Option K).getD 0
  bit b := if b then 1 else 0

end Boof
