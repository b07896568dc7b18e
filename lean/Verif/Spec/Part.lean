import Verif.Spec.Image
import Verif.Spec.Convolve
/-
Parts of pictures.
-/
namespace Boof
variable {V : Type}

/-- The picture `g` of size `w × ht` is the part of the picture `f` of size `W × H` whose upper left corner is `(ox, oy)`. -/
structure PartOf (w ht : Nat) (g : Nat → Nat → V) (ox oy W H : Nat) (f : Nat → Nat → V) : Prop where
  width : ox + w ≤ W
  height : oy + ht ≤ H
  same : ∀ x y, x < w → y < ht → g x y = f (ox + x) (oy + y)

/-- A line of `n` samples is the part of a line of `N` which begins at `o`.  At position `x` the samples from `before` before `x` to `after` after
`x` are the same in both lines: each of the two ends of this range lies in the part, or the part ends where the line ends. -/
def SeesSame (before after n o N x : Nat) : Prop := (before ≤ x ∨ o = 0) ∧ (x + after < n ∨ o + n = N)

/-- In memory `h`, `input` shows `f`, and together with `output` it can be given to a convolution with a kernel of width `n`. -/
structure ConvolveCall (h : Heap V) (input output : Gray) (f : Nat → Nat → V) (n : Nat) : Prop where
  valid : input.Valid h
  outputValid : output.Valid h
  shows : input.Shows h f
  outputShape : output.CanBe input.width input.height
  outputApart : input.Sep output input.width input.height
  widthBound : input.width + n ≤ 2147483648
  heightBound : input.height + n ≤ 2147483648

end Boof
