import Mathlib.Analysis.Complex.Exponential
import Verif.Spec.Kernel
import Verif.Spec.Convolve
import Verif.Spec.Rounding
/-
The Gaussian kernel, and when a floating point format is fine enough to compute it.
-/
namespace Boof

/-- Value of the bell curve of standard deviation `sigma`, at its middle one, at coefficient `i` of a kernel of width `w`. -/
noncomputable def bell (sigma : ℝ) (w i : Nat) : ℝ := Real.exp (-(((i : ℝ) - ((w : ℝ) - 1) / 2) ^ 2 / (2 * sigma ^ 2)))

/-- The Gaussian kernel: the bell curve divided by the sum of its samples. -/
noncomputable def gaussCoef (sigma : ℝ) (w i : Nat) : ℝ := bell sigma w i / sumF w (bell sigma w)

/-- The roundings are fine enough for a Gaussian kernel of this width and standard deviation, and nothing overflows or underflows.  `ex` is the
exponential function of the library, `c` stands for the square root of 2 pi. -/
structure GaussFits (rnd rndE : ℝ → Option ℝ) (ex : ℝ → ℝ) (u η big c sigma : ℝ) (w : Nat) : Prop where
  rounds : Rounds rnd u η big
  roundsE : Rounds rndE u η big
  exp : ∀ x, x ≤ 1 → |ex x - Real.exp x| ≤ 2 * u * Real.exp x + η
  distances : ∀ i, i < w → rnd ((i : ℝ) - ((w : ℝ) - 1) / 2) = some ((i : ℝ) - ((w : ℝ) - 1) / 2)
  fine : 100 * ((w : ℝ) + 1) * u ≤ 1
  tiny : 4 * η ≤ u
  tiny1 : η ≤ u * sigma
  tiny2 : η ≤ u * sigma ^ 2
  tiny3 : η ≤ u * (sigma * c)
  tiny4 : 4 * (η * (sigma * c)) ≤ u
  range : 4 * (w : ℝ) ^ 2 ≤ big
  range1 : 4 * sigma ≤ big
  range2 : 4 * sigma ^ 2 ≤ big
  range3 : 2 * (sigma * c) ≤ big
  range4 : (w : ℝ) ^ 2 ≤ big * sigma ^ 2
  range5 : 4 * (w : ℝ) ≤ big * (sigma * c)

/-- The roundings are fine enough to blur pixels of magnitude at most `M` with a kernel of width `w`, and nothing overflows or underflows. -/
structure BlurFits (u η big : ℝ) (w : Nat) (M : ℝ) : Prop where
  fine : 1000 * ((w : ℝ) + 1) * u ≤ 1
  tiny : 4 * (w : ℝ) * η ≤ u
  tinyM : 4 * (w : ℝ) * η ≤ u * M
  range : 2 * (w : ℝ) ≤ big
  rangeM : 4 * (w : ℝ) * M ≤ big

/-- The image blurred with the Gaussian: the weighted averages of the rows, then those of the columns; at the edges, over the part of the kernel which
is inside. -/
noncomputable def gaussImage (sigma : ℝ) (w width height : Nat) (f : Nat → Nat → ℝ) (x y : Nat) : ℝ :=
  exactAvg w (w / 2) (gaussCoef sigma w) height (fun j => exactAvg w (w / 2) (gaussCoef sigma w) width (fun i => f i j) x) y

end Boof
