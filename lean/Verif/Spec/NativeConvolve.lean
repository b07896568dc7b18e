import Verif.Model.NativeConvolve
import Verif.Spec.Native
import Verif.Spec.Convolve
import Mathlib.Algebra.Order.Floor.Ring
/-
What a convolution called from Java should compute, in terms of the Java kernel and the Java border.
-/
namespace Boof
variable {V S : Type}

/-- A Java 1D kernel with coefficients `c`, origin `o`. -/
structure JKernel.Ok1D (j : JKernel S) (kw o : Nat) (c : Nat → S) : Prop where
  width : j.width = kw
  offset : j.offset = o
  inside : o < kw
  length : j.data.length = kw
  coef : ∀ i, i < kw → j.data[i]? = some (c i)

/-- A Java 2D kernel with coefficient `c x y` in column `x`, row `y`. -/
structure JKernel.Ok2D (j : JKernel S) (kw o : Nat) (c : Nat → Nat → S) : Prop where
  width : j.width = kw
  offset : j.offset = o
  inside : o < kw
  length : j.data.length = kw * kw
  coef : ∀ x y, x < kw → y < kw → j.data[y * kw + x]? = some (c x y)

/-- Where a rule for one axis looks up the coordinate `x` of an axis with `n` pixels. -/
def JRule.look (n : Nat) (x : Int) : JRule → Nat
  | .extend => clampTo n x
  | .reflect => mirrorTo n x
  | .wrap => wrapTo n x
  | .other => x.toNat

/-- How far outside an axis a rule is supported. -/
def JRule.Reach (n before after : Nat) : JRule → Prop
  | .extend => True
  | .reflect => before + 1 ≤ n ∧ after + 1 ≤ n
  | .wrap => before ≤ n ∧ after ≤ n
  | .other => False

/-- The picture a Java border gives outside the image: each axis has its own rule. -/
def JBorder.ext [Zero V] (jb : JBorder V) (w h : Nat) (f : Nat → Nat → V) (x y : Int) : V :=
  match jb with
  | .value v => if 0 ≤ x ∧ x < w ∧ 0 ≤ y ∧ y < h then f x.toNat y.toNat else v
  | .rules r c => f (r.look w x) (c.look h y)
  | .other => 0

/-- Borders for which the rows of an image `n` wide can be convolved: the value zero, or a rule for rows which reaches. -/
def JBorder.RowsOk [Zero V] (jb : JBorder V) (n before after : Nat) : Prop :=
  match jb with
  | .value v => v = 0
  | .rules r _ => r.Reach n before after
  | .other => False

/-- Borders with one rule for both axes. -/
def JBorder.Uniform (jb : JBorder V) : Prop :=
  match jb with
  | .rules r c => r = c
  | _ => True

/-- Output pixel type of an integer convolution. -/
def OutputType (bits : Int) (r : IntTy) : Prop := (bits = 16 ∧ r = S16) ∨ (bits = 32 ∧ r = S32)

/-- The kernel a Java caller of the Gaussian blur asks for: `kw` coefficients of standard deviation `s`.  One of `sigma` and
`radius` may be left open with a value which is not positive. -/
inductive JavaGaussian {K : Type} [Field K] [LinearOrder K] [FloorRing K] (sigma : K) (radius : Int) : Nat → K → Prop
  /-- both are given -/
  | both (hs : 0 < sigma) (hr : 0 < radius) : JavaGaussian sigma radius (2 * radius.toNat + 1) sigma
  /-- the radius is chosen from `sigma` -/
  | sigma (hs : 0 < sigma) (hr : radius ≤ 0) : JavaGaussian sigma radius (2 * (⌈(5 * sigma - 1) / 2⌉ : Int).toNat + 1) sigma
  /-- `sigma` is chosen from the radius -/
  | radius (hs : sigma ≤ 0) (hr : 0 < radius) : JavaGaussian sigma radius (2 * radius.toNat + 1) ((2 * (radius.toNat : K) + 1) / 5)

end Boof
