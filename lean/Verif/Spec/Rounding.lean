import Mathlib.Algebra.Order.Field.Basic
import Verif.Spec.Blur
import Verif.Spec.Otsu
/-
Rounding errors.
-/
namespace Boof
variable {K : Type} [Field K] [LinearOrder K]

/-- A rounding with relative error `u`, and absolute error `η` near zero, of numbers up to `big`. -/
structure Rounds (rnd : K → Option K) (u η big : K) : Prop where
  rel : 0 ≤ u
  abs : 0 ≤ η
  near : ∀ x, |x| ≤ big → ∃ y, rnd x = some y ∧ |y - x| ≤ u * |x| + η

/-- All natural numbers up to `n` are numbers of the format. -/
def ExactTo (rnd : K → Option K) (n : Nat) : Prop := ∀ i : Nat, i ≤ n → rnd (i : K) = some (i : K)

/-- The numbers of a binary format with `p` significant bits and smallest positive number `2^-q` (whatever their size). -/
def Representable (p q : Nat) (x : K) : Prop := ∃ m e : Int, |m| < 2 ^ p ∧ -(q : Int) ≤ e ∧ x = (m : K) * (2 : K) ^ e

/-- How large a number of magnitude `A` can become by `n` roundings one after the other, with `m` roundings altogether. -/
def grown (u η : K) (n m : Nat) (A : K) : K := (1 + u) ^ n * (A + m * η)

/-- The error: for small `u` and `η` about `(n*u)*A + m*η`. -/
def roundError (u η : K) (n m : Nat) (A : K) : K := grown u η n m A - A

/-- Error of a weighted average, before the quotient is rounded: `m` samples of magnitude at most `M` with weights whose sum
is `C`. -/
def avgError (u η : K) (m : Nat) (C M : K) : K :=
  (roundError u η (m + 1) (2 * m) (C * M) + M * roundError u η m m C) / (C - roundError u η m m C)

/-- The numbers in such an average do not overflow, and the computed weight is not zero. -/
structure AvgFits (u η big : K) (m : Nat) (C M : K) : Prop where
  weight : roundError u η m m C < C
  weights : grown u η m m C ≤ big
  total : grown u η (m + 1) (2 * m) (C * M) ≤ big
  quotient : M + avgError u η m C M ≤ big

/-- Error of a weighted average. -/
def avgBound (u η : K) (m : Nat) (C M : K) : K := (1 + u) * avgError u η m C M + u * M + η

/-- Error of the average of the samples within distance `r` of sample `x` in a line of `n` samples of magnitude at most `M`,
when `c` stands for `1/(2r+1)`.  Away from the ends of the line running sums are used, if at all (`slides`). -/
def meanBound (u η c : K) (slides : Bool) (r n x : Nat) (M : K) : K :=
  if slides = true ∧ r ≤ x ∧ x + r < n then roundError u η (2 * x + 2) (2 * x + 2) M
  else avgBound u η (localCount r n x) (c * (localCount r n x : K)) M

/-- The numbers in these averages do not overflow. -/
structure MeanFits (u η big c : K) (r n : Nat) (M : K) : Prop where
  slides : 2 * r + 1 ≤ n → grown u η (2 * n) (2 * n) (((2 * r + 1 : Nat) : K) * M) ≤ big
  avg : ∀ x, x < n → AvgFits u η big (localCount r n x) (c * (localCount r n x : K)) M

/-- The roundings are fine enough for Otsu's method with `n` levels and `T` pixels, and nothing overflows. -/
structure OtsuFits (rnd : K → Option K) (u η big : K) (n T : Nat) : Prop where
  rounds : Rounds rnd u η big
  fine : (6 * n + 28) * u * T ≤ 1
  tiny : 6 * n * T * η ≤ u
  range : 3 * (T : K) ^ 2 ≤ big
  levels : 4 * (n : K) ≤ big
  small : 4000 * η ≤ 1

/-- The roundings are so fine that the two class means of a split, which are at least one level apart, are recognised as different. -/
structure OtsuSharp (u η : K) (n T : Nat) : Prop where
  fine : (6 * n + 28) * u * T * (2 * n) ≤ 1
  tiny : 32 * (n : K) ^ 2 * η ≤ 1

/-- How far a computed between-class variance can be from the exact one (levels scaled to `0 .. 1`, variance times the square of the number of
pixels). -/
def otsuError (u : K) (n T : Nat) : K := (18 * n + 90) * u * (T : K) ^ 2

/-- Otsu's criterion up to an error `E`: the split `t` is at a level that occurs, and its between-class variance is maximal up to `E`; or `t` is 0 and
no split has a variance above `E`. -/
def NearOtsu (E : K) (n : Nat) (hist : Nat → Int) (t : Nat) : Prop :=
  (OtsuSpec.IsSplit n hist t ∧ 0 < hist t ∧ ∀ j, OtsuSpec.IsSplit n hist j → OtsuSpec.variance n hist j ≤ OtsuSpec.variance n hist t + E) ∨
  (t = 0 ∧ ∀ j, OtsuSpec.IsSplit n hist j → OtsuSpec.variance n hist j ≤ E)

/-- Numbers of the format are not changed by rounding. -/
def Idempotent (rnd : K → Option K) : Prop := ∀ x y, rnd x = some y → rnd y = some y

/-- What all floating point formats have in common: rounding keeps order and sign, and numbers of the format, 0 and 1 among them, are not
changed. -/
structure Format (rnd : K → Option K) : Prop where
  mono : ∀ x y a b, x ≤ y → rnd x = some a → rnd y = some b → a ≤ b
  neg : ∀ x a, rnd x = some a → rnd (-x) = some (-a)
  fixed : Idempotent rnd
  zero : rnd 0 = some 0
  one : rnd 1 = some 1

end Boof
