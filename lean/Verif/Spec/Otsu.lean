import Mathlib.Algebra.Order.Field.Basic
import Mathlib.Algebra.Order.Floor.Ring
import Verif.Spec.Sum
/-
Otsu's criterion.  A histogram is a function `hist` on the levels `0 .. n-1`; a split at level `i` puts the levels `<= i`
in one class and the others in the second one.
-/
namespace Boof
namespace OtsuSpec
variable {K : Type} [Field K]

/-- Pixels with a level `<= i`, `> i`. -/
def below (hist : Nat → Int) (i : Nat) : Int := sumN (i+1) hist
def above (n : Nat) (hist : Nat → Int) (i : Nat) : Int := sumN (n - (i+1)) (fun k => hist (i + 1 + k))

/-- Both classes contain pixels. -/
def IsSplit (n : Nat) (hist : Nat → Int) (i : Nat) : Prop := i < n ∧ 0 < below hist i ∧ 0 < above n hist i

/-- Mean level of the two classes. -/
def meanBelow (hist : Nat → Int) (i : Nat) : K := ((sumN (i+1) (fun k => k * hist k) : Int) : K) / (below hist i : Int)
def meanAbove (n : Nat) (hist : Nat → Int) (i : Nat) : K :=
  ((sumN (n - (i+1)) (fun k => ((i + 1 + k : Nat) : Int) * hist (i + 1 + k)) : Int) : K) / (above n hist i : Int)

/-- Between-class variance of the split (times the square of the number of pixels, the same for all splits). -/
def variance (n : Nat) (hist : Nat → Int) (i : Nat) : K :=
  (below hist i : Int) * (above n hist i : Int) * (meanBelow hist i - meanAbove n hist i) ^ 2

variable [LinearOrder K]

/-- `t` is the first split with maximal between-class variance, or 0 if there is no split. -/
def IsOtsu (K : Type) [Field K] [LinearOrder K] (n : Nat) (hist : Nat → Int) (t : Nat) : Prop :=
  (IsSplit n hist t ∧ (∀ j, IsSplit n hist j → (variance n hist j : K) ≤ variance n hist t) ∧
    (∀ j, IsSplit n hist j → j < t → (variance n hist j : K) < variance n hist t)) ∨
  ((∀ j, ¬IsSplit n hist j) ∧ t = 0)

/-- The threshold before any adjustment, for the split `t`: the split itself, or the mid-point of the class means; and the
between-class variance with levels scaled to `0 .. 1`.  Both are 0 if there is no split. -/
def IsRaw (otsu2 : Bool) (n : Nat) (hist : Nat → Int) (t : Nat) (raw var : K) : Prop :=
  (IsSplit n hist t → raw = (if otsu2 then (meanBelow hist t + meanAbove n hist t) / 2 else (t : K)) ∧
    var = variance n hist t / (n : K) ^ 2) ∧
  (¬IsSplit n hist t → raw = 0 ∧ var = 0)

/-- The penalty for low texture: large when the two classes hardly differ, 0 when the tuning is 0. -/
def penalty [FloorRing K] (tuning raw var : K) : Int := ⌊(tuning * raw) ^ 2 / (var + 1/1000) + 1/2⌋

/-- The threshold is moved by the penalty such that fewer pixels are selected: down if pixels below it are selected, up
otherwise; it is not moved below 0. -/
def moved [FloorRing K] (down : Bool) (tuning raw var : K) : K :=
  max (if down then raw - penalty tuning raw var else raw + penalty tuning raw var) 0

end OtsuSpec
end Boof
