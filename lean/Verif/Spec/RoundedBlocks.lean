import Verif.Spec.Tuned
import Verif.Spec.Blocks
/-
Block threshold filters computed with rounding.
-/
namespace Boof
variable {K : Type} [Field K] [LinearOrder K] [IsStrictOrderedRing K] [FloorRing K]

/-- Multiples of 1/2 up to `n/2` are numbers of the format. -/
def HalvesTo (rnd : K → Option K) (n : Nat) : Prop := ∀ i : Nat, i ≤ n → rnd ((i : K) / 2) = some ((i : K) / 2)

/-- `s/n` rounded to the nearest integer, halves up (`s` not negative). -/
def nearest (s : Int) (n : Nat) : Int := (2 * s + n) / (2 * n)

/-- Sum of the pixels of block `(i,j)`. -/
def blockSum (w ht req : Nat) (f : Nat → Nat → Int) (i j : Nat) : Int :=
  rectSum f (Grid.lo w req i) (Grid.hi w req i) (Grid.lo ht req j) (Grid.hi ht req j)

/-- Number of the pixels of block `(i,j)`. -/
def blockArea (w ht req : Nat) (i j : Nat) : Nat := (Grid.hi w req i - Grid.lo w req i) * (Grid.hi ht req j - Grid.lo ht req j)

/-- Rounding errors of a scaled mean of size `m`. -/
def scaledError (u η m : K) : K := 10 * u * (m + 1) + 4 * η

/-- The threshold `r` is what Otsu's method with tuning and scale gives for `T` pixels on `n` levels, up to rounding in double precision: a
split with maximal between-class variance up to one millionth of a level squared, moved by a penalty `p` and scaled. -/
def NearTuned (K : Type) [Field K] [LinearOrder K] (otsu2 down : Bool) (tuning scale : K) (n T : Nat) (hist : Nat → Int) (r : Int) : Prop :=
  ∃ (t : Nat) (raw var : K) (p : Int),
    ((OtsuSpec.IsSplit n hist t ∧ 0 < hist t ∧
        ∀ j, OtsuSpec.IsSplit n hist j → (OtsuSpec.variance n hist j : K) ≤ OtsuSpec.variance n hist t + (T : K) ^ 2 / 10 ^ 6) ∨
      (t = 0 ∧ ∀ j, ¬OtsuSpec.IsSplit n hist j)) ∧
    OtsuSpec.IsRaw otsu2 n hist t raw var ∧ 0 ≤ p ∧ 0 ≤ r ∧
    |(p : K) - OtsuSpec.texture tuning raw var| ≤ 51/100 + OtsuSpec.texture tuning raw var / 1000 ∧
    |(r : K) - scale * max (if down then raw - p else raw + p) 0| ≤ 51/100 + scale * (raw + OtsuSpec.texture tuning raw var) / 5000 ∧
    (otsu2 = false → scale = 1 → r = max (if down then (t : Int) - p else t + p) 0)

end Boof
