import Verif.Spec.Rounding
import Verif.Spec.Otsu
/-
Otsu's threshold with tuning and scale, computed with rounding.
-/
namespace Boof
variable {K : Type} [Field K] [LinearOrder K]

namespace OtsuSpec
/-- The penalty for low texture before it is rounded to an integer (`penalty` of Spec/Otsu is the nearest integer). -/
def texture (tuning raw var : K) : K := (tuning * raw) ^ 2 / (var + 1/1000)
end OtsuSpec

/-- The roundings are fine enough for a tuning and a scale with thresholds up to `N`, and nothing overflows. -/
structure TuneFits (rnd : K → Option K) (u η big tuning scale N : K) : Prop where
  rounds : Rounds rnd u η big
  fine : 2 ^ 40 * u ≤ 1
  tiny : 4000 * ((|tuning| + 1) * (N + 1) + scale) * η ≤ u
  range : 4 * ((|tuning| + 1) * (N + 1)) ^ 2 ≤ big
  ints : 2 ^ 33 ≤ big

/-- The relative error of the computed between-class variance with `n` levels and `T` pixels. -/
def tuneError (u : K) (n T : Nat) : K := (18 * n + 84) * n * u * T

/-- No intermediate result leaves the range of `int`. -/
def TuneRange (otsu2 : Bool) (tuning scale : K) (n : Nat) (hist : Nat → Int) : Prop :=
  scale ≤ 2 ^ 28 ∧ ∀ t raw var, OtsuSpec.IsSplit n hist t → OtsuSpec.IsRaw otsu2 n hist t raw var →
    OtsuSpec.texture tuning raw var ≤ 2 ^ 28 ∧ scale * (raw + OtsuSpec.texture tuning raw var + 1) ≤ 2 ^ 28

end Boof
