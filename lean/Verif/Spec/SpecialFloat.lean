import Verif.Model.SpecialFloat
import Verif.Spec.Convolve
/-
What convolutions and the mean blur should give for values which may be infinite or not-a-number.
-/
namespace Boof
variable {K : Type} [Field K] [LinearOrder K] [IsStrictOrderedRing K] [FloorRing K]
namespace FP

/-- `s + v₀ + v₁ + …`, `n` values added from the left. -/
def total (rnd : K → Option K) (s : FP K) : Nat → (Nat → FP K) → FP K
  | 0, _ => s
  | n + 1, v => add rnd (total rnd s n v) (v n)

/-- `0 + c₀ v₀ + c₁ v₁ + …`, `n` products. -/
def dot (rnd : K → Option K) (n : Nat) (c v : Nat → FP K) : FP K := total rnd (num 0) n (fun k => mul rnd (c k) (v k))

/-- The same over a square of `n` columns, `m` rows at a time. -/
def box (rnd : K → Option K) (n : Nat) (c v : Nat → Nat → FP K) : Nat → FP K
  | 0 => num 0
  | m + 1 => total rnd (box rnd n c v m) n (fun k => mul rnd (c k m) (v k m))

/-- The running sum of `kw` values: from each to the next the value at the left end is subtracted and the one which comes in at
the right end added. -/
def running (rnd : K → Option K) (kw : Nat) (v : Nat → FP K) : Nat → FP K
  | 0 => total rnd (num 0) kw v
  | p + 1 => add rnd (sub rnd (running rnd kw v p) (v p)) (v (p + kw))

/-- The coefficient of the averaging kernel of width `kw`. -/
def meanCoef (rnd : K → Option K) (kw : Nat) : FP K := div rnd (num 1) (total rnd (num 0) kw (fun _ => num 1))

/-- The average of the part of the window of radius `r` around `x` which is inside a line of `n` values. -/
def localMean (rnd : K → Option K) (r n : Nat) (v : Nat → FP K) (x : Nat) : FP K :=
  let k0 := firstIn r x
  let m := lastIn (2 * r + 1) r n x - k0
  div rnd (dot rnd m (fun _ => meanCoef rnd (2 * r + 1)) (fun i => v (x + (k0 + i) - r)))
    (total rnd (num 0) m (fun _ => meanCoef rnd (2 * r + 1)))

/-- The mean blur of a line of `n` values: the running sum divided by the width of the window where the window fits in the
line and the line uses running sums, the average of the part of the window in the line elsewhere. -/
def meanLine (rnd : K → Option K) (slides : Bool) (r n : Nat) (v : Nat → FP K) (x : Nat) : FP K :=
  if slides = true ∧ r ≤ x ∧ x + r < n then
    div rnd (running rnd (2 * r + 1) v (x - r)) (round rnd ((2 * r + 1 : Nat) : K))
  else localMean rnd r n v x

end FP
end Boof
