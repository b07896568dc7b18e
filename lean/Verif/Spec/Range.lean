import Verif.Spec.Convolve
/-
Keeping the range of the pixels.
-/
namespace Boof

/-- The sample `r` lies between any bounds of the pixels `f i j` with `near i j`, and is `a` if all of these are `a`.  Integral pixels are
rounded `n` times, which raises a negative upper bound by at most one each time, never above zero, see `C52_range_refuted`; the constant must
not be negative. -/
def KeepsRange (n : Nat) (near : Nat → Nat → Prop) (f : Nat → Nat → Int) (r : Int) : Prop :=
  (∀ lo hi, (∀ i j, near i j → lo ≤ f i j ∧ f i j ≤ hi) →
    lo ≤ r ∧ (0 ≤ hi → r ≤ hi) ∧ (hi < 0 → r ≤ hi + n ∧ r ≤ 0)) ∧
  ∀ a, 0 ≤ a → (∀ i j, near i j → f i j = a) → r = a

/-- The same for numbers of a field, without restriction. -/
def KeepsRangeK {K : Type} [LE K] (near : Nat → Nat → Prop) (f : Nat → Nat → K) (r : K) : Prop :=
  (∀ lo hi, (∀ i j, near i j → lo ≤ f i j ∧ f i j ≤ hi) → lo ≤ r ∧ r ≤ hi) ∧
  ∀ a, (∀ i j, near i j → f i j = a) → r = a

/-- Pixel `i` of a line of `n` is at distance at most `r` from pixel `x`. -/
def Near (r n x i : Nat) : Prop := i < n ∧ x ≤ i + r ∧ i ≤ x + r

end Boof
