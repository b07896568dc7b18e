import Mathlib.Algebra.Field.Basic
import Verif.Model.Kernel
/-
What a kernel holds.
-/
namespace Boof
variable {S K : Type}

/-- `k` is a 1D kernel of `w` coefficients `c 0 .. c (w-1)` with origin `o`. -/
structure Kernel.Is1D (k : Kernel S) (w o : Nat) (c : Nat → S) : Prop where
  width : k.width = w
  offset : k.offset = o
  size : k.data.size = w
  coef : ∀ i, i < w → k.data.data[i]? = some (c i)

/-- `k` is a `w × w` kernel with coefficient `c x y` in column `x`, row `y`, and origin `o`. -/
structure Kernel.Is2D (k : Kernel S) (w o : Nat) (c : Nat → Nat → S) : Prop where
  width : k.width = w
  offset : k.offset = o
  size : k.data.size = w * w
  coef : ∀ x y, x < w → y < w → k.data.data[y * w + x]? = some (c x y)

/-- `f 0 + ... + f (n-1)` in any number system. -/
def sumF {K : Type} [Zero K] [Add K] : Nat → (Nat → K) → K
  | 0, _ => 0
  | n+1, f => sumF n f + f n

/-- The largest and smallest magnitude of `w` coefficients. -/
def IsAbsMax {K : Type} [LinearOrder K] [AddGroup K] (w : Nat) (c : Nat → K) (m : K) : Prop :=
  (∃ i, i < w ∧ |c i| = m) ∧ ∀ i, i < w → |c i| ≤ m
def IsAbsMin {K : Type} [LinearOrder K] [AddGroup K] (w : Nat) (c : Nat → K) (m : K) : Prop :=
  (∃ i, i < w ∧ |c i| = m) ∧ ∀ i, i < w → m ≤ |c i|

end Boof
