import Verif.Spec.Part
import Verif.Spec.Symmetry
/-
Pictures which wrap around, moved.
-/
namespace Boof
variable {V : Type}

/-- The picture of size `w × ht`, moved by `a` columns to the left and `b` rows up; what leaves at one edge comes back at the other. -/
def turned (a b w ht : Nat) (f : Nat → Nat → V) (x y : Nat) : V := f ((x + a) % w) ((y + b) % ht)

/-- The sum of all pixels. -/
def total {K : Type} [Zero K] [Add K] (w ht : Nat) (f : Nat → Nat → K) : K := sumF ht (fun y => sumF w (fun x => f x y))

end Boof
