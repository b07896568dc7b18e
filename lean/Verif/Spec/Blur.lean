import Verif.Spec.Kernel
import Verif.Cpp.Core
/-
Local averages along a line.
-/
namespace Boof

/-- Number of samples within distance `r` of sample `x` in a line of `n`. -/
def localCount (r n x : Nat) : Nat := min n (x + r + 1) - (x - r)

/-- Sum of the samples within distance `r` of sample `x` in a line of `n`. -/
def localSum {K : Type} [Zero K] [Add K] (r n : Nat) (v : Nat → K) (x : Nat) : K :=
  sumF (localCount r n x) (fun i => v (x - r + i))

/-- The average of these samples, rounded the way the library does: half the count is added before an integer division. -/
def roundedMean (t : IntTy) (r n : Nat) (v : Nat → Int) (x : Nat) : Int :=
  t.cast ((localSum r n v x + (localCount r n x : Int).tdiv 2).tdiv (localCount r n x))

/-- The average of these samples. -/
def exactMean {K : Type} [Field K] (r n : Nat) (v : Nat → K) (x : Nat) : K := localSum r n v x / (localCount r n x : K)

/-- The image blurred with the mean over squares of radius `r`: along the rows first, then along the columns. -/
def meanImage (t : IntTy) (r w h : Nat) (f : Nat → Nat → Int) (x y : Nat) : Int :=
  roundedMean t r h (fun j => roundedMean t r w (fun i => f i j) x) y

def meanImageK {K : Type} [Field K] (r w h : Nat) (f : Nat → Nat → K) (x y : Nat) : K :=
  exactMean r h (fun j => exactMean r w (fun i => f i j) x) y

end Boof
