import Verif.Spec.Blocks
import Verif.Spec.Kernel
/-
Block threshold filters for images of `float`.
-/
namespace Boof
variable {V : Type}

/-- `step 0`, then `step 1`, ..., then `step (n-1)`. -/
def foldN {β : Type} (step : Nat → β → β) : Nat → β → β
  | 0, b => b
  | n+1, b => step n (foldN step n b)

/-- The values `f x y` over `x0 <= x < x1`, `y0 <= y < y1` added up in reading order with the addition `add`, which may
round. -/
def rectFold (add : V → V → V) (z : V) (f : Nat → Nat → V) (x0 x1 y0 y1 : Nat) : V :=
  foldN (fun y s => foldN (fun x s => add s (f (x0 + x) (y0 + y))) (x1 - x0) s) (y1 - y0) z

/-- The exact sum. -/
def rectSumK {K : Type} [Zero K] [Add K] (f : Nat → Nat → K) (x0 x1 y0 y1 : Nat) : K :=
  sumF (y1 - y0) (fun y => sumF (x1 - x0) (fun x => f (x0 + x) (y0 + y)))

/-- Value stored for block `(i,j)`: the sum of its pixels, divided by their number and scaled. -/
def meanStatF (add : V → V → V) (z : V) (scaled : V → Nat → V) (w ht req : Nat) (f : Nat → Nat → V) (i j : Nat) : V :=
  scaled (rectFold add z f (Grid.lo w req i) (Grid.hi w req i) (Grid.lo ht req j) (Grid.hi ht req j))
    ((Grid.hi w req i - Grid.lo w req i) * (Grid.hi ht req j - Grid.lo ht req j))

/-- Mean of the values of the blocks that determine the threshold of block `(i,j)`. -/
def localMeanF (add : V → V → V) (z : V) (divide : V → Nat → V) (u : Bool) (w ht req : Nat) (S : Nat → Nat → V)
    (i j : Nat) : V :=
  divide (rectFold add z S (Grid.first u i) (Grid.last u w req i + 1) (Grid.first u j) (Grid.last u ht req j + 1))
    ((Grid.last u w req i + 1 - Grid.first u i) * (Grid.last u ht req j + 1 - Grid.first u j))

end Boof
