import Verif.Spec.BlocksFloat
import Verif.Spec.RoundedBlocks
/-
Block threshold filters for images of `float` computed with rounding.
-/
namespace Boof
variable {K : Type} [Field K]

/-- `scale` times the mean of the pixels of block `(i,j)`. -/
def scaledMean (scale : K) (w ht req : Nat) (f : Nat → Nat → K) (i j : Nat) : K :=
  scale * rectSumK f (Grid.lo w req i) (Grid.hi w req i) (Grid.lo ht req j) (Grid.hi ht req j) / blockArea w ht req i j

/-- Number of the blocks that determine the threshold of block `(i,j)`. -/
def groupSize (u : Bool) (w ht req : Nat) (i j : Nat) : Nat :=
  (Grid.last u w req i + 1 - Grid.first u i) * (Grid.last u ht req j + 1 - Grid.first u j)

/-- Mean of the values `S` of the blocks that determine the threshold of block `(i,j)`. -/
def groupMean (u : Bool) (w ht req : Nat) (S : Nat → Nat → K) (i j : Nat) : K :=
  rectSumK S (Grid.first u i) (Grid.last u w req i + 1) (Grid.first u j) (Grid.last u ht req j + 1) / groupSize u w ht req i j

end Boof
