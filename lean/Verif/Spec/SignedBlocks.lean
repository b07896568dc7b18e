import Verif.Spec.Blocks
/-
What the block mean filter compares the pixels of a signed 16-bit image with.
-/
namespace Boof

/-- The quotient of a sum modulo 2^32 and a count, kept in 16 bits with sign. -/
def wrappedMean (s : Int) (n : Nat) : Int := (s % 4294967296 / n + 32768) % 65536 - 32768

/-- Sum of the statistics of the blocks that determine the threshold of block `(i,j)`, and their number. -/
def aroundSum (u : Bool) (w ht req : Nat) (S : Nat → Nat → Int) (i j : Nat) : Int :=
  rectSum S (Grid.first u i) (Grid.last u w req i + 1) (Grid.first u j) (Grid.last u ht req j + 1)
def aroundCount (u : Bool) (w ht req i j : Nat) : Nat :=
  (Grid.last u w req i + 1 - Grid.first u i) * (Grid.last u ht req j + 1 - Grid.first u j)

end Boof
