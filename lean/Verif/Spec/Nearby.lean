import Verif.Spec.Blocks
import Verif.Spec.Symmetry
import Verif.Spec.Brightness
/-
Vocabulary for C118: what a threshold of a pixel may depend on.
-/
namespace Boof

/-- All blocks of a line have the same size. -/
def Grid.Even (n req : Nat) : Prop := Grid.count n req * Grid.size n req = n

/-- Pixel `x'` is in one of the blocks that determine the threshold of pixel `x` (its own, and with `u` the neighbouring ones). -/
def Grid.Sees (u : Bool) (n req x x' : Nat) : Prop :=
  localLo u n req (Grid.blockOf n req x) ≤ x' ∧ x' < localHi u n req (Grid.blockOf n req x)

/-- Two results of size `w × ht` are complementary binary pictures. -/
def Complementary (h1 : Heap Int) (g1 : Gray) (h2 : Heap Int) (g2 : Gray) (w ht : Nat) : Prop :=
  ∀ x y, x < w → y < ht → (h1.px g1 x y = some 0 ∧ h2.px g2 x y = some 1) ∨ (h1.px g1 x y = some 1 ∧ h2.px g2 x y = some 0)

end Boof
