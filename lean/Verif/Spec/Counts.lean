import Verif.Spec.Sum
/-
Vocabulary for C120.
-/
namespace Boof

/-- In the two pictures, of sizes `w × h` and `w' × h'`, every value occurs equally often. -/
def SamePixels (w h : Nat) (f : Nat → Nat → Int) (w' h' : Nat) (g : Nat → Nat → Int) : Prop :=
  ∀ v, pixelCount w h f v = pixelCount w' h' g v

end Boof
