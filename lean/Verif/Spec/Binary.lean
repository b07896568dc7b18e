/-
Specification of the binary image operations on pictures `Nat → Nat → Int`.
-/
namespace Boof

/-- Every pixel of the `w × h` picture is 0 or 1. -/
def IsBinary (w h : Nat) (f : Nat → Nat → Int) : Prop := ∀ x y, x < w → y < h → f x y = 0 ∨ f x y = 1

/-- The pixel and its four neighbours. -/
def Cross4 (f : Nat → Nat → Int) (x y : Nat) (v : Int) : Prop :=
  v = f x y ∨ v = f (x-1) y ∨ v = f (x+1) y ∨ v = f x (y-1) ∨ v = f x (y+1)

/-- Not in the one-pixel frame. -/
def Interior (w h x y : Nat) : Prop := 1 ≤ x ∧ x + 1 < w ∧ 1 ≤ y ∧ y + 1 < h

instance (w h x y : Nat) : Decidable (Interior w h x y) := inferInstanceAs (Decidable (_ ∧ _ ∧ _ ∧ _))

end Boof
