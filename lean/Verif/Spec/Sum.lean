/-
Finite sums and counts over an image.
-/
namespace Boof

/-- `f 0 + ... + f (n-1)` -/
def sumN : Nat → (Nat → Int) → Int
  | 0, _ => 0
  | n+1, f => sumN n f + f n

/-- Sum of all pixels of a `w × h` picture. -/
def pixelSum (w h : Nat) (f : Nat → Nat → Int) : Int := sumN h (fun y => sumN w (fun x => f x y))

/-- Number of pixels of a `w × h` picture with value `v`. -/
def pixelCount (w h : Nat) (f : Nat → Nat → Int) (v : Int) : Int :=
  pixelSum w h (fun x y => if f x y = v then 1 else 0)

end Boof
