import Verif.Model.Print
/-
What printed pictures, kernels and comparisons look like.
-/
namespace Boof
variable {V S : Type}

/-- One line per row of the picture, an `X` where `far` holds and a dash elsewhere. -/
def differenceText (w ht : Nat) (far : Nat → Nat → Bool) : Text :=
  (List.range ht).flatMap (fun y => (List.range w).map (fun x => if far x y then 'X' else '-') ++ ['\n'])

/-- The size, then one line per row in brackets, every pixel followed by a space, then an empty line. -/
def imageText (w ht : Nat) (pix : Nat → Nat → Text) : Text :=
  "image ".toList ++ Nat.toDigits 10 w ++ " x ".toList ++ Nat.toDigits 10 ht ++ "\n".toList ++
  (List.range ht).flatMap (fun y => "[ ".toList ++ (List.range w).flatMap (fun x => pix x y ++ " ".toList) ++ "]\n".toList) ++
  "\n".toList

/-- All coefficients of a one dimensional kernel on one line. -/
def kernel1DText (w : Nat) (coef : Nat → Text) : Text :=
  "Kernel1D[".toList ++ (List.range w).flatMap (fun i => " ".toList ++ coef i) ++ " ]\n".toList

/-- Offset and width, then one line per row of the kernel. -/
def kernel2DText (w o : Nat) (coef : Nat → Nat → Text) : Text :=
  "Kernel2D{ offset=".toList ++ Nat.toDigits 10 o ++ ", width=".toList ++ Nat.toDigits 10 w ++ " }\n".toList ++
  (List.range w).flatMap (fun y => " ".toList ++ (List.range w).flatMap (fun x => " ".toList ++ coef x y) ++ "\n".toList)

/-- The value of a digit, `0`-`9` or `a`-`f`. -/
def digitOf (c : Char) : Nat :=
  if c.isDigit then c.toNat - '0'.toNat else c.toNat - 'a'.toNat + 10

/-- The number written in base `b`. -/
def numberOf (b : Nat) (t : Text) : Nat := t.foldl (fun a c => a * b + digitOf c) 0

/-- Two pictures of `w × ht` pixels differ by at most `tol` at the pixels chosen by `sel`. -/
def Close [AddGroup V] [LinearOrder V] (w ht : Nat) (sel : Nat → Nat → Prop) (f g : Nat → Nat → V) (tol : V) : Prop :=
  ∀ x y, x < w → y < ht → sel x y → max (f x y - g x y) (g x y - f x y) ≤ tol

end Boof
