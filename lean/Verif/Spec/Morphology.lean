import Verif.Spec.Image
import Verif.Spec.Binary
import Verif.Model.BinaryOps
/-
Erosion and dilation of sets of points of the plane, and sequences of calls which erode and dilate images.
-/
namespace Boof

/-- Number of steps to a direct neighbour which lead from one point to another. -/
def steps (x y i j : Int) : Nat := (x - i).natAbs + (y - j).natAbs

/-- Points of which all points at most one step away belong to `A`. -/
def eroded (A : Int → Int → Prop) (x y : Int) : Prop := ∀ i j, steps x y i j ≤ 1 → A i j

/-- Points at most one step away from a point of `A`. -/
def dilated (A : Int → Int → Prop) (x y : Int) : Prop := ∃ i j, steps x y i j ≤ 1 ∧ A i j

/-- One of the two operations. -/
inductive Morph where
  | erode
  | dilate

def Morph.on (m : Morph) (A : Int → Int → Prop) : Int → Int → Prop :=
  match m with
  | .erode => eroded A
  | .dilate => dilated A

/-- The operations of a list one after the other, the first one first. -/
def morphed : List Morph → (Int → Int → Prop) → Int → Int → Prop
  | [], A => A
  | m :: ms, A => morphed ms (m.on A)

/-- Erosions followed by as many dilations. -/
def opening (n : Nat) : List Morph := List.replicate n .erode ++ List.replicate n .dilate
/-- Dilations followed by as many erosions. -/
def closing (n : Nat) : List Morph := List.replicate n .dilate ++ List.replicate n .erode

/-- The function of the library. -/
def Morph.call (m : Morph) (input output : Gray) : M Int Gray :=
  match m with
  | .erode => BinaryImageOps.erode4 input output
  | .dilate => BinaryImageOps.dilate4 input output

/-- Starting in memory `h` with image `i`, the library is called for each operation of the list, always on the image of the last call and with some
valid output image apart from it; in the end the memory is `h'` and the result is `o`. -/
inductive Calls : List Morph → Heap Int → Gray → Heap Int → Gray → Prop
  | done (h : Heap Int) (i : Gray) : Calls [] h i h i
  | call {m : Morph} {ms : List Morph} {h h₁ h' : Heap Int} {i u j o : Gray} (valid : u.Valid h) (shape : u.CanBe i.width i.height)
      (apart : i.Sep u i.width i.height) (run : m.call i u h = .ok j h₁) (rest : Calls ms h₁ j h' o) : Calls (m :: ms) h i h' o

/-- Pixels at least `n` pixels away from the frame of a picture of size `w × ht`. -/
def Deep (n w ht x y : Nat) : Prop := n ≤ x ∧ x + n < w ∧ n ≤ y ∧ y + n < ht

/-- A picture of zeros and ones shows the set `A`. -/
def ShowsSet (w ht : Nat) (f : Nat → Nat → Int) (A : Int → Int → Prop) : Prop :=
  ∀ x y : Nat, x < w → y < ht → (f x y = 0 ∨ f x y = 1) ∧ (f x y = 1 ↔ A x y)

end Boof
