import Verif.Spec.Image
/-
Where each border looks for a coordinate outside `0..n-1`.
-/
namespace Boof

/-- Nearest coordinate. -/
def clampTo (n : Nat) (x : Int) : Nat := (max 0 (min x (n - 1))).toNat

/-- Mirror without repeating the edge: the sequence `0,1,…,n-1,n-2,…,1` of period `2(n-1)`. -/
def mirrorTo (n : Nat) (x : Int) : Nat :=
  let m := (x % (2 * ((n:Int) - 1))).toNat
  if n ≤ 1 then 0 else if m < n then m else 2 * (n - 1) - m

/-- Periodic. -/
def wrapTo (n : Nat) (x : Int) : Nat := (x % (n : Int)).toNat

/-- One reflection only, at the edge the coordinate lies beyond. -/
def mirrorOnce (n : Nat) (x : Int) : Int := if x < 0 then -x else if (n : Int) ≤ x then 2 * n - 2 - x else x

/-- One period only. -/
def wrapOnce (n : Nat) (x : Int) : Int := if x < 0 then x + n else if (n : Int) ≤ x then x - n else x

/-- A coordinate of type `int32_t`. -/
def IsS32 (x : Int) : Prop := -2147483648 ≤ x ∧ x < 2147483648

end Boof
