import Verif.Spec.Image
import Verif.Spec.Blocks
/-
Vocabulary for comparing two runs of a threshold filter on two pictures.
-/
namespace Boof

/-- Two results of size `w × ht` show the same picture. -/
def SamePicture {V : Type} (h1 : Heap V) (g1 : Gray) (h2 : Heap V) (g2 : Gray) (w ht : Nat) : Prop :=
  ∀ x y, x < w → y < ht → ∃ v, h1.px g1 x y = some v ∧ h2.px g2 x y = some v

/-- Arguments the local mean threshold can be used with: an input showing `f`, an output and two images for storage, all of them
usable and apart; `n` is the width of the local region. -/
structure LocalArgs {V : Type} (h : Heap V) (input output s1 s2 : Gray) (n : Nat) (f : Nat → Nat → V) : Prop where
  inputValid : input.Valid h
  outputValid : output.Valid h
  firstValid : s1.Valid h
  secondValid : s2.Valid h
  shows : input.Shows h f
  canBe : output.CanBe input.width input.height
  firstCanBe : s1.CanBe input.width input.height
  secondCanBe : s2.CanBe input.width input.height
  sep : input.Sep output input.width input.height
  firstSep : input.Sep s1 input.width input.height
  secondSep : input.Sep s2 input.width input.height
  apart : s1.buf ≠ output.buf ∧ s2.buf ≠ output.buf ∧ s2.buf ≠ s1.buf
  width : input.width + (n + 1) ≤ 2147483648
  height : input.height + (n + 1) ≤ 2147483648
  length : input.dataLength < 2147483648
  secondLength : s2.dataLength < 2147483648
  /-- the shapes for which the mean blur is defined (C54) -/
  shape : 2 * (n / 2) + 1 ≤ input.height ∨ input.width < 2 * (n / 2) + 1

end Boof
