import Verif.Spec.Image
import Verif.Spec.Blur
import Verif.Spec.Convolve
/-
Mirrored and transposed pictures.
-/
namespace Boof
variable {V : Type}

/-- Position `i` in a line of `n`, counted from the other end if `b`. -/
def mirrorIf (b : Bool) (n i : Nat) : Nat := if b then n - 1 - i else i

/-- The picture of size `w × ht`, mirrored left to right if `a` and upside down if `b`; with both it is turned by half a turn. -/
def mirrored (a b : Bool) (w ht : Nat) (f : Nat → Nat → V) (x y : Nat) : V := f (mirrorIf a w x) (mirrorIf b ht y)

/-- Rows and columns exchanged. -/
def transposed (f : Nat → Nat → V) (x y : Nat) : V := f y x

/-- In memory `h`, `input` shows `f`, and together with `output` and `storage` it can be given to a blur with a window of `n` pixels. -/
structure BlurCall (h : Heap V) (input output storage : Gray) (f : Nat → Nat → V) (n : Nat) : Prop where
  valid : input.Valid h
  outputValid : output.Valid h
  storageValid : storage.Valid h
  shows : input.Shows h f
  outputShape : output.CanBe input.width input.height
  storageShape : storage.CanBe input.width input.height
  outputApart : input.Sep output input.width input.height
  storageApart : input.Sep storage input.width input.height
  apart : storage.buf ≠ output.buf
  widthBound : input.width + n ≤ 2147483648
  heightBound : input.height + n ≤ 2147483648
  lengthBound : input.dataLength < 2147483648
  storageBound : storage.dataLength < 2147483648

/-- The pixels of a picture of size `w × ht` fit type `t`, have magnitude at most `P`, and sums of `n` of them fit the type of sums. -/
structure FitsSums (t : IntTy) (w ht : Nat) (f : Nat → Nat → Int) (n : Nat) (P : Int) : Prop where
  nonneg : 0 ≤ P
  bound : P ≤ t.hi
  pixels : ∀ x y, x < w → y < ht → t.InRange (f x y) ∧ |f x y| ≤ P
  sums : (n : Int) * (P + 1) ≤ t.signedType.hi

end Boof
