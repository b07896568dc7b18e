import Verif.Model.NativeFilter
import Verif.Spec.Native
import Verif.Spec.Blocks
import Verif.Spec.Otsu
import Verif.Spec.Blur
/-
What a native filter should do over its whole life, in terms of Java images and arrays only.  `java` are the arrays of the Java
program.
-/
namespace Boof
variable {V : Type}

/-- A call Java can make: usable images of one size in two different arrays. -/
structure FilterCall.Ok (java : Nat → Prop) (h : Heap V) (c : FilterCall) : Prop where
  input : c.input.Ok h
  output : c.output.Ok h
  apart : c.input.data ≠ c.output.data
  width : c.output.width = c.input.width
  height : c.output.height = c.input.height
  inJava : ∀ a, c.input.data = some a → java a
  outJava : ∀ a, c.output.data = some a → java a

/-- Java sees no difference between the two states. -/
def JavaSame (java : Nat → Prop) (s s' : Jvm V) : Prop :=
  s'.pins = s.pins ∧ ∀ b, java b → s'.heap.get b = s.heap.get b

/-- The only difference Java sees is that the image `j` shows `F` now. -/
structure JavaWrites (java : Nat → Prop) (s s' : Jvm V) (j : JImage) (F : Nat → Nat → V) : Prop where
  pins : s'.pins = s.pins
  shows : j.Shows s'.heap F
  arrays : ∀ b, java b → ∃ l l', s.heap.get b = some l ∧ s'.heap.get b = some l' ∧ l'.length = l.length ∧
    ∀ i, (∀ x y : Nat, (x : Int) < j.width → (y : Int) < j.height → ¬(j.data = some b ∧ i = j.addr x y)) → l'[i]? = l[i]?

/-- Java sees one call after the other do what it should: `P c f F` says that `F` is a correct result of call `c` when the input
image shows `f`. -/
inductive Served (java : Nat → Prop) (P : FilterCall → (Nat → Nat → V) → (Nat → Nat → V) → Prop) :
    List FilterCall → Jvm V → Jvm V → Prop
  | nil (s : Jvm V) : Served java P [] s s
  | cons {c : FilterCall} {cs : List FilterCall} {s s1 s2 : Jvm V} :
    (∀ f, c.input.Shows s.heap f → ∃ F, P c f F ∧ JavaWrites java s s1 c.output F) →
    Served java P cs s1 s2 → Served java P (c :: cs) s s2

/-- The whole life of a filter: making it and destroying it changes nothing Java can see, and in between each call does what it
should. -/
def LifeOf (java : Nat → Prop) (P : FilterCall → (Nat → Nat → V) → (Nat → Nat → V) → Prop) (cs : List FilterCall)
    (s s' : Jvm V) : Prop :=
  ∃ s0 s1, JavaSame java s s0 ∧ Served java P cs s0 s1 ∧ JavaSame java s1 s'

/-- The arrays of Java exist and hold bytes. -/
def JavaBytes (java : Nat → Prop) (h : Heap Int) : Prop :=
  ∀ b, java b → ∃ l, h.get b = some l ∧ ∀ v ∈ l, 0 ≤ v ∧ v ≤ 255

end Boof

namespace Boof
open OtsuSpec
section
variable {K : Type} [Field K] [LinearOrder K] [IsStrictOrderedRing K] [FloorRing K]

/-- `F` is the picture in which the pixels `(x,y)` of the call's images with `sel x y` are 1 and the others 0. -/
def FilterCall.Marks (c : FilterCall) (F : Nat → Nat → Int) (sel : Nat → Nat → Prop) : Prop :=
  ∀ x y : Nat, (x : Int) < c.input.width → (y : Int) < c.input.height → (sel x y → F x y = 1) ∧ (¬sel x y → F x y = 0)

/-- Global threshold: marked are the pixels at most (`down`) or above the threshold. -/
def FixedResult (threshold : K) (down : Bool) (c : FilterCall) (f F : Nat → Nat → Int) : Prop :=
  c.Marks F (fun x y => if down then (f x y : K) ≤ threshold else threshold < (f x y : K))

/-- Global Otsu threshold for levels `0 .. 255`. -/
def OtsuResult (K : Type) [Field K] [LinearOrder K] (down : Bool) (c : FilterCall) (f F : Nat → Nat → Int) : Prop :=
  ∃ v : Nat, IsOtsu K 256 (fun k => pixelCount c.input.width.toNat c.input.height.toNat f k) v ∧
    c.Marks F (fun x y => if down then f x y ≤ v else v < f x y)

/-- `req` pixels are requested for an image of `w × ht` pixels: the configured length, rounded to the nearest integer.  A
fraction, when there is one, is relative to the shorter side, and the length is the smallest value then. -/
def Requested (length : ConfigLength K) (w ht req : Nat) : Prop :=
  ∃ s : K, (0 ≤ length.fraction → s = max (length.fraction * (min w ht : Nat)) length.length) ∧
    (length.fraction < 0 → s = length.length) ∧ (req : K) - 1/2 ≤ s ∧ s < req + 1/2

/-- Local mean: marked are the pixels which are at most (`down`) the mean of the pixels around them times the scale, or which times the
scale are above the mean.  The mean is taken over squares of radius half the configured width. -/
def LocalMeanResult (width : ConfigLength K) (scale : K) (down : Bool) (c : FilterCall) (f F : Nat → Nat → Int) : Prop :=
  ∃ n, Requested width c.input.width.toNat c.input.height.toNat n ∧
    c.Marks F (fun x y =>
      let m : K := (meanImage U8 (n / 2) c.input.width.toNat c.input.height.toNat f x y : Int)
      if down then (f x y : K) ≤ m * scale else m < (f x y : K) * scale)

/-- The request can be met by the images of the call. -/
def FilterCall.Blocks (c : FilterCall) (length : ConfigLength K) (req : Nat) : Prop :=
  Requested length c.input.width.toNat c.input.height.toNat req ∧ 1 ≤ req ∧ (req : Int) ≤ c.input.width ∧ (req : Int) ≤ c.input.height

/-- Block mean: the statistic of a block is its mean times the scale, rounded; the threshold is the mean of the statistics around
the block. -/
def BlockMeanResult (length : ConfigLength K) (scale : K) (down useLocal : Bool) (c : FilterCall) (f F : Nat → Nat → Int) : Prop :=
  ∃ req, c.Blocks length req ∧
    let w := c.input.width.toNat
    let ht := c.input.height.toNat
    let stat := fun i j => ⌊scale * ((rectSum f (Grid.lo w req i) (Grid.hi w req i) (Grid.lo ht req j) (Grid.hi ht req j) : Int) : K) /
      (((Grid.hi w req i - Grid.lo w req i) * (Grid.hi ht req j - Grid.lo ht req j) : Nat) : K) + 1/2⌋
    c.Marks F (fun x y => (f x y ≤ localMean useLocal w ht req stat (Grid.blockOf w req x) (Grid.blockOf ht req y)) ↔ down = true)

/-- Block min-max: pixels in blocks with little spread are marked; otherwise the threshold is the middle of the extremes around the
block times the scale. -/
def BlockMinMaxResult (length : ConfigLength K) (scale : K) (down : Bool) (minimumSpread : K) (useLocal : Bool) (c : FilterCall)
    (f F : Nat → Nat → Int) : Prop :=
  ∃ req, c.Blocks length req ∧
    let w := c.input.width.toNat
    let ht := c.input.height.toNat
    c.Marks F (fun x y => ∃ mn mx : Int,
      let i := Grid.blockOf w req x
      let j := Grid.blockOf ht req y
      IsRectMin f (localLo useLocal w req i) (localHi useLocal w req i) (localLo useLocal ht req j) (localHi useLocal ht req j) mn ∧
      IsRectMax f (localLo useLocal w req i) (localHi useLocal w req i) (localLo useLocal ht req j) (localHi useLocal ht req j) mx ∧
      (((mx - mn : Int) : K) ≤ minimumSpread ∨ ((f x y : K) ≤ scale * (((mx + mn) / 2 : Int) : K) ↔ down = true)))

/-- Block Otsu: the threshold of a block is Otsu's for the pixels around it, adjusted as the tuning and scale say. -/
def BlockOtsuResult (otsu2 : Bool) (length : ConfigLength K) (tuning scale : K) (down useLocal : Bool) (c : FilterCall)
    (f F : Nat → Nat → Int) : Prop :=
  ∃ req, c.Blocks length req ∧
    let w := c.input.width.toNat
    let ht := c.input.height.toNat
    c.Marks F (fun x y => ∃ (t : Nat) (raw var : K),
      let i := Grid.blockOf w req x
      let j := Grid.blockOf ht req y
      let hist := fun k : Nat => rectCount f k (localLo useLocal w req i) (localHi useLocal w req i) (localLo useLocal ht req j)
        (localHi useLocal ht req j)
      IsOtsu K 256 hist t ∧ IsRaw otsu2 256 hist t raw var ∧
      (f x y ≤ ⌊scale * moved down tuning raw var + 1/2⌋ ↔ down = true))

end
end Boof
