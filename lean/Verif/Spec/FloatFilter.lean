import Verif.Spec.NativeFilter
import Verif.Spec.BlocksFloat
/-
What a native filter for `GrayF32` images should do over its whole life.
-/
namespace Boof
section
variable {K V : Type} [Field K] [LinearOrder K] [IsStrictOrderedRing K] [FloorRing K]

/-- `F` is the picture in which the pixels `(x,y)` of the call's images with `sel x y` are `one` and the others `zero`. -/
def FilterCall.MarksV (c : FilterCall) (zero one : V) (F : Nat → Nat → V) (sel : Nat → Nat → Prop) : Prop :=
  ∀ x y : Nat, (x : Int) < c.input.width → (y : Int) < c.input.height → (sel x y → F x y = one) ∧ (¬sel x y → F x y = zero)

/-- Global threshold: marked are the pixels at most (`down`) or above the threshold. -/
def FixedResultF (threshold : K) (down : Bool) (c : FilterCall) (f F : Nat → Nat → K) : Prop :=
  c.MarksV 0 1 F (fun x y => if down then f x y ≤ threshold else threshold < f x y)

/-- Global Otsu threshold: `v` is Otsu's split of the histogram with levels of width 1 from `lo` to `hi`, and marked are the pixels at
most (`down`) or above `v`. -/
def OtsuResultF (lo hi : K) (down : Bool) (c : FilterCall) (f F : Nat → Nat → K) : Prop :=
  ∃ v : Nat, OtsuSpec.IsOtsu K (⌊hi - lo⌋.toNat + 1)
      (fun k => pixelCount c.input.width.toNat c.input.height.toNat (fun x y => ⌊f x y - lo⌋) k) v ∧
    c.MarksV 0 1 F (fun x y => if down then f x y ≤ v else v < f x y)

/-- Local mean: marked are the pixels which are at most (`down`) the mean of the pixels around them times the scale, or which times
the scale are above the mean. -/
def LocalMeanResultF (width : ConfigLength K) (scale : K) (down : Bool) (c : FilterCall) (f F : Nat → Nat → K) : Prop :=
  ∃ n, Requested width c.input.width.toNat c.input.height.toNat n ∧
    c.MarksV 0 1 F (fun x y =>
      let m : K := meanImageK (n / 2) c.input.width.toNat c.input.height.toNat f x y
      if down then f x y ≤ m * scale else m < f x y * scale)

/-- Block mean, with sums as the machine rounds them. -/
def BlockMeanResultF (zero : V) (add : V → V → V) (scaled divide : V → Nat → V) (le : V → V → Bool) (bit : Bool → V)
    (length : ConfigLength K) (down useLocal : Bool) (c : FilterCall) (f F : Nat → Nat → V) : Prop :=
  ∃ req, c.Blocks length req ∧
    let w := c.input.width.toNat
    let ht := c.input.height.toNat
    c.MarksV (bit false) (bit true) F (fun x y =>
      le (f x y) (localMeanF add zero divide useLocal w ht req (meanStatF add zero scaled w ht req f)
        (Grid.blockOf w req x) (Grid.blockOf ht req y)) = down)

/-- Every group of blocks that determines a threshold has a pixel which is at least `tiny`. -/
def BrightBlocks [LE V] (tiny : V) (useLocal : Bool) (w ht req : Nat) (f : Nat → Nat → V) : Prop :=
  ∀ i j, i < Grid.count w req → j < Grid.count ht req → ∃ x y, localLo useLocal w req i ≤ x ∧ x < localHi useLocal w req i ∧
    localLo useLocal ht req j ≤ y ∧ y < localHi useLocal ht req j ∧ tiny ≤ f x y

/-- Block min-max: pixels in blocks with little spread are marked; otherwise the threshold is `mid` of the extremes around the
block.  Nothing is said about images with a group of blocks that has no pixel from `tiny` on. -/
def BlockMinMaxResultF [LE V] (tiny : V) (sub mid : V → V → V) (bit : Bool → V) (length : ConfigLength K) (down : Bool)
    (minimumSpread : V) (useLocal : Bool) (c : FilterCall) (f F : Nat → Nat → V) : Prop :=
  ∃ req, c.Blocks length req ∧
    let w := c.input.width.toNat
    let ht := c.input.height.toNat
    BrightBlocks tiny useLocal w ht req f →
    c.MarksV (bit false) (bit true) F (fun x y => ∃ mn mx : V,
      let i := Grid.blockOf w req x
      let j := Grid.blockOf ht req y
      IsRectMin f (localLo useLocal w req i) (localHi useLocal w req i) (localLo useLocal ht req j) (localHi useLocal ht req j) mn ∧
      IsRectMax f (localLo useLocal w req i) (localHi useLocal w req i) (localLo useLocal ht req j) (localHi useLocal ht req j) mx ∧
      (sub mx mn ≤ minimumSpread ∨ (f x y ≤ mid mx mn ↔ down = true)))

/-- Block Otsu: the threshold of a block is Otsu's for the pixels around it, converted to 8-bit numbers and adjusted as the tuning and
scale say; marked are the pixels whose conversion is at most (`down`) or above it. -/
def BlockOtsuResultF (toU8 : V → Option Int) (bit : Bool → V) (otsu2 : Bool) (length : ConfigLength K) (tuning scale : K)
    (down useLocal : Bool) (c : FilterCall) (f F : Nat → Nat → V) : Prop :=
  ∃ req, ∃ p : Nat → Nat → Int, c.Blocks length req ∧
    (∀ x y : Nat, (x : Int) < c.input.width → (y : Int) < c.input.height → toU8 (f x y) = some (p x y)) ∧
    let w := c.input.width.toNat
    let ht := c.input.height.toNat
    c.MarksV (bit false) (bit true) F (fun x y => ∃ (t : Nat) (raw var : K),
      let i := Grid.blockOf w req x
      let j := Grid.blockOf ht req y
      let hist := fun k : Nat => rectCount p k (localLo useLocal w req i) (localHi useLocal w req i) (localLo useLocal ht req j)
        (localHi useLocal ht req j)
      OtsuSpec.IsOtsu K 256 hist t ∧ OtsuSpec.IsRaw otsu2 256 hist t raw var ∧
      (p x y ≤ ⌊scale * OtsuSpec.moved down tuning raw var + 1/2⌋ ↔ down = true))

/-- The elements of the arrays of Java can be converted to numbers from 0 to 255. -/
def JavaConverts (java : Nat → Prop) (toU8 : V → Option Int) (h : Heap V) : Prop :=
  ∀ b l, java b → h.get b = some l → ∀ v ∈ l, ∃ u, toU8 v = some u ∧ 0 ≤ u ∧ u ≤ 255

/-- The arrays of Java exist. -/
def JavaLive (java : Nat → Prop) (h : Heap V) : Prop := ∀ b, java b → (h.get b).isSome

/-- The elements of the arrays of Java are between `lo` and `hi`. -/
def JavaWithin [LE V] (java : Nat → Prop) (lo hi : V) (h : Heap V) : Prop :=
  ∀ b l, java b → h.get b = some l → ∀ v ∈ l, lo ≤ v ∧ v ≤ hi

/-- The elements of the arrays of Java do not exceed `huge`. -/
def JavaUpTo [LE V] (java : Nat → Prop) (huge : V) (h : Heap V) : Prop := ∀ b l, java b → h.get b = some l → ∀ v ∈ l, v ≤ huge

end
end Boof
