import Verif.Spec.Sum
import Verif.Spec.Image
import Verif.Cpp.Real
/-
The block grid of the block threshold filters, along one axis of `n` pixels when blocks of about `req` pixels are requested.
-/
namespace Boof
namespace Grid

/-- Number of blocks. -/
def count (n req : Nat) : Nat := n / req

/-- Size of a block (the last one may be larger). -/
def size (n req : Nat) : Nat := n / count n req

/-- First pixel of block `b`, first pixel after it. -/
def lo (n req b : Nat) : Nat := b * size n req
def hi (n req b : Nat) : Nat := if b + 1 = count n req then n else (b + 1) * size n req

/-- Pixel `x` is in block `b`. -/
def Has (n req b x : Nat) : Prop := lo n req b ≤ x ∧ x < hi n req b

/-- The block of pixel `x`. -/
def blockOf (n req x : Nat) : Nat := min (x / size n req) (count n req - 1)

/-- First and last block that determine the threshold of block `b`: its neighbours, or the block alone. -/
def first (useLocal : Bool) (b : Nat) : Nat := if useLocal then b - 1 else b
def last (useLocal : Bool) (n req b : Nat) : Nat := if useLocal then min (b + 1) (count n req - 1) else b

end Grid

/-- Sum of `f x y` over `x0 <= x < x1`, `y0 <= y < y1`. -/
def rectSum (f : Nat → Nat → Int) (x0 x1 y0 y1 : Nat) : Int :=
  pixelSum (x1 - x0) (y1 - y0) (fun x y => f (x0 + x) (y0 + y))

/-- Number of pixels of the rectangle that have value `v`. -/
def rectCount (f : Nat → Nat → Int) (v : Int) (x0 x1 y0 y1 : Nat) : Int :=
  rectSum (fun x y => if f x y = v then 1 else 0) x0 x1 y0 y1

/-- `m` is the smallest, the largest value in the rectangle. -/
def IsRectMin {V : Type} [LE V] (f : Nat → Nat → V) (x0 x1 y0 y1 : Nat) (m : V) : Prop :=
  (∀ x y, x0 ≤ x → x < x1 → y0 ≤ y → y < y1 → m ≤ f x y) ∧ ∃ x y, x0 ≤ x ∧ x < x1 ∧ y0 ≤ y ∧ y < y1 ∧ f x y = m
def IsRectMax {V : Type} [LE V] (f : Nat → Nat → V) (x0 x1 y0 y1 : Nat) (m : V) : Prop :=
  (∀ x y, x0 ≤ x → x < x1 → y0 ≤ y → y < y1 → f x y ≤ m) ∧ ∃ x y, x0 ≤ x ∧ x < x1 ∧ y0 ≤ y ∧ y < y1 ∧ f x y = m

section
variable {K : Type} [Field K] [LinearOrder K] [IsStrictOrderedRing K] [FloorRing K]

/-- Value stored for block `(i,j)` by the block mean filter. -/
def meanStat (scaled : Int → Nat → K) (w ht req : Nat) (f : Nat → Nat → Int) (i j : Nat) : Int :=
  truncK (scaled (rectSum f (Grid.lo w req i) (Grid.hi w req i) (Grid.lo ht req j) (Grid.hi ht req j))
    ((Grid.hi w req i - Grid.lo w req i) * (Grid.hi ht req j - Grid.lo ht req j)))

end

/-- Mean of the statistics of the blocks that determine the threshold of block `(i,j)`. -/
def localMean (u : Bool) (w ht req : Nat) (S : Nat → Nat → Int) (i j : Nat) : Int :=
  rectSum S (Grid.first u i) (Grid.last u w req i + 1) (Grid.first u j) (Grid.last u ht req j + 1) /
    (((Grid.last u w req i + 1 - Grid.first u i) * (Grid.last u ht req j + 1 - Grid.first u j) : Nat) : Int)

/-- The pixels of the blocks that determine the threshold of block `b`: `[localLo, localHi)`. -/
def localLo (u : Bool) (n req b : Nat) : Nat := Grid.lo n req (Grid.first u b)
def localHi (u : Bool) (n req b : Nat) : Nat := Grid.hi n req (Grid.last u n req b)

/-- Effect of a block filter. -/
structure Filtered {V : Type} (h h' : Heap V) (st st' : Interleaved) (output : Gray) (cw ch : Nat) (S : Nat → Nat → Nat → V)
    (F : Nat → Nat → V) : Prop where
  pix : ∀ x y, x < output.width → y < output.height → h'.px output x y = some (F x y)
  /-- nothing outside the output image and the filter's private array changes -/
  frame : ∀ b i, b ≠ st.buf → b < h.next →
    (∀ x y, x < output.width → y < output.height → ¬(b = output.buf ∧ i = output.addr x y)) → h'.cell b i = h.cell b i
  alive : ∀ b, b ≠ st.buf → b < h.next → (h'.get b).isSome = (h.get b).isSome
  output : output.Valid h'
  /-- the statistics are kept in the filter's private image, which stays usable -/
  stats : st'.Valid h' ∧ st'.subimage = false ∧ st'.width = cw ∧ st'.height = ch ∧ st'.numBands = st.numBands ∧
    st'.Shows h' S ∧ (st'.buf = st.buf ∨ h.next ≤ st'.buf)
  nextLe : h.next ≤ h'.next
  /-- nothing is leaked -/
  fresh : ∀ b, h.next ≤ b → (h'.get b).isSome → b = st'.buf
  released : st'.buf ≠ st.buf → h'.get st.buf = none

/-- Arguments a block filter with private statistics image `st` can be used with. -/
structure BlockArgs {V : Type} (h : Heap V) (st : Interleaved) (input output : Gray) (f : Nat → Nat → V) : Prop where
  inValid : input.Valid h
  shows : input.Shows h f
  outValid : output.Valid h
  width : output.width = input.width
  height : output.height = input.height
  /-- the output may be the input itself, otherwise they have no pixel in common -/
  apart : input = output ∨ input.Disjoint output
  statsValid : st.Valid h
  statsOwner : st.subimage = false
  statsIn : input.buf ≠ st.buf
  statsOut : output.buf ≠ st.buf

end Boof
