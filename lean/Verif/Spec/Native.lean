import Verif.Model.Native
import Verif.Spec.Image
/-
What calling native code from Java should do, in terms of Java images and arrays only.
-/
namespace Boof
variable {V : Type}

/-- A usable Java image: its array exists and holds every row.  Sizes are Java `int`s. -/
structure JImage.Ok (h : Heap V) (j : JImage) : Prop where
  array : ∃ a l, j.data = some a ∧ h.get a = some l ∧ l.length < 2147483648 ∧
    ∀ y : Nat, (y : Int) < j.height → j.startIndex + y * j.stride + j.width ≤ l.length
  width : 0 ≤ j.width ∧ j.width < 2147483648
  height : 0 ≤ j.height ∧ j.height < 2147483648
  start : 0 ≤ j.startIndex ∧ j.startIndex < 2147483648
  stride : j.width ≤ j.stride ∧ j.stride < 2147483648

/-- Index of pixel `(x,y)` in the Java array. -/
def JImage.addr (j : JImage) (x y : Nat) : Nat := j.startIndex.toNat + y * j.stride.toNat + x

/-- The Java image shows the picture `f`. -/
def JImage.Shows (h : Heap V) (j : JImage) (f : Nat → Nat → V) : Prop :=
  ∀ x y : Nat, (x : Int) < j.width → (y : Int) < j.height → ∃ a, j.data = some a ∧ h.cell a (j.addr x y) = some (f x y)

/-- Effect of a successful native call whose result goes to the image `j`: no array stays pinned, the image shows `F`, and no
other element of any array changes.  `own` are arrays which belong to the native object. -/
structure JavaEffect (s s' : Jvm V) (own : Nat → Prop) (j : JImage) (F : Nat → Nat → V) : Prop where
  pins : s'.pins = s.pins
  shows : j.Shows s'.heap F
  frame : ∀ b i, b < s.heap.next → ¬own b →
    (∀ x y : Nat, (x : Int) < j.width → (y : Int) < j.height → ¬(j.data = some b ∧ i = j.addr x y)) →
    s'.heap.cell b i = s.heap.cell b i
  alive : ∀ b, b < s.heap.next → ¬own b → (s'.heap.get b).isSome = (s.heap.get b).isSome

/-- Arguments of a native call: usable images of one size in different arrays, the first shows `f`. -/
structure JArgs (h : Heap V) (ji jo : JImage) (f : Nat → Nat → V) : Prop where
  input : ji.Ok h
  output : jo.Ok h
  apart : ji.data ≠ jo.data
  width : jo.width = ji.width
  height : jo.height = ji.height
  shows : ji.Shows h f

/-- Images a native filter keeps: usable, owning their pixels, and in arrays of their own, none of which is a Java array. -/
def Kept (h : Heap V) (a b : Gray) (ji jo : JImage) : Prop :=
  a.Valid h ∧ b.Valid h ∧ a.subimage = false ∧ b.subimage = false ∧ b.buf ≠ a.buf ∧
    ∀ g, g = a ∨ g = b → ji.data ≠ some g.buf ∧ jo.data ≠ some g.buf

/-- The same for the statistics of a block filter. -/
def KeptStats (h : Heap V) (st : Interleaved) (ji jo : JImage) : Prop :=
  st.Valid h ∧ st.subimage = false ∧ ji.data ≠ some st.buf ∧ jo.data ≠ some st.buf

end Boof
