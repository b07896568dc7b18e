import Verif.Model.Image
/-
Specification vocabulary for images.  Only data members of the image records and heap cells are mentioned, no
function of the library.  All arithmetic here is exact (unbounded).
-/
namespace Boof
variable {V : Type}

/-- Cell number of pixel `(x,y)` in the image's array. -/
def Gray.addr (g : Gray) (x y : Nat) : Nat := g.offset + y * g.stride + x

/-- The value of pixel `(x,y)`, `none` when it is not backed by live memory. -/
def Heap.px (h : Heap V) (g : Gray) (x y : Nat) : Option V := h.cell g.buf (g.addr x y)

/-- The image's layout fits a live array: the precondition under which an image may be used. -/
structure Gray.Valid (h : Heap V) (g : Gray) : Prop where
  /-- the array is live, and every one of its `dataLength` cells exists -/
  live : (h.get g.buf).isSome
  cells : ∀ i, i < g.dataLength → ∃ v, h.cell g.buf i = some v
  /-- data members are 32-bit -/
  lenLt : g.dataLength < P32
  widthLt : g.width < P32
  heightLt : g.height < P32
  /-- rows do not overlap and lie inside the array -/
  rowLe : g.width ≤ g.stride
  fits : ∀ y, y < g.height → g.offset + y * g.stride + g.width ≤ g.dataLength
  /-- an image which owns its array starts at its first cell and has no gaps -/
  owner : g.subimage = false → g.offset = 0 ∧ g.stride = g.width

/-- No pixel of `a` shares storage with a pixel of `b`. -/
def Gray.Disjoint (a b : Gray) : Prop :=
  ∀ x y x' y', x < a.width → y < a.height → x' < b.width → y' < b.height →
    a.buf = b.buf → a.addr x y ≠ b.addr x' y'

/-- Heap `h'` is heap `h` with each pixel `(x,y)` of `g` set to `v` where `f x y = some v`;
all other pixels of `g`, and every cell of the heap that is not a pixel of `g`, are unchanged. -/
structure Painted (h h' : Heap V) (g : Gray) (f : Nat → Nat → Option V) : Prop where
  pix : ∀ x y, x < g.width → y < g.height → h'.px g x y = (f x y).or (h.px g x y)
  frame : ∀ b i, (∀ x y, x < g.width → y < g.height → ¬(b = g.buf ∧ i = g.addr x y)) →
    h'.cell b i = h.cell b i
  alive : ∀ b, (h'.get b).isSome = (h.get b).isSome
  next : h'.next = h.next

/-- Memory is accounted for when image `g` becomes `g'`: no array is made or released, or `g`'s array has been released and
exactly one new array made, which `g'` uses. -/
def Accounted (h h' : Heap V) (g g' : Gray) : Prop :=
  (g'.buf = g.buf ∧ h'.next = h.next ∧ ∀ b, (h'.get b).isSome = (h.get b).isSome) ∨
  (g'.buf = h.next ∧ h'.next = h.next + 1 ∧ h'.get g.buf = none)

/-- What reshaping image `g` into `g'` of shape `w × ht` may do to the heap. -/
structure Reshaped (h h' : Heap V) (g g' : Gray) (w ht : Nat) : Prop where
  width : g'.width = w
  height : g'.height = ht
  valid : g'.Valid h'
  sub : g'.subimage = g.subimage
  /-- other arrays keep their contents -/
  frame : ∀ b i, b ≠ g.buf → b < h.next → h'.cell b i = h.cell b i
  alive : ∀ b, b ≠ g.buf → b < h.next → (h'.get b).isSome = (h.get b).isSome
  /-- either the array is kept, and then the heap is unchanged, or a new one is used -/
  buf : (g'.buf = g.buf ∧ h' = h) ∨ (g'.buf = h.next ∧ h.next < h'.next)
  /-- nothing at all happens when the shape is already right -/
  same : g.width = w → g.height = ht → g' = g ∧ h' = h
  /-- nothing is leaked -/
  memory : Accounted h h' g g'

/-- Exactly one array has been made, and it is live; every other array is as it was. -/
structure OneMore (h h' : Heap V) : Prop where
  next : h'.next = h.next + 1
  live : (h'.get h.next).isSome
  frame : ∀ b i, b < h.next → h'.cell b i = h.cell b i
  alive : ∀ b, b < h.next → (h'.get b).isSome = (h.get b).isSome

/-- An output image `g` may become `w × ht`: it owns its pixels or has that shape already. -/
def Gray.CanBe (g : Gray) (w ht : Nat) : Prop := g.subimage = false ∨ (g.width = w ∧ g.height = ht)

/-- `input` can be read while `output` is reshaped to `w × ht` and written: they use different arrays, or
`output` has the right shape already and they have no pixel in common. -/
def Gray.Sep (input output : Gray) (w ht : Nat) : Prop :=
  input.buf ≠ output.buf ∨ (output.width = w ∧ output.height = ht ∧ input.Disjoint output)

/-- The effect of an operation which turns output image `g` into `g'` of shape `w × ht` with pixels `f`:
every pixel of the result is as given, no other array changes, and if the shape was right already then `g' = g`
and no cell outside the image changes either. -/
structure Produced (h h' : Heap V) (g g' : Gray) (w ht : Nat) (f : Nat → Nat → V) : Prop where
  width : g'.width = w
  height : g'.height = ht
  valid : g'.Valid h'
  sub : g'.subimage = g.subimage
  pix : ∀ x y, x < w → y < ht → h'.px g' x y = some (f x y)
  frame : ∀ b i, b ≠ g.buf → b < h.next → h'.cell b i = h.cell b i
  alive : ∀ b, b ≠ g.buf → b < h.next → (h'.get b).isSome = (h.get b).isSome
  /-- either the array is kept (possibly with new contents) or a fresh one is used -/
  buf : (g'.buf = g.buf ∧ ∀ a : Gray, a.Valid h → a.Valid h') ∨ h.next ≤ g'.buf
  nextLe : h.next ≤ h'.next
  inPlace : g.width = w → g.height = ht → g' = g ∧ Painted h h' g (fun x y => some (f x y))
  /-- nothing is leaked -/
  memory : Accounted h h' g g'

/-- The effect of an operation in two steps, which turns output image `g` into `g'` with pixels `f` and uses image `s` as
storage, which becomes `s'` with pixels `m`. -/
structure Produced2 (h h' : Heap V) (g g' s s' : Gray) (w ht : Nat) (f m : Nat → Nat → V) : Prop where
  width : g'.width = w
  height : g'.height = ht
  valid : g'.Valid h'
  pix : ∀ x y, x < w → y < ht → h'.px g' x y = some (f x y)
  swidth : s'.width = w
  sheight : s'.height = ht
  svalid : s'.Valid h'
  spix : ∀ x y, x < w → y < ht → h'.px s' x y = some (m x y)
  frame : ∀ b i, b ≠ g.buf → b ≠ s.buf → b < h.next → h'.cell b i = h.cell b i
  alive : ∀ b, b ≠ g.buf → b ≠ s.buf → b < h.next → (h'.get b).isSome = (h.get b).isSome
  /-- the images are still in arrays of their own -/
  buf : g'.buf = g.buf ∨ h.next ≤ g'.buf
  sbuf : s'.buf = s.buf ∨ h.next ≤ s'.buf
  ne : s'.buf ≠ g'.buf
  nextLe : h.next ≤ h'.next
  sub : g'.subimage = g.subimage ∧ s'.subimage = s.subimage
  /-- when the output has the right shape already only its pixels are written -/
  inPlace : g.width = w → g.height = ht → g' = g ∧
    ∀ i, (∀ x y, x < w → y < ht → i ≠ g.addr x y) → h'.cell g.buf i = h.cell g.buf i
  /-- when the storage has the right shape already only its pixels are written -/
  sInPlace : s.width = w → s.height = ht → s' = s ∧
    ∀ i, (∀ x y, x < w → y < ht → i ≠ s.addr x y) → h'.cell s.buf i = h.cell s.buf i
  /-- nothing is leaked: of the arrays made on the way only those of the images are left, and arrays given up are released -/
  fresh : ∀ b, h.next ≤ b → (h'.get b).isSome → b = g'.buf ∨ b = s'.buf
  released : (g'.buf ≠ g.buf → h'.get g.buf = none) ∧ (s'.buf ≠ s.buf → h'.get s.buf = none)

/-- An image used as storage, `a` before and `a'` after an operation from heap `h` to heap `h'` with images of shape `w × ht`. -/
structure Stored (h h' : Heap V) (a a' : Gray) (w ht : Nat) : Prop where
  width : a'.width = w
  height : a'.height = ht
  valid : a'.Valid h'
  sub : a'.subimage = a.subimage
  buf : a'.buf = a.buf ∨ h.next ≤ a'.buf
  released : a'.buf ≠ a.buf → h'.get a.buf = none

/-- The effect of a thresholding operation which turns output image `g` into `g'` of shape `w × ht` with pixels `f`, and uses
the images `a` and `b` as storage, which become `a'` and `b'`. -/
structure Thresholded (h h' : Heap V) (g g' a a' b b' : Gray) (w ht : Nat) (f : Nat → Nat → V) : Prop where
  width : g'.width = w
  height : g'.height = ht
  valid : g'.Valid h'
  sub : g'.subimage = g.subimage
  pix : ∀ x y, x < w → y < ht → h'.px g' x y = some (f x y)
  frame : ∀ n i, n ≠ g.buf → n ≠ a.buf → n ≠ b.buf → n < h.next → h'.cell n i = h.cell n i
  alive : ∀ n, n ≠ g.buf → n ≠ a.buf → n ≠ b.buf → n < h.next → (h'.get n).isSome = (h.get n).isSome
  /-- when the output has the right shape already only its pixels are written -/
  inPlace : g.width = w → g.height = ht → g' = g ∧
    ∀ i, (∀ x y, x < w → y < ht → i ≠ g.addr x y) → h'.cell g.buf i = h.cell g.buf i
  buf : g'.buf = g.buf ∨ h.next ≤ g'.buf
  nextLe : h.next ≤ h'.next
  /-- the storage stays usable, each image in an array of its own -/
  first : Stored h h' a a' w ht
  second : Stored h h' b b' w ht
  ne : a'.buf ≠ g'.buf ∧ b'.buf ≠ g'.buf ∧ b'.buf ≠ a'.buf
  /-- nothing is leaked -/
  fresh : ∀ n, h.next ≤ n → (h'.get n).isSome → n = g'.buf ∨ n = a'.buf ∨ n = b'.buf
  released : g'.buf ≠ g.buf → h'.get g.buf = none

/-! ### Interleaved images -/

/-- Cell number of band `b` of pixel `(x,y)`. -/
def Interleaved.addr (g : Interleaved) (x y b : Nat) : Nat := g.offset + y * g.stride + x * g.numBands + b

/-- Value of band `b` of pixel `(x,y)`. -/
def Heap.px3 (h : Heap V) (g : Interleaved) (x y b : Nat) : Option V := h.cell g.buf (g.addr x y b)

/-- The layout fits a live array. -/
structure Interleaved.Valid (h : Heap V) (g : Interleaved) : Prop where
  live : (h.get g.buf).isSome
  cells : ∀ i, i < g.dataLength → ∃ v, h.cell g.buf i = some v
  lenLt : g.dataLength < P32
  widthLt : g.width < P32
  heightLt : g.height < P32
  bandsLt : g.numBands < P32
  strideLt : g.stride < P32
  rowLe : g.width * g.numBands ≤ g.stride
  fits : ∀ y, y < g.height → g.offset + y * g.stride + g.width * g.numBands ≤ g.dataLength
  owner : g.subimage = false → g.offset = 0 ∧ g.stride = g.width * g.numBands

end Boof

namespace Boof
variable {V : Type}

/-- Heap `h'` is heap `h` with band `b` of pixel `(x,y)` of `g` set to `v` where `f x y b = some v`; every other
cell of the heap is unchanged. -/
structure Painted3 (h h' : Heap V) (g : Interleaved) (f : Nat → Nat → Nat → Option V) : Prop where
  pix : ∀ x y b, x < g.width → y < g.height → b < g.numBands → h'.px3 g x y b = (f x y b).or (h.px3 g x y b)
  frame : ∀ b i, (∀ x y k, x < g.width → y < g.height → k < g.numBands → ¬(b = g.buf ∧ i = g.addr x y k)) →
    h'.cell b i = h.cell b i

/-- Interleaved image `g` shows the picture `f`. -/
def Interleaved.Shows (h : Heap V) (g : Interleaved) (f : Nat → Nat → Nat → V) : Prop :=
  ∀ x y b, x < g.width → y < g.height → b < g.numBands → h.px3 g x y b = some (f x y b)

/-- What changing the shape of interleaved image `g` into `g'` may do to the heap. -/
structure Reshaped3 (h h' : Heap V) (g g' : Interleaved) (w ht nb : Nat) : Prop where
  shape : g'.width = w ∧ g'.height = ht ∧ g'.numBands = nb
  valid : g'.Valid h'
  sub : g'.subimage = g.subimage
  /-- other arrays keep their contents -/
  frame : ∀ b i, b ≠ g.buf → b < h.next → h'.cell b i = h.cell b i
  alive : ∀ b, b ≠ g.buf → b < h.next → (h'.get b).isSome = (h.get b).isSome
  /-- either the array is kept, and then the heap is unchanged, or a new one is used -/
  buf : (g'.buf = g.buf ∧ h' = h) ∨ h.next ≤ g'.buf
  nextLe : h.next ≤ h'.next
  /-- nothing at all happens when the shape is already right -/
  same : g.width = w → g.height = ht → g.numBands = nb → g' = g ∧ h' = h
  /-- nothing is leaked -/
  fresh : ∀ b, h.next ≤ b → (h'.get b).isSome → b = g'.buf
  released : g'.buf ≠ g.buf → h'.get g.buf = none

/-- An interleaved image may become `w × ht` with `nb` bands: it owns its cells or has that shape already. -/
def Interleaved.CanBe (g : Interleaved) (w ht nb : Nat) : Prop :=
  g.subimage = false ∨ (g.width = w ∧ g.height = ht ∧ g.numBands = nb)

/-- No cell of `a` is a cell of `b`. -/
def Interleaved.Disjoint (a b : Interleaved) : Prop :=
  ∀ x y k x' y' k', x < a.width → y < a.height → k < a.numBands →
    x' < b.width → y' < b.height → k' < b.numBands → a.buf = b.buf → a.addr x y k ≠ b.addr x' y' k'

/-- Image `g` shows the picture `f`. -/
def Gray.Shows (h : Heap V) (g : Gray) (f : Nat → Nat → V) : Prop :=
  ∀ x y, x < g.width → y < g.height → h.px g x y = some (f x y)

/-- The output image `g` of an operation is `a` itself, or can be reshaped and written without touching `a`. -/
def Gray.SepOrSame (a g : Gray) (w ht : Nat) : Prop := a = g ∨ a.Sep g w ht

end Boof
