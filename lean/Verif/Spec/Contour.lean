import Verif.Spec.Image
import Verif.Model.Contour
/-
Specification vocabulary for contours and connected regions of binary pictures.

A pixel is a pair of coordinates.  Unless stated otherwise pixels are given in the coordinates of the picture with its frame,
in which pixel `(x,y)` of the picture is `(x+1,y+1)`.
-/
namespace Boof

/-- Heap `h'` is heap `h` with the pixels `mk` of image `f` set to 255 and the pixels `lb` (in frame coordinates) of image
`g` set to `v`; everything else is unchanged. -/
structure Marked (h h' : Heap Int) (f g : Gray) (mk lb : Nat × Nat → Prop) (v : Int) : Prop where
  mark : ∀ x y, x < f.width → y < f.height →
    (mk (x, y) → h'.px f x y = some 255) ∧ (¬mk (x, y) → h'.px f x y = h.px f x y)
  label : ∀ x y, x < g.width → y < g.height →
    (lb (x + 1, y + 1) → h'.px g x y = some v) ∧ (¬lb (x + 1, y + 1) → h'.px g x y = h.px g x y)
  frame : ∀ b i, (∀ x y, x < f.width → y < f.height → ¬(b = f.buf ∧ i = f.addr x y)) →
    (∀ x y, x < g.width → y < g.height → ¬(b = g.buf ∧ i = g.addr x y)) → h'.cell b i = h.cell b i
  alive : ∀ b, (h'.get b).isSome = (h.get b).isSome
  next : h'.next = h.next

/-! ### Regions

The plane consists of all pairs of natural numbers; pixel `(x,y)` of the picture lies at `(x+1,y+1)` so that the picture is
surrounded by white pixels. -/

/-- The black pixels of the plane for a picture of shape `w × ht` with values `f`. -/
def Black (w ht : Nat) (f : Nat → Nat → Int) (p : Nat × Nat) : Prop :=
  ∃ x y, x < w ∧ y < ht ∧ f x y = 1 ∧ p = (x + 1, y + 1)

/-- Neighbours under a rule: four are those which share a side, eight those which share a side or a corner. -/
def Adjacent : ConnectRule → (p q : Nat × Nat) → Prop
  | .four, p, q => (p.1 = q.1 ∧ (p.2 + 1 = q.2 ∨ q.2 + 1 = p.2)) ∨ (p.2 = q.2 ∧ (p.1 + 1 = q.1 ∨ q.1 + 1 = p.1))
  | .eight, p, q => p ≠ q ∧ p.1 ≤ q.1 + 1 ∧ q.1 ≤ p.1 + 1 ∧ p.2 ≤ q.2 + 1 ∧ q.2 ≤ p.2 + 1

/-- The rule which applies to the background. -/
def ConnectRule.dual : ConnectRule → ConnectRule
  | .four => .eight
  | .eight => .four

/-- There is a path from `p` to `q` inside the set `S` of pixels. -/
inductive Linked (r : ConnectRule) (S : Nat × Nat → Prop) : Nat × Nat → Nat × Nat → Prop
  | refl {p : Nat × Nat} : S p → Linked r S p p
  | step {p q q' : Nat × Nat} : Linked r S p q → Adjacent r q q' → S q' → Linked r S p q'

/-- Raster order. -/
def Before (p q : Nat × Nat) : Prop := p.2 < q.2 ∨ (p.2 = q.2 ∧ p.1 < q.1)

/-- `p` is the first pixel, in raster order, of its connected component. -/
def FirstOf (r : ConnectRule) (S : Nat × Nat → Prop) (p : Nat × Nat) : Prop := S p ∧ ∀ q, Linked r S p q → ¬Before q p

/-- Black pixel `p` and white pixel `q` have a side in common. -/
def Side (S : Nat × Nat → Prop) (p q : Nat × Nat) : Prop := S p ∧ ¬S q ∧ Adjacent .four p q

/-- Two such sides belong to the same boundary: that of one component against one region of the background. -/
def SameBoundary (r : ConnectRule) (S : Nat × Nat → Prop) (s t : (Nat × Nat) × (Nat × Nat)) : Prop :=
  Linked r S s.1 t.1 ∧ Linked r.dual (fun q => ¬S q) s.2 t.2

/-- White pixel `q` can be reached from outside the picture without crossing the component of `p`. -/
def Outer (r : ConnectRule) (S : Nat × Nat → Prop) (p q : Nat × Nat) : Prop :=
  Linked r.dual (fun u => ¬Linked r S p u) q (0, 0)

/-- The point of the picture at a pixel of the plane. -/
def pointOf (p : Nat × Nat) : Point2D := ⟨(p.1 : Int) - 1, (p.2 : Int) - 1⟩

/-- `c` is a closed path of pixels of `S` which starts at `p`: consecutive pixels, and the last and the first one, are
neighbours.  A single pixel is a closed path if it has no neighbour in `S`. -/
structure ClosedPath (r : ConnectRule) (S : Nat × Nat → Prop) (p : Nat × Nat) (c : List (Nat × Nat)) : Prop where
  head : c.head? = some p
  inside : ∀ q ∈ c, S q
  next : ∀ i a b, c[i]? = some a → c[i + 1]? = some b → Adjacent r a b
  close : 1 < c.length → ∀ a, c.getLast? = some a → Adjacent r a p
  single : c.length = 1 → ∀ q, S q → ¬Adjacent r p q

/-! ### Tracing one contour -/

/-- Images on which contours of the picture `S` can be traced: `bg` shows it with a frame of one white pixel (black is 1,
white anything else) and `lab` is a separate image for the labels. -/
structure Canvas (h : Heap Int) (bg lab : Gray) (w ht : Nat) (S : Nat × Nat → Prop) : Prop where
  frameShape : bg.width = w + 2 ∧ bg.height = ht + 2
  labelShape : lab.width = w ∧ lab.height = ht
  frameValid : bg.Valid h
  labelValid : lab.Valid h
  apart : bg.Disjoint lab
  strides : bg.stride < 2147483647 ∧ lab.stride < 2147483647
  inside : ∀ p, S p → 1 ≤ p.1 ∧ p.1 ≤ w ∧ 1 ≤ p.2 ∧ p.2 ≤ ht
  black : ∀ x y, x < w + 2 → y < ht + 2 → (S (x, y) ↔ h.px bg x y = some 1)

/-- The pixel above (external contours) or below (internal contours) a start pixel. -/
def startWhite (p : Nat × Nat) (external : Bool) : Nat × Nat := if external then (p.1, p.2 - 1) else (p.1, p.2 + 1)

/-- Black pixel `q` is on the boundary between the component of `p` and the background region of `u`. -/
def OnBoundary (r : ConnectRule) (S : Nat × Nat → Prop) (p u q : Nat × Nat) : Prop :=
  Linked r S p q ∧ ∃ v, Adjacent r.dual q v ∧ Linked r.dual (fun q => ¬S q) u v

/-! ### Labelling a picture -/

/-- Limits on the contours kept. -/
structure Limits where
  min : Nat
  max : Nat
  internal : Bool

/-- The points kept of a contour with `n` points. -/
def Limits.Keeps (c : Limits) (external : Bool) (n : Nat) : Prop :=
  (external = true ∨ c.internal = true) ∧ c.min ≤ n ∧ n < c.max

instance (c : Limits) (x : Bool) (n : Nat) : Decidable (c.Keeps x n) := by unfold Limits.Keeps; infer_instance

/-- Configuration of a labeller. -/
def Labeller.limits (l : Labeller) : Limits := ⟨l.minContourSize, l.maxContourSize, l.saveInternalContours⟩

/-- What `process` needs: a picture of zeros and ones with values `f` which has fewer than 2^29 pixels with its frame, and
an image for the labels which can get the shape of the picture and does not overlap it.  `fuel` bounds the length of the
contours; it is not part of the program. -/
structure Labeller.Accepts (h : Heap Int) (l : Labeller) (binary labeled : Gray) (f : Nat → Nat → Int) (fuel : Nat) : Prop where
  valid : binary.Valid h
  shows : binary.Shows h f
  bits : ∀ x y, x < binary.width → y < binary.height → f x y = 0 ∨ f x y = 1
  size : 8 * ((binary.width + 2) * (binary.height + 2)) < P32
  labelValid : labeled.Valid h
  labelShape : labeled.CanBe binary.width binary.height
  labelStride : labeled.stride < 2147483647
  apart : binary.Sep labeled binary.width binary.height
  /-- the caller's images are not the labeller's own image -/
  foreign : labeled.buf ≠ l.border.buf ∧ binary.buf ≠ l.border.buf
  fuelEnough : 8 * (binary.width * binary.height) ≤ fuel

/-- States of a labeller: it has been constructed and then used in any way on any pictures, while the rest of the program
did anything but touch its image. -/
inductive Labeller.Reachable : Heap Int → Labeller → Prop
  | new {rule : ConnectRule} {junk : Tracer} {h h' : Heap Int} {l : Labeller} :
      Labeller.new rule junk h = .ok l h' → Reachable h' l
  | process {h h' : Heap Int} {l l' : Labeller} {binary labeled lab : Gray} {f : Nat → Nat → Int} {fuel : Nat} :
      Reachable h l → l.Accepts h binary labeled f fuel → l.process fuel binary labeled h = .ok (l', lab) h' → Reachable h' l'
  | refused {h h' : Heap Int} {l : Labeller} {binary labeled : Gray} {fuel : Nat} :
      Reachable h l → ¬labeled.CanBe binary.width binary.height → l.process fuel binary labeled h = .throw h' → Reachable h' l
  | setConnectRule {h : Heap Int} {l : Labeller} (rule : ConnectRule) : Reachable h l → Reachable h (l.setConnectRule rule)
  | setLimits {h : Heap Int} {l : Labeller} (min max : Nat) (internal : Bool) : Reachable h l →
      Reachable h { l with minContourSize := min, maxContourSize := max, saveInternalContours := internal }
  | elsewhere {h h' : Heap Int} {l : Labeller} : Reachable h l →
      (∀ i, h'.cell l.border.buf i = h.cell l.border.buf i) →
      (h'.get l.border.buf).isSome = (h.get l.border.buf).isSome → Reachable h' l

/-- `g` labels the connected components of a picture with `1`, ..., `n`. -/
structure Labelling (r : ConnectRule) (w ht : Nat) (f g : Nat → Nat → Int) (n : Nat) : Prop where
  background : ∀ x y, x < w → y < ht → (g x y = 0 ↔ f x y = 0)
  range : ∀ x y, x < w → y < ht → f x y = 1 → 1 ≤ g x y ∧ g x y ≤ n
  onto : ∀ k : Nat, 1 ≤ k → k ≤ n → ∃ x y, x < w ∧ y < ht ∧ f x y = 1 ∧ g x y = k
  component : ∀ x y x' y', x < w → y < ht → x' < w → y' < ht → f x y = 1 → f x' y' = 1 →
    (g x y = g x' y' ↔ Linked r (Black w ht f) (x + 1, y + 1) (x' + 1, y' + 1))
  order : ∀ x y x' y', FirstOf r (Black w ht f) (x + 1, y + 1) → FirstOf r (Black w ht f) (x' + 1, y' + 1) →
    (g x y < g x' y' ↔ Before (x + 1, y + 1) (x' + 1, y' + 1))

/-- `sides` has one side of each boundary of the picture `S`. -/
structure OnePerBoundary (r : ConnectRule) (S : Nat × Nat → Prop) (sides : List ((Nat × Nat) × (Nat × Nat))) : Prop where
  side : ∀ s ∈ sides, Side S s.1 s.2
  once : sides.Pairwise (fun s t => ¬SameBoundary r S s t)
  all : ∀ p q, Side S p q → ∃ s ∈ sides, SameBoundary r S s (p, q)

/-- `path` goes once around the boundary to which the side `s` belongs: it is a closed path through exactly the pixels of
that boundary, and it does not repeat a step from one pixel to the next. -/
structure Around (r : ConnectRule) (S : Nat × Nat → Prop) (s : (Nat × Nat) × (Nat × Nat)) (path : List (Nat × Nat)) : Prop where
  closed : ClosedPath r S s.1 path
  pixels : ∀ q, q ∈ path ↔ OnBoundary r S s.1 s.2 q
  once : ∀ i j, i < j → j < path.length → path[i]? = path[j]? →
    path[(i + 1) % path.length]? ≠ path[(j + 1) % path.length]?

/-! ### Holes -/

/-- White pixel `q` lies in a hole: the background does not lead from it to the outside of the picture. -/
def Hole (r : ConnectRule) (S : Nat × Nat → Prop) (q : Nat × Nat) : Prop := ¬S q ∧ ¬Linked r.dual (fun u => ¬S u) q (0, 0)

/-- `L` has one pixel of each region of the set `S`. -/
structure OnePerRegion (r : ConnectRule) (S : Nat × Nat → Prop) (L : List (Nat × Nat)) : Prop where
  inside : ∀ p ∈ L, S p
  once : L.Pairwise (fun p q => ¬Linked r S p q)
  all : ∀ q, S q → ∃ p ∈ L, Linked r S p q

/-- The component of `p` surrounds the hole of `q`: they have a boundary which the component separates from the outside. -/
def Surrounds (r : ConnectRule) (S : Nat × Nat → Prop) (p q : Nat × Nat) : Prop :=
  ∃ p' q', Linked r S p p' ∧ Linked r.dual (fun u => ¬S u) q q' ∧ Side S p' q' ∧ ¬Outer r S p' q'

end Boof
