import Verif.Model.ContourMemory
import Verif.Spec.Contour
/-
The memory of a contour finder.
-/
namespace Boof

/-- The arrays of a tracer. -/
def TracerObj.tables (t : TracerObj) : List Nat := [t.offsetsBinary, t.offsetsLabeled, t.nextDirection]

/-- The tables of a contour finder: of its two tracers. -/
def LabellerObj.tables (o : LabellerObj) : List Nat := o.tracer4.tables ++ o.tracer8.tables

/-- All arrays of a contour finder: its tables and its image. -/
def LabellerObj.arrays (o : LabellerObj) : List Nat := o.tables ++ [o.border.buf]

/-- Configuration of a contour finder. -/
def LabellerObj.limits (o : LabellerObj) : Limits := ⟨o.minContourSize, o.maxContourSize, o.saveInternalContours⟩

/-- What `process` needs: as `Labeller.Accepts`, and the images of the caller use no array of the finder. -/
structure LabellerObj.Accepts (h : Heap Int) (o : LabellerObj) (binary labeled : Gray) (f : Nat → Nat → Int) (fuel : Nat) : Prop where
  valid : binary.Valid h
  shows : binary.Shows h f
  bits : ∀ x y, x < binary.width → y < binary.height → f x y = 0 ∨ f x y = 1
  size : 8 * ((binary.width + 2) * (binary.height + 2)) < P32
  labelValid : labeled.Valid h
  labelShape : labeled.CanBe binary.width binary.height
  labelStride : labeled.stride < 2147483647
  apart : binary.Sep labeled binary.width binary.height
  foreign : labeled.buf ∉ o.arrays ∧ binary.buf ∉ o.arrays
  fuelEnough : 8 * (binary.width * binary.height) ≤ fuel

/-- States of a contour finder: it has been constructed and then used in any way on any pictures, while the rest of the
program did anything but touch its arrays. -/
inductive LabellerObj.Reachable : Heap Int → LabellerObj → Prop
  | new {rule : ConnectRule} {junk : TracerObj} {h h' : Heap Int} {o : LabellerObj} :
      LabellerObj.new rule junk h = .ok o h' → Reachable h' o
  | process {h h' : Heap Int} {o o' : LabellerObj} {binary labeled lab : Gray} {f : Nat → Nat → Int} {fuel : Nat} :
      Reachable h o → o.Accepts h binary labeled f fuel → o.process fuel binary labeled h = .ok (o', lab) h' → Reachable h' o'
  | refused {h h' : Heap Int} {o : LabellerObj} {binary labeled : Gray} {fuel : Nat} :
      Reachable h o → ¬labeled.CanBe binary.width binary.height → o.process fuel binary labeled h = .throw h' → Reachable h' o
  | setConnectRule {h : Heap Int} {o : LabellerObj} (rule : ConnectRule) : Reachable h o → Reachable h (o.setConnectRule rule)
  | setLimits {h : Heap Int} {o : LabellerObj} (min max : Nat) (internal : Bool) : Reachable h o →
      Reachable h { o with minContourSize := min, maxContourSize := max, saveInternalContours := internal }
  | elsewhere {h h' : Heap Int} {o : LabellerObj} : Reachable h o → (∀ b ∈ o.arrays, h'.get b = h.get b) → Reachable h' o

/-- A finder is made when the heap is `h0`, and then used only: with each call of `process` the label image given may be
another image `lab`, or the one of the call before; nothing else happens.  `L` lists the label images given, with the
images they became. -/
inductive LabellerObj.Session (h0 : Heap Int) : Heap Int → LabellerObj → List (Gray × Gray) → Prop
  | new {rule : ConnectRule} {junk : TracerObj} {h : Heap Int} {o : LabellerObj} :
      LabellerObj.new rule junk h0 = .ok o h → Session h0 h o []
  | process {h h' : Heap Int} {o o' : LabellerObj} {binary labeled lab : Gray} {f : Nat → Nat → Int} {fuel : Nat} {L : List (Gray × Gray)} :
      Session h0 h o L → o.Accepts h binary labeled f fuel → o.process fuel binary labeled h = .ok (o', lab) h' →
      Session h0 h' o' ((labeled, lab) :: L)
  | setConnectRule {h : Heap Int} {o : LabellerObj} {L : List (Gray × Gray)} (rule : ConnectRule) :
      Session h0 h o L → Session h0 h (o.setConnectRule rule) L
  | setLimits {h : Heap Int} {o : LabellerObj} {L : List (Gray × Gray)} (min max : Nat) (internal : Bool) : Session h0 h o L →
      Session h0 h { o with minContourSize := min, maxContourSize := max, saveInternalContours := internal } L

/-- The arrays of the caller after the label images in `L` (the last one first) got other arrays. -/
def callerAlive (P : Nat → Prop) : List (Gray × Gray) → Nat → Prop
  | [], b => P b
  | (labeled, lab) :: L, b => (callerAlive P L b ∧ b ≠ labeled.buf) ∨ b = lab.buf

end Boof
