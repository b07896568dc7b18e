import Verif.Spec.ContourMemory
/-
Several contour finders in one program.
-/
namespace Boof

/-- Finders and heap of a program which makes, uses, sets and destroys any number of contour finders in any order; between
these calls the rest of the program may do anything except write to, or release, an array of a finder.  A label image given
to one finder must not lie in an array of another; the picture may lie anywhere. -/
inductive ContourTeam : Heap Int → List LabellerObj → Prop
  | start (h : Heap Int) : ContourTeam h []
  | make {h h' : Heap Int} {T : List LabellerObj} {rule : ConnectRule} {junk : TracerObj} {o : LabellerObj} :
      ContourTeam h T → LabellerObj.new rule junk h = .ok o h' → ContourTeam h' (o :: T)
  | process {h h' : Heap Int} {A B : List LabellerObj} {o o' : LabellerObj} {binary labeled lab : Gray} {f : Nat → Nat → Int} {fuel : Nat} :
      ContourTeam h (A ++ o :: B) → o.Accepts h binary labeled f fuel → (∀ p ∈ A ++ B, labeled.buf ∉ p.arrays) →
      o.process fuel binary labeled h = .ok (o', lab) h' → ContourTeam h' (A ++ o' :: B)
  | refused {h h' : Heap Int} {A B : List LabellerObj} {o : LabellerObj} {binary labeled : Gray} {fuel : Nat} :
      ContourTeam h (A ++ o :: B) → ¬labeled.CanBe binary.width binary.height →
      o.process fuel binary labeled h = .throw h' → ContourTeam h' (A ++ o :: B)
  | setConnectRule {h : Heap Int} {A B : List LabellerObj} {o : LabellerObj} (rule : ConnectRule) :
      ContourTeam h (A ++ o :: B) → ContourTeam h (A ++ o.setConnectRule rule :: B)
  | setLimits {h : Heap Int} {A B : List LabellerObj} {o : LabellerObj} (min max : Nat) (internal : Bool) :
      ContourTeam h (A ++ o :: B) →
      ContourTeam h (A ++ { o with minContourSize := min, maxContourSize := max, saveInternalContours := internal } :: B)
  | destroy {h h' : Heap Int} {A B : List LabellerObj} {o : LabellerObj} :
      ContourTeam h (A ++ o :: B) → o.destroy h = .ok () h' → ContourTeam h' (A ++ B)
  | elsewhere {h h' : Heap Int} {T : List LabellerObj} :
      ContourTeam h T → (∀ o ∈ T, ∀ b ∈ o.arrays, h'.get b = h.get b) → ContourTeam h' T

/-- Destroy all finders, the first of the list first. -/
def LabellerObj.destroyAll : List LabellerObj → M Int Unit
  | [] => pure ()
  | o :: T => do
    o.destroy
    LabellerObj.destroyAll T

end Boof
