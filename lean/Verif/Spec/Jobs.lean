import Verif.Spec.Image
import Verif.Cpp.Core
/-
Several calls one after the other.
-/
namespace Boof
open M
variable {V : Type}

/-- A call of the library: what it runs, the images it reads with the pictures they show, the images it writes (the output and storage),
and the picture which the image it returns is meant to show. -/
structure Job (V : Type) where
  run : M V Gray
  inputs : List (Gray × (Nat → Nat → V))
  written : List Gray
  width : Nat
  height : Nat
  picture : Nat → Nat → V

/-- In memory `h` the inputs show their pictures and the images to be written exist. -/
def Job.Ready (j : Job V) (h : Heap V) : Prop :=
  (∀ p, p ∈ j.inputs → p.1.Valid h ∧ p.1.Shows h p.2) ∧ ∀ g, g ∈ j.written → g.Valid h

/-- Image `g` shows the picture of the job. -/
def Job.Done (j : Job V) (g : Gray) (h : Heap V) : Prop :=
  g.width = j.width ∧ g.height = j.height ∧ g.Valid h ∧ g.Shows h j.picture

/-- From any memory in which it is ready the job gives its picture and changes no arrays but those of the images it writes; if the output (the
first of these) has the size of the picture already, then it is the image which is returned, and only its pixels are changed in its array. -/
def Job.Sound (j : Job V) : Prop :=
  ∀ h, j.Ready h → ∃ g h', j.run h = .ok g h' ∧ j.Done g h' ∧ ((∃ u, u ∈ j.written ∧ g.buf = u.buf) ∨ h.next ≤ g.buf) ∧ h.next ≤ h'.next ∧
    (∀ b, b < h.next → (∀ u, u ∈ j.written → b ≠ u.buf) →
      (h'.get b).isSome = (h.get b).isSome ∧ ∀ i, h'.cell b i = h.cell b i) ∧
    (∀ o, j.written.head? = some o → o.width = j.width → o.height = j.height →
      g = o ∧ ∀ i, (∀ x y, x < o.width → y < o.height → i ≠ o.addr x y) → h'.cell o.buf i = h.cell o.buf i)

/-- Neither job writes an array which the other one uses. -/
def Job.Apart (j k : Job V) : Prop :=
  (∀ u, u ∈ j.written → (∀ v, v ∈ k.written → u.buf ≠ v.buf) ∧ ∀ p, p ∈ k.inputs → u.buf ≠ p.1.buf) ∧
  (∀ v, v ∈ k.written → ∀ p, p ∈ j.inputs → v.buf ≠ p.1.buf)

/-- One call after the other. -/
def runAll : List (Job V) → M V (List Gray)
  | [] => pure []
  | j :: l => do
    let g ← j.run
    let r ← runAll l
    pure (g :: r)

end Boof
