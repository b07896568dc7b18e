import Verif.Spec.Image
import Verif.Model.Planar
/-
Specification vocabulary for planar images.
-/
namespace Boof
variable {V : Type}

/-- A planar image is usable: each band is a valid image of the planar image's size which owns its pixels, and no
two bands use the same array. -/
structure Planar.Valid (h : Heap V) (p : Planar) : Prop where
  band : ∀ (i : Nat) (g : Gray), p.bands[i]? = some g →
    g.Valid h ∧ g.subimage = false ∧ g.width = p.width ∧ g.height = p.height
  apart : ∀ (i j : Nat) (a b : Gray), i ≠ j → p.bands[i]? = some a → p.bands[j]? = some b → a.buf ≠ b.buf
  own : p.subimage = false

/-- Array `b` is used by a band. -/
def Planar.Uses (p : Planar) (b : Nat) : Prop := ∃ (i : Nat) (g : Gray), p.bands[i]? = some g ∧ g.buf = b

/-- What making planar image `p'` out of `p` may do to the heap. -/
structure PlanarReshaped (h h' : Heap V) (p p' : Planar) (w ht : Nat) : Prop where
  width : p'.width = w
  height : p'.height = ht
  stride : p'.stride = w
  valid : p'.Valid h'
  count : p'.bands.length = p.bands.length
  /-- arrays of others keep their contents -/
  frame : ∀ b i, ¬p.Uses b → b < h.next → h'.cell b i = h.cell b i
  alive : ∀ b, ¬p.Uses b → b < h.next → (h'.get b).isSome = (h.get b).isSome
  /-- nothing is leaked -/
  fresh : ∀ b, h.next ≤ b → (h'.get b).isSome → p'.Uses b
  released : ∀ b, p.Uses b → ¬p'.Uses b → h'.get b = none
  /-- nobody else's array is taken -/
  mine : ∀ b, p'.Uses b → p.Uses b ∨ h.next ≤ b
  /-- nothing at all happens when the shape is already right -/
  same : p.width = w → p.height = ht → p'.bands = p.bands ∧ h' = h

end Boof
