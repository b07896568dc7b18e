import Verif.Spec.Convolve
import Verif.Spec.Blur
/-
Words for laws of filters.
-/
namespace Boof
variable {V : Type}

/-- The call which ended with `r` was fine and has turned `output` into an image of shape `w × ht` which shows `F`, changing nothing
else that existed in memory `h`. -/
def Makes (r : Res (Heap V) Gray) (h : Heap V) (output : Gray) (w ht : Nat) (F : Nat → Nat → V) : Prop :=
  ∃ out h', r = .ok out h' ∧ Produced h h' output out w ht F

/-- The same for two calls, the first of which writes `storage`: the final image shows `F`, and nothing changes but the two images. -/
def MakesVia (r : Res (Heap V) Gray) (h : Heap V) (storage output : Gray) (w ht : Nat) (F : Nat → Nat → V) : Prop :=
  ∃ out h', r = .ok out h' ∧ out.width = w ∧ out.height = ht ∧ out.Valid h' ∧ out.Shows h' F ∧
    (∀ b i, b ≠ storage.buf → b ≠ output.buf → b < h.next → h'.cell b i = h.cell b i)

/-- Borders which show only pixels of the image and zeros: all but those with a constant other than zero. -/
def Border.Homogeneous [Zero V] (b : Border V) : Prop :=
  match b with
  | .value c => c = 0
  | _ => True

/-- The one coefficient which is not zero is a one at position `m`. -/
def impulse {K : Type} [Zero K] [One K] (m : Nat) (k : Nat) : K := if k = m then 1 else 0

/-- The coefficients of the product of two kernels of widths `n` and `n'`: `∑ c i · d j` over all `i + j = k`. -/
def kernelProduct {K : Type} [Zero K] [Add K] [Mul K] (n n' : Nat) (c d : Nat → K) (k : Nat) : K :=
  sumF n (fun i => sumF n' (fun j => if i + j = k then c i * d j else 0))

end Boof
