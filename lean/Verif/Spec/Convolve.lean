import Verif.Model.Convolve
import Verif.Spec.Border
import Verif.Spec.Kernel
/-
What the convolution functions compute.  The element arithmetic `A` is a parameter; sums are accumulated in the order
of the coefficients, and `none` means that the arithmetic is undefined (an overflow or a division by zero).
-/
namespace Boof
variable {V S : Type}

/-- `step (n-1) (… (step 1 (step 0 s)))`, undefined when a step is. -/
def foldO {α : Type} : Nat → α → (Nat → α → Option α) → Option α
  | 0, s, _ => some s
  | n+1, s, step => (foldO n s step).bind (step n)

/-- The picture `f` of size `w × h`, extended to all coordinates the way border `b` says. -/
def Border.ext (b : Border V) (w h : Nat) (f : Nat → Nat → V) (x y : Int) : V :=
  match b with
  | .extend => f (clampTo w x) (clampTo h y)
  | .reflect => f (mirrorTo w x) (mirrorTo h y)
  | .wrap => f (wrapTo w x) (wrapTo h y)
  | .value c => if 0 ≤ x ∧ x < w ∧ 0 ≤ y ∧ y < h then f x.toNat y.toNat else c

/-- How far outside `0 .. n-1` a border supports coordinates: `before` below `0` and `after` above `n-1`.  Reflecting and
wrapping work within one period only (see C18 and C19). -/
def Border.Reach (b : Border V) (n before after : Nat) : Prop :=
  match b with
  | .extend => True
  | .value _ => True
  | .reflect => before + 1 ≤ n ∧ after + 1 ≤ n
  | .wrap => before ≤ n ∧ after ≤ n

/-- The sum `∑ₖ cₖ · p(x+k-o, y)`. -/
def rowAt (A : Arith V S) (kw o : Nat) (c : Nat → S) (p : Int → Int → V) (x y : Nat) : Option S :=
  foldO kw A.zero (fun k s => A.mac s (c k) (p ((x : Int) + k - o) y))

/-- The sum `∑ₖ cₖ · p(x, y+k-o)`. -/
def colAt (A : Arith V S) (kw o : Nat) (c : Nat → S) (p : Int → Int → V) (x y : Nat) : Option S :=
  foldO kw A.zero (fun k s => A.mac s (c k) (p x ((y : Int) + k - o)))

/-- The sum `∑ⱼ ∑ᵢ c(i,j) · p(x+i-o, y+j-o)`. -/
def boxAt (A : Arith V S) (kw o : Nat) (c : Nat → Nat → S) (p : Int → Int → V) (x y : Nat) : Option S :=
  foldO kw A.zero (fun j s => foldO kw s (fun i s => A.mac s (c i j) (p ((x : Int) + i - o) ((y : Int) + j - o))))

/-- First coefficient that falls on a sample of a line of `n` samples when the kernel is centred on sample `x`. -/
def firstIn (o x : Nat) : Nat := o - x
/-- One past the last such coefficient. -/
def lastIn (kw o n x : Nat) : Nat := min kw (n + o - x)

/-- Weighted average of the samples `v 0 .. v (n-1)` under the kernel centred on sample `x`: only coefficients which fall
inside the line count, in the weighted sum and in the total weight. -/
def avgAt (A : Arith V S) (kw o : Nat) (c : Nat → S) (n : Nat) (v : Nat → V) (x : Nat) : Option V :=
  let k0 := firstIn o x
  let m := lastIn kw o n x - k0
  (foldO m A.zero (fun i t => A.mac t (c (k0 + i)) (v (x + (k0 + i) - o)))).bind (fun total =>
    (foldO m A.zero (fun i w => A.add w (c (k0 + i)))).bind (fun weight => A.norm total weight))

/-- The total weight of the coefficients which fall inside the line. -/
def weightAt (A : Arith V S) (kw o : Nat) (c : Nat → S) (n x : Nat) : Option S :=
  foldO (lastIn kw o n x - firstIn o x) A.zero (fun i w => A.add w (c (firstIn o x + i)))

/-- The same sums written out for ordinary numbers: `∑ cₖ · v(x+k-o)` and `∑ cₖ` over the coefficients inside the line. -/
def winSum {K : Type} [Zero K] [Add K] [Mul K] (kw o : Nat) (c : Nat → K) (n : Nat) (v : Nat → K) (x : Nat) : K :=
  sumF (lastIn kw o n x - firstIn o x) (fun i => c (firstIn o x + i) * v (x + (firstIn o x + i) - o))
def winWeight {K : Type} [Zero K] [Add K] (kw o : Nat) (c : Nat → K) (n x : Nat) : K :=
  sumF (lastIn kw o n x - firstIn o x) (fun i => c (firstIn o x + i))

/-- The pixels under a kernel of width `kw` and offset `o` centred on `x`, in a line of `n`. -/
def Under (kw o n x i : Nat) : Prop := i < n ∧ x ≤ i + o ∧ i + o < x + kw

/-- The weighted average `T/W`, rounded the way the library does: half the weight is added before an integer division, and
the quotient is converted to pixel type `t`. -/
def roundedAvg (t : IntTy) (kw o : Nat) (c : Nat → Int) (n : Nat) (v : Nat → Int) (x : Nat) : Int :=
  t.cast ((winSum kw o c n v x + (winWeight kw o c n x).tdiv 2).tdiv (winWeight kw o c n x))

/-- The weighted average `T/W`. -/
def exactAvg {K : Type} [Field K] (kw o : Nat) (c : Nat → K) (n : Nat) (v : Nat → K) (x : Nat) : K :=
  winSum kw o c n v x / winWeight kw o c n x

end Boof
