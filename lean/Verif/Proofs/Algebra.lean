import Mathlib.Algebra.BigOperators.Ring.Finset
import Mathlib.Algebra.BigOperators.Group.Finset.Sigma
import Verif.Spec.Algebra
import Verif.Proofs.Border
import Verif.Proofs.Paint
/-
Lemmas for the laws of convolution: borders as maps of coordinates, sums.
-/
namespace Boof
variable {V : Type}

theorem sumF_eq {K : Type} [AddCommMonoid K] (n : Nat) (f : Nat → K) : sumF n f = ∑ i ∈ Finset.range n, f i := by
  induction n with
  | zero => rfl
  | succ n ih => rw [Finset.sum_range_succ, ← ih]; rfl

/-- Where a border looks in a line of `n` pixels. -/
def Border.coord (b : Border V) (n : Nat) (x : Int) : Option Nat :=
  match b with
  | .extend => some (clampTo n x)
  | .reflect => some (mirrorTo n x)
  | .wrap => some (wrapTo n x)
  | .value _ => if 0 ≤ x ∧ x < n then some x.toNat else none

theorem Border.ext_eq [Zero V] {b : Border V} (hb : b.Homogeneous) (w h : Nat) (f : Nat → Nat → V) (x y : Int) :
    b.ext w h f x y = ((b.coord w x).bind (fun i => (b.coord h y).map (f i))).getD 0 := by
  cases b with
  | extend => rfl
  | reflect => rfl
  | wrap => rfl
  | value c =>
    have : c = 0 := hb
    subst this
    simp only [Border.ext, Border.coord]
    by_cases hx : 0 ≤ x ∧ x < w
    · by_cases hy : 0 ≤ y ∧ y < h
      · simp [hx, hy]
      · rw [if_neg (fun hc => hy ⟨hc.2.2.1, hc.2.2.2⟩)]
        simp [hx, hy]
    · rw [if_neg (fun hc => hx ⟨hc.1, hc.2.1⟩)]
      simp [hx]

theorem Border.coord_in (b : Border V) {n : Nat} {x : Nat} (hx : x < n) : b.coord n x = some x := by
  cases b with
  | extend => simp only [Border.coord, clampTo]; congr 1; omega
  | reflect => simp only [Border.coord]; rw [mirror_in (by omega) (by omega)]; simp
  | wrap => simp only [Border.coord, wrapTo]; rw [Int.emod_eq_of_lt (by omega) (by omega)]; simp
  | value c => simp only [Border.coord]; rw [if_pos ⟨by omega, by omega⟩]; simp

theorem mirrorTo_lt {n : Nat} (hn : 0 < n) (x : Int) : mirrorTo n x < n := by
  unfold mirrorTo
  simp only []
  by_cases h1 : n ≤ 1
  · rw [if_pos h1]; exact hn
  · rw [if_neg h1]
    have := Int.emod_nonneg x (show 2 * ((n : Int) - 1) ≠ 0 by omega)
    have := Int.emod_lt_of_pos x (show 0 < 2 * ((n : Int) - 1) by omega)
    split <;> omega

theorem clampTo_lt {n : Nat} (hn : 0 < n) (x : Int) : clampTo n x < n := by unfold clampTo; omega

theorem wrapTo_lt {n : Nat} (hn : 0 < n) (x : Int) : wrapTo n x < n := by
  unfold wrapTo
  have := Int.emod_nonneg x (show (n : Int) ≠ 0 by omega)
  have := Int.emod_lt_of_pos x (show 0 < (n : Int) by omega)
  omega

theorem Border.coord_lt (b : Border V) {n : Nat} (hn : 0 < n) {x : Int} {i : Nat} (h : b.coord n x = some i) : i < n := by
  cases b with
  | extend => simp only [Border.coord, Option.some.injEq] at h; subst h; exact clampTo_lt hn x
  | reflect => simp only [Border.coord, Option.some.injEq] at h; subst h; exact mirrorTo_lt hn x
  | wrap => simp only [Border.coord, Option.some.injEq] at h; subst h; exact wrapTo_lt hn x
  | value c =>
    simp only [Border.coord] at h
    split at h
    · simp only [Option.some.injEq] at h; omega
    · cases h

/-- A picture made of sums along the rows, extended downwards, is made of the sums of the extended picture. -/
theorem ext_rowSum {K : Type} [Ring K] {b : Border K} (hb : b.Homogeneous) {w h : Nat} {f : Nat → Nat → K} {kw o : Nat} {c : Nat → K}
    {x : Nat} (hx : x < w) (hh : 0 < h) (y : Int) :
    b.ext w h (fun x y => sumF kw (fun k => c k * b.ext w h f ((x : Int) + k - o) y)) x y =
      sumF kw (fun k => c k * b.ext w h f ((x : Int) + k - o) y) := by
  simp only [Border.ext_eq hb, sumF_eq, b.coord_in hx]
  cases hy : b.coord h y with
  | none => simp
  | some j => simp [b.coord_in (b.coord_lt hh hy)]

theorem ext_congr {b : Border V} {w h : Nat} {f g : Nat → Nat → V} (hfg : ∀ x y, x < w → y < h → f x y = g x y) (hw : 0 < w) (hh : 0 < h)
    (x y : Int) : b.ext w h f x y = b.ext w h g x y := by
  cases b with
  | extend => exact hfg _ _ (clampTo_lt hw x) (clampTo_lt hh y)
  | reflect => exact hfg _ _ (mirrorTo_lt hw x) (mirrorTo_lt hh y)
  | wrap => exact hfg _ _ (wrapTo_lt hw x) (wrapTo_lt hh y)
  | value c =>
    simp only [Border.ext]
    split
    · exact hfg _ _ (by omega) (by omega)
    · rfl

theorem ext_linear {K : Type} [Ring K] {b : Border K} (hb : b.Homogeneous) (w h : Nat) (f g : Nat → Nat → K) (p q : K) (x y : Int) :
    b.ext w h (fun x y => p * f x y + q * g x y) x y = p * b.ext w h f x y + q * b.ext w h g x y := by
  simp only [Border.ext_eq hb]
  cases b.coord w x <;> cases b.coord h y <;> simp

theorem sumF_impulse {K : Type} [Ring K] {kw m : Nat} (hm : m < kw) (v : Nat → K) : sumF kw (fun k => impulse m k * v k) = v m := by
  rw [sumF_eq, Finset.sum_eq_single m]
  · simp [impulse]
  · intro k _ hk; simp [impulse, hk]
  · intro hn; exact absurd (Finset.mem_range.mpr hm) hn

theorem sumF_product {K : Type} [CommRing K] (n n' : Nat) (c d : Nat → K) (v : Nat → K) :
    sumF n (fun i => c i * sumF n' (fun j => d j * v (i + j))) = sumF (n + n' - 1) (fun k => kernelProduct n n' c d k * v k) := by
  unfold kernelProduct
  simp only [sumF_eq, Finset.sum_mul, Finset.mul_sum]
  refine Eq.trans ?_ Finset.sum_comm
  refine Finset.sum_congr rfl (fun i hi => ?_)
  refine Eq.trans ?_ Finset.sum_comm
  refine Finset.sum_congr rfl (fun j hj => ?_)
  rw [Finset.mem_range] at hi hj
  rw [Finset.sum_eq_single (i + j)]
  · rw [if_pos rfl, mul_assoc]
  · intro k _ hk; rw [if_neg (fun h => hk h.symm), zero_mul]
  · intro hn; exact absurd (Finset.mem_range.mpr (by omega)) hn

end Boof
