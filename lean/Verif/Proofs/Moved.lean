import Verif.Spec.Moved
import Verif.Proofs.Part
/-
Borders of moved pictures.
-/
namespace Boof
variable {V S : Type}

/-! ### Turning -/

theorem wrapTo_turn {n : Nat} (hn : 0 < n) (x : Int) (a : Nat) : (wrapTo n x + a) % n = wrapTo n (x + a) := by
  unfold wrapTo
  have h0 := Int.emod_nonneg x (show (n : Int) ≠ 0 by omega)
  have h1 := Int.emod_nonneg (x + a) (show (n : Int) ≠ 0 by omega)
  have : (((x % n).toNat + a) % n : Nat) = ((x + a) % (n : Int)) := by
    push_cast
    rw [Int.toNat_of_nonneg h0, Int.emod_add_emod]
  omega

theorem ext_turned {w ht a b : Nat} (hw : 0 < w) (hh : 0 < ht) (f : Nat → Nat → V) (x y : Int) :
    (Border.wrap : Border V).ext w ht (turned a b w ht f) x y = (Border.wrap : Border V).ext w ht f (x + a) (y + b) := by
  simp only [Border.ext, turned, wrapTo_turn hw, wrapTo_turn hh]

theorem wrapTo_add {n : Nat} (x : Int) (k : Int) (a : Nat) : wrapTo n (((x.toNat + a) % n : Nat) + k) = wrapTo n ((x.toNat : Int) + a + k) := by
  unfold wrapTo
  congr 1
  push_cast
  rw [Int.emod_add_emod]

theorem ext_wrap_mod {w ht a b x y : Nat} (f : Nat → Nat → V) (k l : Int) :
    (Border.wrap : Border V).ext w ht f (((x + a) % w : Nat) + k) (((y + b) % ht : Nat) + l) =
    (Border.wrap : Border V).ext w ht f ((x : Int) + a + k) ((y : Int) + b + l) := by
  simp only [Border.ext]
  have e1 := wrapTo_add (n := w) (x : Int) k a
  have e2 := wrapTo_add (n := ht) (y : Int) l b
  simp only [Int.toNat_natCast] at e1 e2
  rw [e1, e2]

/-! ### Mirroring -/

theorem clampTo_mirror {n : Nat} (hn : 0 < n) (x : Int) : clampTo n ((n : Int) - 1 - x) = n - 1 - clampTo n x := by
  unfold clampTo; omega

theorem wrapTo_mirror {n : Nat} (hn : 0 < n) (x : Int) : wrapTo n ((n : Int) - 1 - x) = n - 1 - wrapTo n x := by
  unfold wrapTo
  have h0 := Int.emod_nonneg x (show (n : Int) ≠ 0 by omega)
  have h1 := Int.emod_lt_of_pos x (show 0 < (n : Int) by omega)
  have e : ((n : Int) - 1 - x) % n = n - 1 - x % n := by
    have : (n : Int) - 1 - x = (n - 1 - x % n) + n * (-(x / n)) := by
      have := Int.mul_ediv_add_emod x n
      rw [Int.mul_neg]; omega
    rw [this, Int.add_mul_emod_self_left, Int.emod_eq_of_lt (by omega) (by omega)]
  rw [e]; omega

theorem mirrorTo_mirror {n : Nat} (hn : 0 < n) (x : Int) : mirrorTo n ((n : Int) - 1 - x) = n - 1 - mirrorTo n x := by
  unfold mirrorTo
  simp only []
  by_cases h1 : n ≤ 1
  · rw [if_pos h1, if_pos h1]; omega
  · rw [if_neg h1, if_neg h1]
    generalize hp : 2 * ((n : Int) - 1) = p
    have h0 := Int.emod_nonneg x (show p ≠ 0 by omega)
    have h2 := Int.emod_lt_of_pos x (show 0 < p by omega)
    have e : ((n : Int) - 1 - x) % p = if x % p ≤ n - 1 then n - 1 - x % p else n - 1 - x % p + p := by
      have hx := Int.mul_ediv_add_emod x p
      split
      · have : (n : Int) - 1 - x = (n - 1 - x % p) + p * (-(x / p)) := by rw [Int.mul_neg]; omega
        rw [this, Int.add_mul_emod_self_left, Int.emod_eq_of_lt (by omega) (by omega)]
      · have : (n : Int) - 1 - x = (n - 1 - x % p + p) + p * (-(x / p) - 1) := by rw [Int.mul_sub, Int.mul_neg]; omega
        rw [this, Int.add_mul_emod_self_left, Int.emod_eq_of_lt (by omega) (by omega)]
    rw [e]
    split_ifs <;> omega

/-- Position `x`, counted from the other end if `a`; positions outside of the line too. -/
def flipIf (a : Bool) (n : Nat) (x : Int) : Int := if a then (n : Int) - 1 - x else x

theorem flipIf_in (a : Bool) (n : Nat) (x : Int) : (0 ≤ flipIf a n x ∧ flipIf a n x < n) ↔ (0 ≤ x ∧ x < n) := by
  unfold flipIf; cases a <;> simp <;> omega

theorem flipIf_toNat {a : Bool} {n : Nat} {x : Int} (h0 : 0 ≤ x) (h1 : x < n) : (flipIf a n x).toNat = mirrorIf a n x.toNat := by
  unfold flipIf mirrorIf
  cases a
  · rfl
  · simp only [if_true]; omega

theorem ext_mirrored (b : Border V) {w ht : Nat} {a c : Bool} (hw : 0 < w) (hh : 0 < ht) (f : Nat → Nat → V) (x y : Int) :
    b.ext w ht (mirrored a c w ht f) x y = b.ext w ht f (flipIf a w x) (flipIf c ht y) := by
  cases b with
  | extend =>
    simp only [Border.ext, mirrored, mirrorIf, flipIf]
    cases a <;> cases c <;> simp [clampTo_mirror hw, clampTo_mirror hh]
  | reflect =>
    simp only [Border.ext, mirrored, mirrorIf, flipIf]
    cases a <;> cases c <;> simp [mirrorTo_mirror hw, mirrorTo_mirror hh]
  | wrap =>
    simp only [Border.ext, mirrored, mirrorIf, flipIf]
    cases a <;> cases c <;> simp [wrapTo_mirror hw, wrapTo_mirror hh]
  | value v =>
    have k1 := flipIf_in a w x
    have k2 := flipIf_in c ht y
    simp only [Border.ext]
    by_cases hin : 0 ≤ x ∧ x < w ∧ 0 ≤ y ∧ y < ht
    · rw [if_pos hin, if_pos ⟨(k1.mpr ⟨hin.1, hin.2.1⟩).1, (k1.mpr ⟨hin.1, hin.2.1⟩).2, k2.mpr hin.2.2⟩]
      unfold mirrored
      rw [flipIf_toNat hin.1 hin.2.1, flipIf_toNat hin.2.2.1 hin.2.2.2]
    · rw [if_neg hin, if_neg (fun g => hin ⟨(k1.mp ⟨g.1, g.2.1⟩).1, (k1.mp ⟨g.1, g.2.1⟩).2, k2.mp g.2.2⟩)]

theorem Border.Reach.swap {b : Border V} {n p q : Nat} (h : b.Reach n p q) : b.Reach n q p := by
  cases b with
  | extend => trivial
  | value v => trivial
  | reflect => exact ⟨h.2, h.1⟩
  | wrap => exact ⟨h.2, h.1⟩

/-! ### Transposing -/

theorem ext_transposed (b : Border V) {w ht : Nat} (f : Nat → Nat → V) (x y : Int) :
    b.ext ht w (transposed f) y x = b.ext w ht f x y := by
  cases b with
  | extend => rfl
  | reflect => rfl
  | wrap => rfl
  | value v =>
    simp only [Border.ext, transposed]
    by_cases hin : 0 ≤ x ∧ x < w ∧ 0 ≤ y ∧ y < ht
    · rw [if_pos hin, if_pos (by omega)]
    · rw [if_neg hin, if_neg (by omega)]

/-! ### Sums -/

theorem sumF_turn {K : Type} [AddCommMonoid K] {n : Nat} (v : Nat → K) (k : Int) :
    sumF n (fun x => v (wrapTo n ((x : Int) + k))) = sumF n v := by
  rcases Nat.eq_zero_or_pos n with rfl | hn
  · rfl
  have hn' : (n : Int) ≠ 0 := by omega
  rw [sumF_eq, sumF_eq]
  refine Finset.sum_nbij' (fun x => wrapTo n ((x : Int) + k)) (fun x => wrapTo n ((x : Int) - k)) ?_ ?_ ?_ ?_ ?_
  · exact fun x _ => Finset.mem_range.mpr (wrapTo_lt hn _)
  · exact fun x _ => Finset.mem_range.mpr (wrapTo_lt hn _)
  · intro x hx
    have hx := Finset.mem_range.mp hx
    unfold wrapTo
    rw [Int.toNat_of_nonneg (Int.emod_nonneg _ hn'), Int.emod_sub_emod, Int.emod_eq_of_lt (by omega) (by omega)]; omega
  · intro x hx
    have hx := Finset.mem_range.mp hx
    unfold wrapTo
    rw [Int.toNat_of_nonneg (Int.emod_nonneg _ hn'), Int.emod_add_emod, Int.emod_eq_of_lt (by omega) (by omega)]; omega
  · intro x hx
    rfl

theorem total_turn {K : Type} [AddCommMonoid K] {w ht : Nat} (f : Nat → Nat → K) (k l : Int) :
    total w ht (fun x y => (Border.wrap : Border K).ext w ht f ((x : Int) + k) ((y : Int) + l)) = total w ht f := by
  unfold total
  simp only [Border.ext]
  rw [sumF_turn (fun y => sumF w (fun x => f (wrapTo w ((x : Int) + k)) y)) l]
  exact sumF_same (fun y _ => sumF_turn (fun x => f x y) k)

theorem total_congr {K : Type} [Zero K] [Add K] {w ht : Nat} {f g : Nat → Nat → K} (h : ∀ x y, x < w → y < ht → f x y = g x y) :
    total w ht f = total w ht g := sumF_same (fun y hy => sumF_same (fun x hx => h x y hx hy))

theorem total_sum {K : Type} [CommRing K] {w ht n : Nat} (c : Nat → K) (g : Nat → Nat → Nat → K) :
    total w ht (fun x y => sumF n (fun k => c k * g k x y)) = sumF n (fun k => c k * total w ht (g k)) := by
  unfold total
  simp only [sumF_eq, Finset.mul_sum]
  have : ∀ y, ∑ x ∈ Finset.range w, ∑ k ∈ Finset.range n, c k * g k x y = ∑ k ∈ Finset.range n, ∑ x ∈ Finset.range w, c k * g k x y :=
    fun y => Finset.sum_comm
  simp only [this]
  exact Finset.sum_comm

end Boof
