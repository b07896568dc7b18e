import Mathlib.Algebra.BigOperators.Intervals
import Mathlib.Tactic.Ring
import Verif.Spec.Symmetry
import Verif.Proofs.Algebra
/-
Averages of mirrored and transposed pictures.
-/
namespace Boof

theorem sumF_mirror {K : Type} [AddCommMonoid K] (n : Nat) (f : Nat → K) : sumF n (fun i => f (n - 1 - i)) = sumF n f := by
  rw [sumF_eq, sumF_eq, Finset.sum_range_reflect]

theorem sumF_same {K : Type} [Zero K] [Add K] {n : Nat} {f g : Nat → K} (h : ∀ i, i < n → f i = g i) : sumF n f = sumF n g := by
  induction n with
  | zero => rfl
  | succ n ih =>
    show sumF n f + f n = sumF n g + g n
    rw [ih (fun i hi => h i (by omega)), h n (by omega)]

theorem mirrorIf_lt {b : Bool} {n i : Nat} (hi : i < n) : mirrorIf b n i < n := by
  unfold mirrorIf; cases b <;> simp <;> omega

theorem mirrorIf_twice {b : Bool} {n i : Nat} (hi : i < n) : mirrorIf b n (mirrorIf b n i) = i := by
  unfold mirrorIf; cases b <;> simp <;> omega

/-! ### Averages of lines -/

theorem localCount_mirror {r n x : Nat} (hx : x < n) : localCount r n (n - 1 - x) = localCount r n x := by
  unfold localCount; omega

theorem localSum_mirror {K : Type} [AddCommMonoid K] {r n x : Nat} (hx : x < n) (v : Nat → K) :
    localSum r n (fun i => v (n - 1 - i)) x = localSum r n v (n - 1 - x) := by
  unfold localSum
  rw [localCount_mirror hx]
  refine Eq.trans ?_ (sumF_mirror (localCount r n x) (fun i => v (n - 1 - x - r + i)))
  refine sumF_same (fun i hi => ?_)
  unfold localCount at hi ⊢
  have e : n - 1 - (x - r + i) = n - 1 - x - r + (min n (x + r + 1) - (x - r) - 1 - i) := by
    rcases Nat.le_total n (x + r + 1) with h | h
    · rw [Nat.min_eq_left h] at hi ⊢; omega
    · rw [Nat.min_eq_right h] at hi ⊢; omega
  beta_reduce
  rw [e]

theorem localSum_same {K : Type} [Zero K] [Add K] {r n x : Nat} {v v' : Nat → K} (h : ∀ i, i < n → v i = v' i) :
    localSum r n v x = localSum r n v' x :=
  sumF_same (fun i hi => h _ (by unfold localCount at hi; omega))

theorem roundedMean_mirrorIf {t : IntTy} {r n x : Nat} {b : Bool} (hx : x < n) (v : Nat → Int) :
    roundedMean t r n (fun i => v (mirrorIf b n i)) x = roundedMean t r n v (mirrorIf b n x) := by
  cases b
  · rfl
  · show roundedMean t r n (fun i => v (n - 1 - i)) x = roundedMean t r n v (n - 1 - x)
    unfold roundedMean
    rw [localSum_mirror hx, localCount_mirror hx]

theorem exactMean_mirrorIf {K : Type} [Field K] {r n x : Nat} {b : Bool} (hx : x < n) (v : Nat → K) :
    exactMean r n (fun i => v (mirrorIf b n i)) x = exactMean r n v (mirrorIf b n x) := by
  cases b
  · rfl
  · show exactMean r n (fun i => v (n - 1 - i)) x = exactMean r n v (n - 1 - x)
    unfold exactMean
    rw [localSum_mirror hx, localCount_mirror hx]

theorem roundedMean_same {t : IntTy} {r n x : Nat} {v v' : Nat → Int} (h : ∀ i, i < n → v i = v' i) :
    roundedMean t r n v x = roundedMean t r n v' x := by
  unfold roundedMean; rw [localSum_same h]

theorem exactMean_same {K : Type} [Field K] {r n x : Nat} {v v' : Nat → K} (h : ∀ i, i < n → v i = v' i) :
    exactMean r n v x = exactMean r n v' x := by
  unfold exactMean; rw [localSum_same h]

theorem exactMean_swap {K : Type} [Field K] (r r' n n' : Nat) (f : Nat → Nat → K) (x y : Nat) :
    exactMean r n' (fun j => exactMean r' n (fun i => f i j) x) y = exactMean r' n (fun i => exactMean r n' (fun j => f i j) y) x := by
  unfold exactMean localSum
  simp only [sumF_eq, div_eq_mul_inv, Finset.sum_mul]
  rw [Finset.sum_comm]
  exact Finset.sum_congr rfl (fun i _ => Finset.sum_congr rfl (fun j _ => by ring))

/-! ### Weighted averages of lines -/

section
variable {kw n x : Nat} (hodd : kw % 2 = 1)
include hodd

theorem win_mirror (hx : x < n) :
    lastIn kw (kw / 2) n (n - 1 - x) - firstIn (kw / 2) (n - 1 - x) = lastIn kw (kw / 2) n x - firstIn (kw / 2) x := by
  unfold lastIn firstIn; omega

theorem winWeight_mirror {K : Type} [AddCommMonoid K] {c : Nat → K} (hc : ∀ i, i < kw → c (kw - 1 - i) = c i) (hx : x < n) :
    winWeight kw (kw / 2) c n (n - 1 - x) = winWeight kw (kw / 2) c n x := by
  unfold winWeight
  rw [win_mirror hodd hx, ← sumF_mirror _ (fun i => c (firstIn (kw / 2) x + i))]
  refine sumF_same (fun i hi => ?_)
  rw [← hc _ (by unfold lastIn firstIn at *; omega)]
  congr 1
  unfold lastIn firstIn at *; omega

theorem winSum_mirror {K : Type} [NonUnitalNonAssocSemiring K] {c : Nat → K} (hc : ∀ i, i < kw → c (kw - 1 - i) = c i) (hx : x < n) (v : Nat → K) :
    winSum kw (kw / 2) c n (fun i => v (n - 1 - i)) x = winSum kw (kw / 2) c n v (n - 1 - x) := by
  unfold winSum
  rw [win_mirror hodd hx, ← sumF_mirror _ (fun i => c (firstIn (kw / 2) (n - 1 - x) + i) * v (n - 1 - x + (firstIn (kw / 2) (n - 1 - x) + i) - kw / 2))]
  refine sumF_same (fun i hi => ?_)
  have e1 : firstIn (kw / 2) (n - 1 - x) + (lastIn kw (kw / 2) n x - firstIn (kw / 2) x - 1 - i) = kw - 1 - (firstIn (kw / 2) x + i) := by
    unfold lastIn firstIn at *; omega
  have e2 : n - 1 - (x + (firstIn (kw / 2) x + i) - kw / 2) = n - 1 - x + (kw - 1 - (firstIn (kw / 2) x + i)) - kw / 2 := by
    unfold lastIn firstIn at *; omega
  beta_reduce
  rw [e1, e2, hc _ (by unfold lastIn firstIn at *; omega)]

theorem roundedAvg_mirrorIf {t : IntTy} {c : Nat → Int} (hc : ∀ i, i < kw → c (kw - 1 - i) = c i) {b : Bool} (hx : x < n) (v : Nat → Int) :
    roundedAvg t kw (kw / 2) c n (fun i => v (mirrorIf b n i)) x = roundedAvg t kw (kw / 2) c n v (mirrorIf b n x) := by
  cases b
  · rfl
  · show roundedAvg t kw (kw / 2) c n (fun i => v (n - 1 - i)) x = roundedAvg t kw (kw / 2) c n v (n - 1 - x)
    unfold roundedAvg
    rw [winSum_mirror hodd hc hx, winWeight_mirror hodd hc hx]

theorem exactAvg_mirrorIf {K : Type} [Field K] {c : Nat → K} (hc : ∀ i, i < kw → c (kw - 1 - i) = c i) {b : Bool} (hx : x < n) (v : Nat → K) :
    exactAvg kw (kw / 2) c n (fun i => v (mirrorIf b n i)) x = exactAvg kw (kw / 2) c n v (mirrorIf b n x) := by
  cases b
  · rfl
  · show exactAvg kw (kw / 2) c n (fun i => v (n - 1 - i)) x = exactAvg kw (kw / 2) c n v (n - 1 - x)
    unfold exactAvg
    rw [winSum_mirror hodd hc hx, winWeight_mirror hodd hc hx]
end

theorem winSum_same {K : Type} [Zero K] [Add K] [Mul K] {kw o n x : Nat} {c c' : Nat → K} {v v' : Nat → K} (hc : ∀ i, i < kw → c i = c' i)
    (h : ∀ i, i < n → v i = v' i) : winSum kw o c n v x = winSum kw o c' n v' x :=
  sumF_same (fun i hi => by
    rw [hc _ (by unfold lastIn firstIn at *; omega), h _ (by unfold lastIn firstIn at *; omega)])

theorem winWeight_same {K : Type} [Zero K] [Add K] {kw o n x : Nat} {c c' : Nat → K} (hc : ∀ i, i < kw → c i = c' i) :
    winWeight kw o c n x = winWeight kw o c' n x :=
  sumF_same (fun i hi => by rw [hc _ (by unfold lastIn firstIn at *; omega)])

theorem roundedAvg_same {t : IntTy} {kw o n x : Nat} {c c' v v' : Nat → Int} (hc : ∀ i, i < kw → c i = c' i) (h : ∀ i, i < n → v i = v' i) :
    roundedAvg t kw o c n v x = roundedAvg t kw o c' n v' x := by
  unfold roundedAvg; rw [winSum_same hc h, winWeight_same hc]

theorem exactAvg_same {K : Type} [Field K] {kw o n x : Nat} {c c' v v' : Nat → K} (hc : ∀ i, i < kw → c i = c' i) (h : ∀ i, i < n → v i = v' i) :
    exactAvg kw o c n v x = exactAvg kw o c' n v' x := by
  unfold exactAvg; rw [winSum_same hc h, winWeight_same hc]

theorem exactAvg_swap {K : Type} [Field K] (kw kw' o o' n n' : Nat) (c c' : Nat → K) (f : Nat → Nat → K) (x y : Nat) :
    exactAvg kw' o' c' n' (fun j => exactAvg kw o c n (fun i => f i j) x) y =
    exactAvg kw o c n (fun i => exactAvg kw' o' c' n' (fun j => f i j) y) x := by
  unfold exactAvg winSum
  simp only [sumF_eq, div_eq_mul_inv, Finset.sum_mul, Finset.mul_sum]
  rw [Finset.sum_comm]
  exact Finset.sum_congr rfl (fun i _ => Finset.sum_congr rfl (fun j _ => by ring))

end Boof
