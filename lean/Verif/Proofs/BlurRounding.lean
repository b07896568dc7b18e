import Verif.Props.GaussRounding
import Verif.Props.IntRounding
import Verif.Props.Blur
import Mathlib.Algebra.BigOperators.Intervals
/-
Gaussian blurs with rounding: windows of the Gaussian kernel, perturbed kernels, and simple bounds for the error of averages.
-/
namespace Boof
open M

section
variable {K : Type} [Field K] [LinearOrder K] [IsStrictOrderedRing K] [FloorRing K]

/-- The first numbers of a decreasing sequence have the larger average. -/
theorem prefix_avg {g : Nat → K} {N m : Nat} (hm : m ≤ N) (hg : ∀ i j, i ≤ j → j < N → g j ≤ g i) :
    (m : K) * sumF N g ≤ (N : K) * sumF m g := by
  induction N with
  | zero =>
    obtain rfl : m = 0 := by omega
    exact le_refl _
  | succ N ih =>
    rcases Nat.lt_or_ge N m with c | c
    · obtain rfl : m = N + 1 := by omega
      exact le_refl _
    have h1 := ih c (fun i j hij hj => hg i j hij (by omega))
    have h2 : sumF m (fun _ => g N) ≤ sumF m g := sumF_mono (fun i hi => hg i N (by omega) (by omega))
    rw [sumF_const] at h2
    show (m : K) * (sumF N g + g N) ≤ ((N + 1 : Nat) : K) * sumF m g
    push_cast
    linarith

theorem sumF_back {n : Nat} (f g : Nat → K) (h : ∀ i, i < n → f (n - 1 - i) = g i) : sumF n f = sumF n g := by
  rw [sumF_eq, sumF_eq, ← Finset.sum_range_reflect]
  exact Finset.sum_congr rfl (fun i hi => h i (Finset.mem_range.mp hi))

/-- Symmetric kernels which do not increase away from the middle: windows which contain the middle have at least the average weight. -/
theorem window_avg {G : Nat → K} {w p q : Nat} (hp : p ≤ w / 2) (hq : w / 2 < q) (hqw : q ≤ w)
    (hsym : ∀ i, i < w → G (w - 1 - i) = G i) (hord : ∀ i j, w / 2 ≤ i → i ≤ j → j < w → G j ≤ G i) :
    ((q - p : Nat) : K) * sumF w G ≤ (w : K) * sumF (q - p) (fun i => G (p + i)) := by
  obtain ⟨r, hr⟩ : ∃ r, r = w / 2 := ⟨_, rfl⟩
  rw [← hr] at hp hq hord
  rcases Nat.mod_two_eq_zero_or_one w with e | e
  · obtain rfl : w = r + r := by omega
    obtain ⟨a, rfl⟩ : ∃ a, r = p + a := ⟨r - p, by omega⟩
    obtain ⟨b, rfl⟩ : ∃ b, q = p + a + b := ⟨q - (p + a), by omega⟩
    have half : ∀ k, k ≤ p + a → sumF k (fun i => G (p + a - k + i)) = sumF k (fun i => G (p + a + i)) := fun k hk =>
      sumF_back _ _ (fun i hi => by
        rw [← hsym (p + a + i) (by omega)]
        congr 1; omega)
    have eW : sumF (p + a + (p + a)) G = 2 * sumF (p + a) (fun i => G (p + a + i)) := by
      have h0 := half (p + a) (le_refl _)
      rw [sumF_append, two_mul, ← h0]
      congr 1
      exact sumF_congr (fun i _ => by congr 1; omega)
    have ew : sumF (p + a + b - p) (fun i => G (p + i)) = sumF a (fun i => G (p + a + i)) + sumF b (fun i => G (p + a + i)) := by
      rw [show p + a + b - p = a + b by omega, sumF_append, ← half a (by omega)]
      congr 1
      · exact sumF_congr (fun i _ => by congr 1; omega)
      · exact sumF_congr (fun i _ => by congr 1; omega)
    have hd : ∀ i j, i ≤ j → j < p + a → G (p + a + j) ≤ G (p + a + i) := fun i j hij hj => hord _ _ (by omega) (by omega) (by omega)
    have h1 := prefix_avg (g := fun i => G (p + a + i)) (m := a) (by omega) hd
    have h2 := prefix_avg (g := fun i => G (p + a + i)) (m := b) (by omega) hd
    rw [eW, ew, show p + a + b - p = a + b by omega]
    push_cast at h1 h2 ⊢
    linarith
  · obtain rfl : w = r + 1 + r := by omega
    obtain ⟨a, rfl⟩ : ∃ a, r = p + a := ⟨r - p, by omega⟩
    obtain ⟨b, rfl⟩ : ∃ b, q = p + a + 1 + b := ⟨q - (p + a + 1), by omega⟩
    have half : ∀ k, k ≤ p + a → sumF k (fun i => G (p + a - k + i)) = sumF k (fun i => G (p + a + 1 + i)) := fun k hk =>
      sumF_back _ _ (fun i hi => by
        rw [← hsym (p + a + 1 + i) (by omega)]
        congr 1; omega)
    have eW : sumF (p + a + 1 + (p + a)) G = 2 * sumF (p + a) (fun i => G (p + a + 1 + i)) + G (p + a) := by
      have h0 := half (p + a) (le_refl _)
      have h3 : sumF (p + a + 1) G = sumF (p + a) G + G (p + a) := rfl
      have h4 : sumF (p + a) G = sumF (p + a) (fun i => G (p + a + 1 + i)) := by
        rw [← h0]; exact sumF_congr (fun i _ => by congr 1; omega)
      rw [sumF_append, h3, h4]; ring
    have ew : sumF (p + a + 1 + b - p) (fun i => G (p + i)) = sumF a (fun i => G (p + a + 1 + i)) + sumF b (fun i => G (p + a + 1 + i)) + G (p + a) := by
      have h3 : sumF (a + 1) (fun i => G (p + i)) = sumF a (fun i => G (p + i)) + G (p + a) := rfl
      have h4 : sumF a (fun i => G (p + i)) = sumF a (fun i => G (p + a + 1 + i)) := by
        rw [← half a (by omega)]; exact sumF_congr (fun i _ => by congr 1; omega)
      have h5 : sumF b (fun i => G (p + (a + 1 + i))) = sumF b (fun i => G (p + a + 1 + i)) := sumF_congr (fun i _ => by congr 1; omega)
      rw [show p + a + 1 + b - p = a + 1 + b by omega, sumF_append, h3, h4, h5]; ring
    have hd : ∀ i j, i ≤ j → j < p + a → G (p + a + 1 + j) ≤ G (p + a + 1 + i) := fun i j hij hj => hord _ _ (by omega) (by omega) (by omega)
    have h1 := prefix_avg (g := fun i => G (p + a + 1 + i)) (m := a) (by omega) hd
    have h2 := prefix_avg (g := fun i => G (p + a + 1 + i)) (m := b) (by omega) hd
    -- the coefficient in the middle is at least the average of the others
    have h6 : sumF (p + a) (fun i => G (p + a + 1 + i)) ≤ ((p + a : Nat) : K) * G (p + a) := by
      rw [← sumF_const]
      exact sumF_mono (fun i hi => hord _ _ (by omega) (by omega) (by omega))
    rw [eW, ew, show p + a + 1 + b - p = a + 1 + b by omega]
    set S := sumF (p + a) (fun i => G (p + a + 1 + i))
    set A := sumF a (fun i => G (p + a + 1 + i))
    set B := sumF b (fun i => G (p + a + 1 + i))
    rcases Nat.eq_zero_or_pos (p + a) with h0 | h0
    · obtain rfl : a = 0 := by omega
      obtain rfl : p = 0 := by omega
      obtain rfl : b = 0 := by omega
      have : S = 0 := rfl
      have hA : A = 0 := rfl
      have hB : B = 0 := rfl
      rw [this, hA, hB]; norm_num
    have h0' : (0 : K) < ((p + a : Nat) : K) := by exact_mod_cast h0
    have hab : ((a + b : Nat) : K) ≤ 2 * ((p + a : Nat) : K) := by exact_mod_cast (by omega : a + b ≤ 2 * (p + a))
    have h7 : ((a + b : Nat) : K) * (((p + a : Nat) : K) * G (p + a) - S) ≤ 2 * ((p + a : Nat) : K) * (((p + a : Nat) : K) * G (p + a) - S) :=
      mul_le_mul_of_nonneg_right hab (by linarith)
    refine le_of_mul_le_mul_left ?_ h0'
    have h8 : ((p + a + 1 + (p + a) : Nat) : K) * (((a : Nat) : K) * S + ((b : Nat) : K) * S) ≤ ((p + a + 1 + (p + a) : Nat) : K) * (((p + a : Nat) : K) * (A + B)) :=
      mul_le_mul_of_nonneg_left (by linarith) (Nat.cast_nonneg _)
    push_cast at h7 h8 ⊢
    linarith

/-- Weighted averages with a kernel that is slightly wrong. -/
theorem avg_perturbed {m : Nat} {a b v : Nat → K} {δ M : K} (hδ : 0 ≤ δ) (hδ1 : δ < 1) (hb : ∀ i, i < m → 0 ≤ b i) (hB : 0 < sumF m b)
    (hab : sumF m (fun i => |a i - b i|) ≤ δ * sumF m b) (hv : ∀ i, i < m → |v i| ≤ M) :
    (1 - δ) * sumF m b ≤ sumF m a ∧
    |sumF m (fun i => a i * v i) / sumF m a - sumF m (fun i => b i * v i) / sumF m b| ≤ 2 * M * δ / (1 - δ) := by
  have sub : ∀ f g : Nat → K, sumF m f - sumF m g = sumF m (fun i => f i - g i) := fun f g => by
    rw [sumF_eq, sumF_eq, sumF_eq, Finset.sum_sub_distrib]
  have habs : ∀ f : Nat → K, |sumF m f| ≤ sumF m (fun i => |f i|) := fun f => by
    rw [sumF_eq, sumF_eq]; exact Finset.abs_sum_le_sum_abs _ _
  have h1 : (1 - δ) * sumF m b ≤ sumF m a := by
    have h2 := le_trans (habs (fun i => a i - b i)) hab
    rw [← sub] at h2
    have := (abs_le.mp h2).1
    linarith
  refine ⟨h1, ?_⟩
  have hA : 0 < sumF m a := lt_of_lt_of_le (mul_pos (by linarith) hB) h1
  set A := sumF m (fun i => b i * v i) / sumF m b with hAdef
  have hAM : |A| ≤ M := by
    rw [hAdef, abs_div, abs_of_pos hB, div_le_iff₀ hB]
    refine le_trans (habs _) ?_
    rw [← sumF_mul]
    exact sumF_mono (fun i hi => by
      rw [abs_mul, abs_of_nonneg (hb i hi), mul_comm]
      exact mul_le_mul_of_nonneg_right (hv i hi) (hb i hi))
  have hz : sumF m (fun i => b i * (v i - A)) = 0 := by
    have : sumF m (fun i => b i * (v i - A)) = sumF m (fun i => b i * v i) - sumF m (fun i => A * b i) := by
      rw [sub]; exact sumF_congr (fun i _ => by ring)
    rw [this, sumF_mul, hAdef, div_mul_cancel₀ _ (ne_of_gt hB), sub_self]
  have hkey : sumF m (fun i => a i * v i) / sumF m a - A = sumF m (fun i => (a i - b i) * (v i - A)) / sumF m a := by
    have e1 : sumF m (fun i => (a i - b i) * (v i - A)) = sumF m (fun i => a i * v i) - A * sumF m a := by
      have : sumF m (fun i => (a i - b i) * (v i - A)) = sumF m (fun i => a i * v i - A * a i) - sumF m (fun i => b i * (v i - A)) := by
        rw [sub]; exact sumF_congr (fun i _ => by ring)
      rw [this, hz, sub_zero, ← sub, sumF_mul]
    rw [e1, sub_div, mul_div_cancel_right₀ _ (ne_of_gt hA)]
  rw [hkey, abs_div, abs_of_pos hA, div_le_div_iff₀ hA (by linarith)]
  have h3 : |sumF m (fun i => (a i - b i) * (v i - A))| ≤ 2 * M * (δ * sumF m b) := by
    refine le_trans (habs _) (le_trans ?_ (mul_le_mul_of_nonneg_left hab (by have := le_trans (abs_nonneg _) hAM; linarith)))
    rw [← sumF_mul]
    exact sumF_mono (fun i hi => by
      rw [abs_mul, mul_comm]
      refine mul_le_mul_of_nonneg_right ?_ (abs_nonneg _)
      have := abs_sub (v i) A
      have := hv i hi
      linarith)
  have hM : 0 ≤ M := le_trans (abs_nonneg _) hAM
  have h4 := mul_le_mul_of_nonneg_right h3 (show 0 ≤ 1 - δ by linarith)
  have h5 : 2 * M * (δ * sumF m b) * (1 - δ) ≤ 2 * M * δ * sumF m a := by
    have := mul_le_mul_of_nonneg_left h1 (show 0 ≤ 2 * M * δ by positivity)
    linarith
  exact le_trans h4 h5

/-- `(1+u)^k` for small `k*u`. -/
theorem pow_small {u : K} (hu : 0 ≤ u) {k : Nat} (hk : 1000 * (k : K) * u ≤ 1) : (1 + u) ^ k ≤ 1 + 1.01 * (k : K) * u := by
  have h1 : ∀ k : Nat, (k : K) * u ≤ 1 → (1 + u) ^ k * (1 - k * u) ≤ 1 := by
    intro k
    induction k with
    | zero => intro _; norm_num
    | succ k ih =>
      intro hk
      push_cast at hk
      have h0 : 0 ≤ (k : K) * u := mul_nonneg (Nat.cast_nonneg _) hu
      have h2 := ih (by linarith)
      refine le_trans ?_ h2
      rw [pow_succ, mul_assoc]
      refine mul_le_mul_of_nonneg_left ?_ (pow_nonneg (by linarith) _)
      push_cast
      have : 0 ≤ u * u := mul_nonneg hu hu
      have : 0 ≤ (k : K) * (u * u) := mul_nonneg (Nat.cast_nonneg _) this
      linarith
  have h0 : 0 ≤ (k : K) * u := mul_nonneg (Nat.cast_nonneg _) hu
  have h2 := h1 k (by linarith)
  have hk' : 1000 * ((k : K) * u) ≤ 1 := by rw [← mul_assoc]; exact hk
  rw [mul_assoc]
  generalize (k : K) * u = t at h0 h2 hk' ⊢
  have h3 : t * t ≤ t * (1 / 1000) := mul_le_mul_of_nonneg_left (by linarith) h0
  refine le_of_mul_le_mul_right (le_trans h2 ?_) (show 0 < 1 - t by linarith)
  have : (1 + 1.01 * t) * (1 - t) = 1 + 0.01 * t - 1.01 * (t * t) := by ring
  rw [this]
  linarith

/-- Errors of `k` roundings in a row. -/
theorem roundError_small {u η A : K} (hu : 0 ≤ u) (hη : 0 ≤ η) (hA : 0 ≤ A) {k m : Nat} (hk : 1000 * (k : K) * u ≤ 1) (hm : (m : K) * η ≤ u * A) :
    0 ≤ roundError u η k m A ∧ roundError u η k m A ≤ 1.02 * ((k : K) + 1) * u * A := by
  have h0 : 0 ≤ (k : K) * u := mul_nonneg (Nat.cast_nonneg _) hu
  have hmη : 0 ≤ (m : K) * η := mul_nonneg (Nat.cast_nonneg _) hη
  have huA : 0 ≤ u * A := mul_nonneg hu hA
  unfold roundError grown
  constructor
  · have := mul_le_mul_of_nonneg_right (one_le_pow₀ (show 1 ≤ 1 + u by linarith) : 1 ≤ (1 + u) ^ k) (show 0 ≤ A + m * η by linarith)
    linarith
  · have h1 := pow_small hu hk
    have h2 : (1 + u) ^ k * (A + m * η) ≤ (1 + 1.01 * (k : K) * u) * (A + u * A) :=
      mul_le_mul h1 (by linarith) (by linarith) (by linarith)
    have h3 : (k : K) * u * (u * A) ≤ 1 / 1000 * (u * A) := mul_le_mul_of_nonneg_right (by linarith) huA
    have h4 : 0 ≤ (k : K) * (u * A) := mul_nonneg (Nat.cast_nonneg _) huA
    have e1 : (1 + 1.01 * (k : K) * u) * (A + u * A) = A + u * A + 1.01 * ((k : K) * (u * A)) + 1.01 * ((k : K) * u * (u * A)) := by ring
    have e2 : 1.02 * ((k : K) + 1) * u * A = 1.02 * ((k : K) * (u * A)) + 1.02 * (u * A) := by ring
    rw [e2]
    rw [e1] at h2
    linarith

/-- Errors of an average. -/
theorem avgBound_small {u η big C M : K} (hu : 0 ≤ u) (hη : 0 ≤ η) (hC : 0 < C) (hM : 0 ≤ M) {m : Nat} (hm : 0 < m)
    (hk : 1000 * ((m : K) + 1) * u ≤ 1) (h1 : (m : K) * η ≤ u * C) (h2 : 2 * (m : K) * η ≤ u * (C * M)) (h3 : η ≤ u * M)
    (hb1 : 2 * C ≤ big) (hb2 : 2 * (C * M) ≤ big) (hb3 : 2 * M ≤ big) :
    AvgFits u η big m C M ∧ avgBound u η m C M ≤ 8 * m * u * M := by
  have hm1 : (1 : K) ≤ m := by exact_mod_cast hm
  have hCM : 0 ≤ C * M := mul_nonneg hC.le hM
  have huM : 0 ≤ u * M := mul_nonneg hu hM
  have hmu : 0 ≤ (m : K) * u := mul_nonneg (by linarith) hu
  obtain ⟨a0, a1⟩ := roundError_small hu hη hC.le (k := m) (m := m) (by linarith) h1
  obtain ⟨b0, b1⟩ := roundError_small hu hη hCM (k := m + 1) (m := 2 * m) (by push_cast; linarith) (by push_cast; linarith)
  push_cast at b1
  have a2 : 1.02 * ((m : K) + 1) * u * C ≤ 0.01 * C := mul_le_mul_of_nonneg_right (by linarith) hC.le
  have b2 : 1.02 * ((m : K) + 1 + 1) * u * (C * M) ≤ 0.01 * (C * M) := mul_le_mul_of_nonneg_right (by linarith) hCM
  have hden : 0.99 * C ≤ C - roundError u η m m C := by linarith
  have hden0 : 0 < C - roundError u η m m C := lt_of_lt_of_le (by positivity) hden
  have herr0 : 0 ≤ avgError u η m C M := by
    unfold avgError
    exact div_nonneg (add_nonneg b0 (mul_nonneg hM a0)) hden0.le
  have herr : avgError u η m C M ≤ 1.04 * (2 * m + 3) * (u * M) := by
    unfold avgError
    rw [div_le_iff₀ hden0]
    have e1 := mul_le_mul_of_nonneg_left a1 hM
    have e2 : 1.04 * (2 * (m : K) + 3) * (u * M) * (0.99 * C) ≤ 1.04 * (2 * (m : K) + 3) * (u * M) * (C - roundError u η m m C) :=
      mul_le_mul_of_nonneg_left hden (by positivity)
    refine le_trans ?_ e2
    have e3 : 0 ≤ u * (C * M) := mul_nonneg hu hCM
    have e4 : 0 ≤ (m : K) * (u * (C * M)) := mul_nonneg (by linarith) e3
    have e5 : 1.04 * (2 * (m : K) + 3) * (u * M) * (0.99 * C) = 1.04 * 0.99 * (2 * ((m : K) * (u * (C * M))) + 3 * (u * (C * M))) := by ring
    have e6 : 1.02 * ((m : K) + 1 + 1) * u * (C * M) = 1.02 * ((m : K) * (u * (C * M)) + 2 * (u * (C * M))) := by ring
    have e7 : M * (1.02 * ((m : K) + 1) * u * C) = 1.02 * ((m : K) * (u * (C * M)) + u * (C * M)) := by ring
    rw [e5]
    rw [e6] at b1
    rw [e7] at e1
    linarith
  have hmuM : 0 ≤ (m : K) * (u * M) := mul_nonneg (by linarith) huM
  have huM1 : u * M ≤ (m : K) * (u * M) := by
    have := mul_le_mul_of_nonneg_right hm1 huM
    linarith
  have hsm : (m : K) * (u * M) ≤ 1 / 1000 * M := by
    have := mul_le_mul_of_nonneg_right (show (m : K) * u ≤ 1 / 1000 by linarith) hM
    linarith
  refine ⟨⟨by linarith, ?_, ?_, ?_⟩, ?_⟩
  · have : grown u η m m C = roundError u η m m C + C := by unfold roundError; ring
    rw [this]; linarith
  · have : grown u η (m + 1) (2 * m) (C * M) = roundError u η (m + 1) (2 * m) (C * M) + C * M := by unfold roundError; ring
    rw [this]; linarith
  · have : 1.04 * (2 * (m : K) + 3) * (u * M) = 1.04 * (2 * ((m : K) * (u * M)) + 3 * (u * M)) := by ring
    rw [this] at herr
    linarith
  · unfold avgBound
    have e1 : 1.04 * (2 * (m : K) + 3) * (u * M) = 1.04 * (2 * ((m : K) * (u * M)) + 3 * (u * M)) := by ring
    rw [e1] at herr
    have e2 : u * avgError u η m C M ≤ 1 / 1000 * avgError u η m C M := mul_le_mul_of_nonneg_right (by linarith) herr0
    have e3 : 8 * (m : K) * u * M = 8 * ((m : K) * (u * M)) := by ring
    rw [e3]
    linarith

end

/-! ## Windows of the Gaussian -/

theorem gaussCoef_pos {sigma : ℝ} {w : Nat} (hw : 0 < w) (i : Nat) : 0 < gaussCoef sigma w i :=
  div_pos (bell_pos sigma w i) (sumF_pos hw (fun j _ => bell_pos sigma w j))

theorem gaussCoef_symm {sigma : ℝ} {w i : Nat} (hi : i < w) : gaussCoef sigma w (w - 1 - i) = gaussCoef sigma w i := by
  have e : ((w - 1 - i : Nat) : ℝ) = (w : ℝ) - 1 - i := by
    rw [Nat.cast_sub (by omega), Nat.cast_sub (by omega), Nat.cast_one]
  have : bell sigma w (w - 1 - i) = bell sigma w i := by
    unfold bell
    rw [e]; congr 2; ring
  unfold gaussCoef
  rw [this]

theorem gaussCoef_anti {sigma : ℝ} {w i j : Nat} (hi : w / 2 ≤ i) (hij : i ≤ j) (hj : j < w) : gaussCoef sigma w j ≤ gaussCoef sigma w i := by
  have hi' : ((w : ℝ) - 1) / 2 ≤ i := by
    have : (w : ℝ) ≤ 2 * i + 1 := by exact_mod_cast (by omega : w ≤ 2 * i + 1)
    linarith
  have hij' : (i : ℝ) ≤ j := by exact_mod_cast hij
  have hb : bell sigma w j ≤ bell sigma w i := by
    unfold bell
    refine Real.exp_le_exp.mpr (neg_le_neg (div_le_div_of_nonneg_right (pow_le_pow_left₀ (by linarith) (by linarith) 2) ?_))
    have := sq_nonneg sigma
    linarith
  exact div_le_div_of_nonneg_right hb (sumF_pos (by omega) (fun k _ => bell_pos sigma w k)).le

/-- The computed averages of a line of samples, with a kernel close to the Gaussian. -/
theorem gauss_line {u η big sigma M : ℝ} {w : Nat} (hu : 0 ≤ u) (hη : 0 ≤ η) (hw : 0 < w) {c : Nat → ℝ} (hc : ∀ i, i < w → 0 ≤ c i ∧ c i ≤ 1)
    (hcl : ∀ i, i < w → |c i - gaussCoef sigma w i| ≤ 24 * (1 + w * gaussCoef sigma w i) * u)
    (hfine : 1000 * ((w : ℝ) + 1) * u ≤ 1) (ht1 : 4 * (w : ℝ) * η ≤ u) (hM : 0 ≤ M) (ht2 : 4 * (w : ℝ) * η ≤ u * M) (hb1 : 2 * (w : ℝ) ≤ big)
    (hb2 : 2 * (w : ℝ) * M ≤ big) {n x : Nat} (hx : x < n) :
    AvgFits u η big (lastIn w (w / 2) n x - firstIn (w / 2) x) (winWeight w (w / 2) c n x) M ∧
    ∀ (v : Nat → ℝ), (∀ i, i < n → |v i| ≤ M) → ∀ r, |r - exactAvg w (w / 2) c n v x| ≤
        avgBound u η (lastIn w (w / 2) n x - firstIn (w / 2) x) (winWeight w (w / 2) c n x) M →
      |r - exactAvg w (w / 2) (gaussCoef sigma w) n v x| ≤ 110 * w * u * M := by
  have hl : lastIn w (w / 2) n x ≤ w ∧ w / 2 < lastIn w (w / 2) n x ∧ firstIn (w / 2) x ≤ w / 2 ∧ firstIn (w / 2) x = w / 2 - x ∧
      lastIn w (w / 2) n x ≤ n + w / 2 - x := by
    unfold lastIn firstIn; omega
  obtain ⟨p, hp⟩ : ∃ p, p = firstIn (w / 2) x := ⟨_, rfl⟩
  obtain ⟨q, hq⟩ : ∃ q, q = lastIn w (w / 2) n x := ⟨_, rfl⟩
  have hwr : (1 : ℝ) ≤ w := by exact_mod_cast hw
  have hwu : 0 ≤ (w : ℝ) * u := mul_nonneg (by linarith) hu
  have h1 := window_avg (G := gaussCoef sigma w) (p := p) (q := q) (by omega) (by omega) (by omega) (fun i hi => gaussCoef_symm hi)
    (fun i j => gaussCoef_anti)
  rw [gaussCoef_sum hw, mul_one] at h1
  obtain ⟨m, hm⟩ : ∃ m, m = q - p := ⟨_, rfl⟩
  have hm0 : 0 < m := by omega
  have hmw : m ≤ w := by omega
  have hm0' : (1 : ℝ) ≤ m := by exact_mod_cast hm0
  have hmw' : (m : ℝ) ≤ w := by exact_mod_cast hmw
  rw [← hm] at h1
  have hωpos : 0 < sumF m (fun i => gaussCoef sigma w (p + i)) := sumF_pos hm0 (fun i _ => gaussCoef_pos hw _)
  have hD : sumF m (fun i => |c (p + i) - gaussCoef sigma w (p + i)|) ≤ 48 * w * u * sumF m (fun i => gaussCoef sigma w (p + i)) := by
    have h2 : sumF m (fun i => |c (p + i) - gaussCoef sigma w (p + i)|) ≤ sumF m (fun i => 24 * u * 1 + 24 * u * (w * gaussCoef sigma w (p + i))) :=
      sumF_mono (fun i hi => le_trans (hcl (p + i) (by omega)) (le_of_eq (by ring)))
    have h3 : sumF m (fun i => 24 * u * 1 + 24 * u * (w * gaussCoef sigma w (p + i))) =
        24 * u * m + 24 * u * (w * sumF m (fun i => gaussCoef sigma w (p + i))) := by
      rw [← sumF_mul, ← sumF_mul, sumF_eq, sumF_eq, Finset.sum_add_distrib, Finset.sum_const, Finset.card_range, nsmul_eq_mul]
      ring
    have h4 := mul_le_mul_of_nonneg_left h1 (show 0 ≤ 24 * u by linarith)
    linarith
  have hP := fun v hv => avg_perturbed (a := fun i => c (p + i)) (b := fun i => gaussCoef sigma w (p + i)) (v := v) (M := M)
    (show 0 ≤ 48 * w * u by linarith) (by linarith) (fun i _ => (gaussCoef_pos hw _).le) hωpos hD hv
  have eC : winWeight w (w / 2) c n x = sumF m (fun i => c (p + i)) := by
    unfold winWeight; rw [← hp, ← hq, ← hm]
  have eG : winWeight w (w / 2) (gaussCoef sigma w) n x = sumF m (fun i => gaussCoef sigma w (p + i)) := by
    unfold winWeight; rw [← hp, ← hq, ← hm]
  have hC9 : (m : ℝ) * 0.95 ≤ w * sumF m (fun i => c (p + i)) := by
    have h2 := (hP (fun _ => 0) (fun _ _ => by rw [abs_zero]; exact hM)).1
    have h3 : 0.95 * sumF m (fun i => gaussCoef sigma w (p + i)) ≤ (1 - 48 * w * u) * sumF m (fun i => gaussCoef sigma w (p + i)) :=
      mul_le_mul_of_nonneg_right (by linarith) hωpos.le
    have h4 := mul_le_mul_of_nonneg_left (le_trans h3 h2) (show (0 : ℝ) ≤ w by linarith)
    linarith
  have hCw : sumF m (fun i => c (p + i)) ≤ w := by
    have : sumF m (fun i => c (p + i)) ≤ sumF m (fun _ => (1 : ℝ)) := sumF_mono (fun i hi => (hc _ (by omega)).2)
    rw [sumF_const] at this
    linarith
  have hC0 : 0 < sumF m (fun i => c (p + i)) := by
    by_contra hneg
    have := mul_nonpos_of_nonneg_of_nonpos (show (0 : ℝ) ≤ w by linarith) (not_lt.mp hneg)
    linarith
  rw [← hp, ← hq, ← hm, eC]
  have hmη : (m : ℝ) * η ≤ u * sumF m (fun i => c (p + i)) := by
    have h2 := mul_le_mul_of_nonneg_left hC9 hu
    have h3 := mul_le_mul_of_nonneg_left ht1 (show (0 : ℝ) ≤ m by linarith)
    refine le_of_mul_le_mul_left ?_ (show (0 : ℝ) < w by linarith)
    have h4 : 0 ≤ (m : ℝ) * (w * η) := mul_nonneg (by linarith) (mul_nonneg (by linarith) hη)
    have h5 : 0 ≤ (m : ℝ) * u := mul_nonneg (by linarith) hu
    linarith
  have hmη2 : 2 * (m : ℝ) * η ≤ u * (sumF m (fun i => c (p + i)) * M) := by
    have h2 := mul_le_mul_of_nonneg_right (mul_le_mul_of_nonneg_left hC9 hu) hM
    have h3 := mul_le_mul_of_nonneg_left ht2 (show (0 : ℝ) ≤ m by linarith)
    refine le_of_mul_le_mul_left ?_ (show (0 : ℝ) < w by linarith)
    have h4 : 0 ≤ (m : ℝ) * (w * η) := mul_nonneg (by linarith) (mul_nonneg (by linarith) hη)
    have h5 : 0 ≤ (m : ℝ) * (u * M) := mul_nonneg (by linarith) (mul_nonneg hu hM)
    linarith
  have hη3 : η ≤ u * M := by
    have := mul_le_mul_of_nonneg_right hwr hη
    linarith
  have hCM : 2 * (sumF m (fun i => c (p + i)) * M) ≤ big := by
    have := mul_le_mul_of_nonneg_right hCw hM
    linarith
  have hMb : 2 * M ≤ big := by
    have := mul_le_mul_of_nonneg_right hwr hM
    linarith
  have hmu : (m : ℝ) * u ≤ w * u := mul_le_mul_of_nonneg_right hmw' hu
  obtain ⟨hfit, hbnd⟩ := avgBound_small hu hη hC0 hM hm0 (by linarith) hmη hmη2 hη3 (by linarith) hCM hMb
  refine ⟨hfit, fun v hv r hr => ?_⟩
  have h2 := (hP (fun i => v (x + (p + i) - w / 2)) (fun i hi => hv _ (by omega))).2
  have e1 : exactAvg w (w / 2) c n v x = sumF m (fun i => c (p + i) * v (x + (p + i) - w / 2)) / sumF m (fun i => c (p + i)) := by
    unfold exactAvg winSum
    rw [eC, ← hp, ← hq, ← hm]
  have e2 : exactAvg w (w / 2) (gaussCoef sigma w) n v x =
      sumF m (fun i => gaussCoef sigma w (p + i) * v (x + (p + i) - w / 2)) / sumF m (fun i => gaussCoef sigma w (p + i)) := by
    unfold exactAvg winSum
    rw [eG, ← hp, ← hq, ← hm]
  rw [← e1, ← e2] at h2
  have hwuM : 0 ≤ (w : ℝ) * u * M := mul_nonneg hwu hM
  have h3 : 2 * M * (48 * w * u) / (1 - 48 * w * u) ≤ 102 * (w * u * M) := by
    rw [div_le_iff₀ (by linarith)]
    have : 102 * (w * u * M) * 0.95 ≤ 102 * (w * u * M) * (1 - 48 * w * u) := mul_le_mul_of_nonneg_left (by linarith) (by linarith)
    linarith
  have h4 : 8 * (m : ℝ) * u * M ≤ 8 * (w * u * M) := by
    have := mul_le_mul_of_nonneg_right hmu hM
    linarith
  have h5 := abs_add_le (r - exactAvg w (w / 2) c n v x) (exactAvg w (w / 2) c n v x - exactAvg w (w / 2) (gaussCoef sigma w) n v x)
  rw [sub_add_sub_cancel] at h5
  linarith

end Boof
