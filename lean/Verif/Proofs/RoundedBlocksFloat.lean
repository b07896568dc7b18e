import Verif.Model.RoundedBlocksFloat
import Verif.Proofs.Rounding
import Verif.Proofs.BlocksFloat
/-
Rounding errors of the block filters for images of `float`.
-/
namespace Boof
variable {K : Type} [Field K] [LinearOrder K] [IsStrictOrderedRing K] {rnd : K → Option K} {u η big A B x y : K} {n m n' m' : Nat}

/-- Multiplying by an exact number of size at most `c`. -/
theorem Within.times (R : Rounds rnd u η big) (h : Within u η n m A x y) {s : K} {c : Nat} (hs : |s| ≤ c) :
    Within u η n (c * m) (|s| * A) (s * x) (s * y) := by
  have hs0 := abs_nonneg s
  refine ⟨?_, ?_⟩
  · rw [abs_mul]; exact mul_le_mul_of_nonneg_left h.le hs0
  · rw [← mul_sub, abs_mul, ← mul_add]
    refine le_trans (mul_le_mul_of_nonneg_left h.err hs0) ?_
    unfold grown
    have h1 : |s| * (m * η) ≤ ((c * m : Nat) : K) * η := by
      push_cast
      rw [← mul_assoc]
      exact mul_le_mul_of_nonneg_right (mul_le_mul_of_nonneg_right hs (Nat.cast_nonneg _)) R.abs
    have h2 : |s| * ((1 + u) ^ n * (A + m * η)) = (1 + u) ^ n * (|s| * A + |s| * (m * η)) := by ring
    rw [h2]
    exact mul_le_mul_of_nonneg_left (by linarith) (by have := R.rel; positivity)

/-- Adding up `k` numbers. -/
theorem foldN_round (R : Rounds rnd u η big) {v e : Nat → K} {s X : K} (w : Within u η n m A X s) {n0 m0 k : Nat} (hn : n0 ≤ n) (hB : 0 ≤ B)
    (hv : ∀ i, i < k → Within u η n0 m0 B (e i) (v i))
    (hb : grown u η (n + k) (m + k * (m0 + 1)) (A + k * B) ≤ big) :
    Within u η (n + k) (m + k * (m0 + 1)) (A + k * B) (X + sumF k e) (foldN (fun i s => (rnd (s + v i)).getD 0) k s) := by
  have hA0 := w.nonneg
  have hu := R.rel
  have hη := R.abs
  induction k with
  | zero => simpa [sumF, foldN] using w
  | succ k ih =>
    have e1 : m + (k + 1) * (m0 + 1) = m + k * (m0 + 1) + (m0 + 1) := by ring
    rw [e1] at hb ⊢
    have e2 : A + ((k + 1 : Nat) : K) * B = A + k * B + B := by push_cast; ring
    rw [e2] at hb ⊢
    have hAk : 0 ≤ A + k * B := add_nonneg hA0 (mul_nonneg (Nat.cast_nonneg _) hB)
    have w1 := ih (fun i hi => hv i (by omega)) (le_trans (grown_mono hu hη hAk (by linarith) (by omega) (by omega)) hb)
    have w2 := w1.plus ((hv k (by omega)).mono R (n' := n + k) (m' := m0) (by omega) (le_refl _))
    obtain ⟨z, ez, wz⟩ := w2.round R (le_trans (grown_mono hu hη (by linarith) (le_refl _) (by omega) (by omega)) hb)
    have e3 : X + sumF (k + 1) e = X + sumF k e + e k := by simp only [sumF]; ring
    rw [e3]
    show Within _ _ _ _ _ _ ((rnd (foldN _ k s + v k)).getD 0)
    rw [ez, Option.getD_some]
    exact wz.mono R (by omega) (by omega)

/-- Adding up the numbers of a rectangle. -/
theorem rectFold_round (R : Rounds rnd u η big) {f g : Nat → Nat → K} {x0 x1 y0 y1 n0 m0 : Nat} (hB : 0 ≤ B)
    (hv : ∀ x y, x0 ≤ x → x < x1 → y0 ≤ y → y < y1 → Within u η n0 m0 B (g x y) (f x y))
    (hb : grown u η (n0 + (y1 - y0) * (x1 - x0)) ((y1 - y0) * (x1 - x0) * (m0 + 1)) (((y1 - y0) * (x1 - x0) : Nat) * B) ≤ big) :
    Within u η (n0 + (y1 - y0) * (x1 - x0)) ((y1 - y0) * (x1 - x0) * (m0 + 1)) (((y1 - y0) * (x1 - x0) : Nat) * B)
      (rectSumK g x0 x1 y0 y1) (rectFold (fun a b => (rnd (a + b)).getD 0) 0 f x0 x1 y0 y1) := by
  have hu := R.rel
  have hη := R.abs
  unfold rectSumK rectFold
  have hv' : ∀ x y, x < x1 - x0 → y < y1 - y0 → Within u η n0 m0 B (g (x0 + x) (y0 + y)) (f (x0 + x) (y0 + y)) :=
    fun x y hx hy => hv _ _ (by omega) (by omega) (by omega) (by omega)
  generalize x1 - x0 = w at *
  generalize y1 - y0 = k at *
  clear hv
  induction k with
  | zero => simpa [sumF, foldN] using (Within.exact (n := n0) (m := 0) R (le_of_eq abs_zero) : Within u η n0 0 0 0 0)
  | succ k ih =>
    have e0 : (k + 1) * w = k * w + w := Nat.succ_mul k w
    have e1 : (k + 1) * w * (m0 + 1) = k * w * (m0 + 1) + w * (m0 + 1) := by ring
    have e2 : (((k + 1) * w : Nat) : K) * B = ((k * w : Nat) : K) * B + w * B := by push_cast; ring
    rw [e1, e2, e0, ← add_assoc] at hb ⊢
    have hw0 : 0 ≤ (w : K) * B := mul_nonneg (Nat.cast_nonneg _) hB
    have hk0 : 0 ≤ ((k * w : Nat) : K) * B := mul_nonneg (Nat.cast_nonneg _) hB
    have w1 := ih (le_trans (grown_mono hu hη hk0 (by linarith) (by omega) (by omega)) hb)
      (fun x y hx hy => hv' x y hx (by omega))
    exact foldN_round R w1 (by omega) hB (fun i hi => hv' i k hi (by omega)) hb

end Boof
