import Verif.Model.Rounded
import Verif.Spec.Rounding
import Verif.Spec.Blur
import Verif.Proofs.BlurRun
import Mathlib.Tactic.Linarith
import Mathlib.Tactic.Positivity
import Mathlib.Tactic.Ring
/-
Error analysis of sums with rounding.
-/
namespace Boof
open M
variable {V K : Type} [Field K] [LinearOrder K] [IsStrictOrderedRing K]

/-- `y` has been computed in place of `x`, which is at most `A`, with `n` roundings one after the other and `m` altogether. -/
structure Within (u η : K) (n m : Nat) (A x y : K) : Prop where
  le : |x| ≤ A
  err : |y - x| + A ≤ grown u η n m A

section
variable {rnd : K → Option K} {u η big A B x y : K} {n m n' m' : Nat}

theorem grown_mono (hu : 0 ≤ u) (hη : 0 ≤ η) (hA : 0 ≤ A) (hAB : A ≤ B) (hn : n ≤ n') (hm : m ≤ m') :
    grown u η n m A ≤ grown u η n' m' B := by
  unfold grown
  have h1 : (1 + u) ^ n ≤ (1 + u) ^ n' := pow_le_pow_right₀ (by linarith) hn
  have h2 : (m : K) * η ≤ (m' : K) * η := mul_le_mul_of_nonneg_right (by exact_mod_cast hm) hη
  have h3 : 0 ≤ (m : K) * η := mul_nonneg (Nat.cast_nonneg _) hη
  exact mul_le_mul h1 (by linarith) (by linarith) (by positivity)

theorem grown_ge (hu : 0 ≤ u) (hη : 0 ≤ η) (hA : 0 ≤ A) : A ≤ grown u η n m A := by
  have := grown_mono (n := 0) (m := 0) (n' := n) (m' := m) hu hη hA (le_refl A) (by omega) (by omega)
  simpa [grown] using this

theorem Within.nonneg (h : Within u η n m A x y) : 0 ≤ A := le_trans (abs_nonneg _) h.le

theorem Within.error (h : Within u η n m A x y) : |y - x| ≤ roundError u η n m A := by
  unfold roundError; have := h.err; linarith

theorem Within.size (h : Within u η n m A x y) : |y| ≤ grown u η n m A := by
  have h1 := h.err
  have h2 := h.le
  have h3 : |y| ≤ |y - x| + |x| := by
    have := abs_add_le (y - x) x
    rwa [sub_add_cancel] at this
  linarith

theorem Within.mono (R : Rounds rnd u η big) (h : Within u η n m A x y) (hn : n ≤ n') (hm : m ≤ m') :
    Within u η n' m' A x y := by
  refine ⟨h.le, le_trans h.err (grown_mono R.rel R.abs h.nonneg (le_refl _) hn hm)⟩

/-- A larger magnitude. -/
theorem Within.widen (R : Rounds rnd u η big) (h : Within u η n m A x y) (hAB : A ≤ B) : Within u η n m B x y := by
  refine ⟨le_trans h.le hAB, ?_⟩
  have h1 := h.err
  unfold grown at h1 ⊢
  have h2 : (1 : K) ≤ (1 + u) ^ n := one_le_pow₀ (by linarith [R.rel])
  nlinarith

theorem Within.exact (R : Rounds rnd u η big) (h : |x| ≤ A) : Within u η n m A x x := by
  have : Within u η 0 0 A x x := ⟨h, by simp [grown]⟩
  exact this.mono R (by omega) (by omega)

/-- Rounding once more. -/
theorem Within.round (R : Rounds rnd u η big) (h : Within u η n m A x y) (hb : grown u η n m A ≤ big) :
    ∃ z, rnd y = some z ∧ Within u η (n + 1) (m + 1) A x z := by
  obtain ⟨z, e, hz⟩ := R.near y (le_trans h.size hb)
  refine ⟨z, e, h.le, ?_⟩
  have h1 := h.size
  have h2 := h.err
  have h3 := abs_add_le (z - y) (y - x)
  rw [sub_add_sub_cancel] at h3
  have hu := R.rel
  have h4 : u * |y| ≤ u * grown u η n m A := mul_le_mul_of_nonneg_left h1 hu
  have h5 : |z - x| + A ≤ (1 + u) * grown u η n m A + η := by linarith
  refine le_trans h5 ?_
  unfold grown
  have h6 : (1 : K) ≤ (1 + u) ^ (n + 1) := one_le_pow₀ (by linarith)
  have h7 : η ≤ (1 + u) ^ (n + 1) * η := le_mul_of_one_le_left R.abs h6
  have h8 : (1 + u) ^ (n + 1) * (A + ((m + 1 : Nat) : K) * η) = (1 + u) * ((1 + u) ^ n * (A + m * η)) + (1 + u) ^ (n + 1) * η := by
    push_cast; ring
  rw [h8]; linarith

/-- The exact sum of computed numbers. -/
theorem Within.plus {x' y' : K} (h : Within u η n m A x y) (h' : Within u η n m' B x' y') :
    Within u η n (m + m') (A + B) (x + x') (y + y') := by
  refine ⟨le_trans (abs_add_le x x') (by linarith [h.le, h'.le]), ?_⟩
  have h1 := h.err
  have h2 := h'.err
  have h3 := abs_add_le (y - x) (y' - x')
  rw [show y - x + (y' - x') = y + y' - (x + x') by ring] at h3
  have : grown u η n (m + m') (A + B) = grown u η n m A + grown u η n m' B := by unfold grown; push_cast; ring
  linarith

/-- Adding an exact number when the result is known to stay small. -/
theorem Within.shift (h : Within u η n m A x y) (d : K) (hd : |x + d| ≤ A) : Within u η n m A (x + d) (y + d) := by
  refine ⟨hd, ?_⟩
  rw [show y + d - (x + d) = y - x by ring]
  exact h.err

/-- Dividing by an exact number of at least one. -/
theorem Within.quot (R : Rounds rnd u η big) (h : Within u η n m A x y) {d : K} (hd : 1 ≤ d) :
    Within u η n m (A / d) (x / d) (y / d) := by
  have hd0 : 0 < d := lt_of_lt_of_le one_pos hd
  refine ⟨?_, ?_⟩
  · rw [abs_div, abs_of_pos hd0]; exact div_le_div_of_nonneg_right h.le (le_of_lt hd0)
  · rw [← sub_div, abs_div, abs_of_pos hd0, ← add_div, div_le_iff₀ hd0]
    refine le_trans h.err ?_
    unfold grown
    have h1 : (1 + u) ^ n * (A / d + m * η) * d = (1 + u) ^ n * (A + m * η * d) := by
      field_simp
    rw [h1]
    have h2 : (m : K) * η ≤ m * η * d := le_mul_of_one_le_right (mul_nonneg (Nat.cast_nonneg _) R.abs) hd
    exact mul_le_mul_of_nonneg_left (by linarith) (by have := R.rel; positivity)

/-- `∑ cᵢ vᵢ`. -/
theorem foldO_round (R : Rounds rnd u η big) {c v : Nat → K}
    (hb : grown u η (n + 1) (2 * n) (sumF n (fun i => |c i * v i|)) ≤ big) :
    ∃ t, foldO n (roundArith rnd).zero (fun i t => (roundArith rnd).mac t (c i) (v i)) = some t ∧
      Within u η (n + 1) (2 * n) (sumF n (fun i => |c i * v i|)) (sumF n (fun i => c i * v i)) t := by
  induction n with
  | zero => exact ⟨0, rfl, Within.exact R (by simp [sumF])⟩
  | succ n ih =>
    have hA : ∀ k, 0 ≤ sumF k (fun i => |c i * v i|) := fun k => by
      induction k with
      | zero => exact le_refl _
      | succ k ih => exact add_nonneg ih (abs_nonneg _)
    have hu := R.rel
    have hη := R.abs
    obtain ⟨t, e, w⟩ := ih (le_trans (grown_mono hu hη (hA n)
      (by simp only [sumF]; linarith [abs_nonneg (c n * v n)]) (by omega) (by omega)) hb)
    have h0 : Within u η n 0 |c n * v n| (c n * v n) (c n * v n) := Within.exact R (le_refl _)
    have hle : |c n * v n| ≤ sumF (n + 1) (fun i => |c i * v i|) := by simp only [sumF]; linarith [hA n]
    obtain ⟨p, ep, wp⟩ := h0.round R (le_trans (grown_mono hu hη (abs_nonneg _) hle (by omega) (by omega)) hb)
    have wsum := w.plus wp
    obtain ⟨z, ez, wz⟩ := wsum.round R (le_trans (grown_mono hu hη (by
      exact add_nonneg (hA n) (abs_nonneg _)) (le_refl (sumF (n + 1) (fun i => |c i * v i|))) (by omega) (by omega)) hb)
    refine ⟨z, ?_, wz.mono R (by omega) (by omega)⟩
    show (foldO n _ _).bind _ = _
    rw [e, Option.bind_some]
    show (rnd (c n * v n)).bind _ = _
    rw [ep, Option.bind_some]
    exact ez

/-- The same, continuing a sum. -/
theorem foldO_roundFrom (R : Rounds rnd u η big) {c v : Nat → K} {S t : K} (w : Within u η n m A S t) (hn : 1 ≤ n) {k : Nat}
    (hb : grown u η (n + k) (m + 2 * k) (A + sumF k (fun i => |c i * v i|)) ≤ big) :
    ∃ z, foldO k t (fun i t => (roundArith rnd).mac t (c i) (v i)) = some z ∧
      Within u η (n + k) (m + 2 * k) (A + sumF k (fun i => |c i * v i|)) (S + sumF k (fun i => c i * v i)) z := by
  have hA : ∀ k, 0 ≤ sumF k (fun i => |c i * v i|) := fun k => by
    induction k with
    | zero => exact le_refl _
    | succ k ih => exact add_nonneg ih (abs_nonneg _)
  have hu := R.rel
  have hη := R.abs
  have hA0 := w.nonneg
  induction k with
  | zero => exact ⟨t, rfl, by simpa [sumF] using w⟩
  | succ k ih =>
    obtain ⟨t, e, w⟩ := ih (le_trans (grown_mono hu hη (add_nonneg hA0 (hA k))
      (by simp only [sumF]; linarith [abs_nonneg (c k * v k)]) (by omega) (by omega)) hb)
    have h0 : Within u η (n + k - 1) 0 |c k * v k| (c k * v k) (c k * v k) := Within.exact R (le_refl _)
    have hle : |c k * v k| ≤ A + sumF (k + 1) (fun i => |c i * v i|) := by simp only [sumF]; linarith [hA k]
    obtain ⟨p, ep, wp⟩ := h0.round R (le_trans (grown_mono hu hη (abs_nonneg _) hle (by omega) (by omega)) hb)
    rw [show n + k - 1 + 1 = n + k by omega] at wp
    have wsum : Within u η (n + k) (m + 2 * k + 1) (A + sumF (k + 1) (fun i => |c i * v i|))
        (S + sumF (k + 1) (fun i => c i * v i)) (t + p) := by
      have h3 := w.plus wp
      simp only [sumF]
      rw [← add_assoc, ← add_assoc]
      exact h3
    obtain ⟨z, ez, wz⟩ := wsum.round R (le_trans (grown_mono (n' := n + (k + 1)) (m' := m + 2 * (k + 1)) hu hη
      (add_nonneg hA0 (hA (k + 1))) (le_refl _) (by omega) (by omega)) hb)
    refine ⟨z, ?_, wz.mono (n' := n + (k + 1)) (m' := m + 2 * (k + 1)) R (by omega) (by omega)⟩
    show (foldO k _ _).bind _ = _
    rw [e, Option.bind_some]
    show (rnd (c k * v k)).bind _ = _
    rw [ep, Option.bind_some]
    exact ez

/-- Sums over rectangles. -/
theorem foldO_roundBox (R : Rounds rnd u η big) {c v : Nat → Nat → K} {kw k : Nat}
    (hb : grown u η (1 + k * kw) (2 * (k * kw)) (sumF k (fun j => sumF kw (fun i => |c i j * v i j|))) ≤ big) :
    ∃ z, foldO k (roundArith rnd).zero (fun j s => foldO kw s (fun i t => (roundArith rnd).mac t (c i j) (v i j))) = some z ∧
      Within u η (1 + k * kw) (2 * (k * kw)) (sumF k (fun j => sumF kw (fun i => |c i j * v i j|)))
        (sumF k (fun j => sumF kw (fun i => c i j * v i j))) z := by
  have hA1 : ∀ j k, 0 ≤ sumF k (fun i => |c i j * v i j|) := fun j k => by
    induction k with
    | zero => exact le_refl _
    | succ k ih => exact add_nonneg ih (abs_nonneg _)
  have hA : ∀ k, 0 ≤ sumF k (fun j => sumF kw (fun i => |c i j * v i j|)) := fun k => by
    induction k with
    | zero => exact le_refl _
    | succ k ih => exact add_nonneg ih (hA1 k kw)
  have hu := R.rel
  have hη := R.abs
  induction k with
  | zero => exact ⟨0, rfl, Within.exact R (by simp [sumF])⟩
  | succ k ih =>
    have hmul : (k + 1) * kw = k * kw + kw := Nat.succ_mul k kw
    rw [hmul] at hb ⊢
    obtain ⟨t, e, w⟩ := ih (le_trans (grown_mono hu hη (hA k)
      (by simp only [sumF]; linarith [hA1 k kw]) (by omega) (by omega)) hb)
    obtain ⟨z, ez, wz⟩ := foldO_roundFrom R w (by omega) (k := kw) (c := fun i => c i k) (v := fun i => v i k)
      (le_trans (grown_mono hu hη (add_nonneg (hA k) (hA1 k kw)) (le_refl _) (by omega) (by omega)) hb)
    refine ⟨z, ?_, wz.mono R (by omega) (by omega)⟩
    show (foldO k _ _).bind _ = _
    rw [e, Option.bind_some]
    exact ez

/-- `∑ cᵢ` of numbers which are not negative. -/
theorem foldO_roundAdd (R : Rounds rnd u η big) {c : Nat → K} (hc : ∀ i, i < n → 0 ≤ c i)
    (hb : grown u η n n (sumF n c) ≤ big) :
    ∃ t, foldO n (roundArith rnd).zero (fun i t => (roundArith rnd).add t (c i)) = some t ∧
      Within u η n n (sumF n c) (sumF n c) t := by
  induction n with
  | zero => exact ⟨0, rfl, Within.exact R (by simp [sumF])⟩
  | succ n ih =>
    have hA : ∀ k, k ≤ n + 1 → 0 ≤ sumF k c := fun k => by
      induction k with
      | zero => intro _; exact le_refl _
      | succ k ih => intro hk; exact add_nonneg (ih (by omega)) (hc k (by omega))
    have hu := R.rel
    have hη := R.abs
    obtain ⟨t, e, w⟩ := ih (fun i hi => hc i (by omega)) (le_trans (grown_mono hu hη (hA n (by omega))
      (by simp only [sumF]; linarith [hc n (by omega)]) (by omega) (by omega)) hb)
    have wsum := w.plus (Within.exact (n := n) (m := 0) R (le_of_eq (abs_of_nonneg (hc n (by omega)))))
    obtain ⟨z, ez, wz⟩ := wsum.round R (le_trans (grown_mono hu hη (hA (n + 1) (le_refl _))
      (le_refl (sumF (n + 1) c)) (by omega) (by omega)) hb)
    refine ⟨z, ?_, wz.mono R (by omega) (by omega)⟩
    show (foldO n _ _).bind _ = _
    rw [e, Option.bind_some]
    exact ez

/-- Adding up numbers, when all partial sums are at most `A`. -/
theorem foldO_sums (R : Rounds rnd u η big) {v : Nat → K} (hv : ∀ k, k ≤ n → |sumF k v| ≤ A)
    (hb : grown u η n n A ≤ big) :
    ∃ t, foldO n (0 : K) (fun i t => rnd (t + v i)) = some t ∧ Within u η n n A (sumF n v) t := by
  induction n with
  | zero => exact ⟨0, rfl, Within.exact R (hv 0 (by omega))⟩
  | succ n ih =>
    have hu := R.rel
    have hη := R.abs
    have hA : 0 ≤ A := le_trans (abs_nonneg _) (hv 0 (by omega))
    have hm := le_trans (grown_mono hu hη hA (le_refl A) (Nat.le_succ n) (Nat.le_succ n)) hb
    obtain ⟨t, e, w⟩ := ih (fun k hk => hv k (by omega)) hm
    obtain ⟨z, ez, wz⟩ := (w.shift (v n) (hv (n + 1) (by omega))).round R hm
    refine ⟨z, ?_, wz⟩
    show (foldO n _ _).bind _ = _
    rw [e, Option.bind_some]
    exact ez

theorem quot_error {T S W C eT eW M : K} (hT : |T - S| ≤ eT) (hW : |W - C| ≤ eW) (hC : eW < C) (hS : |S| ≤ C * M) :
    W ≠ 0 ∧ |T / W - S / C| ≤ (eT + M * eW) / (C - eW) ∧ |S / C| ≤ M := by
  have hW' := abs_le.mp hW
  have hWC : C - eW ≤ W := by linarith [hW'.1]
  have hW0 : 0 < W := by linarith
  have heW : 0 ≤ eW := le_trans (abs_nonneg _) hW
  have hC0 : 0 < C := by linarith
  have hSC : |S / C| ≤ M := by
    rw [abs_div, abs_of_pos hC0, div_le_iff₀ hC0]; linarith
  refine ⟨ne_of_gt hW0, ?_, hSC⟩
  have e1 : T / W - S / C = ((T - S) + (S / C) * (C - W)) / W := by
    field_simp; ring
  rw [e1, abs_div, abs_of_pos hW0]
  have h1 : |(T - S) + (S / C) * (C - W)| ≤ eT + M * eW := by
    refine le_trans (abs_add_le _ _) (add_le_add hT ?_)
    rw [abs_mul, abs_sub_comm C W]
    exact mul_le_mul hSC hW (abs_nonneg _) (le_trans (abs_nonneg _) hSC)
  have h2 : 0 ≤ eT + M * eW := le_trans (abs_nonneg _) h1
  exact div_le_div₀ h2 h1 (by linarith) hWC

theorem sumF_abs_le {c v : Nat → K} {M : K} (hc : ∀ i, i < n → 0 ≤ c i) (hv : ∀ i, i < n → |v i| ≤ M) :
    sumF n (fun i => |c i * v i|) ≤ sumF n c * M ∧ |sumF n (fun i => c i * v i)| ≤ sumF n c * M := by
  induction n with
  | zero => simp [sumF]
  | succ n ih =>
    obtain ⟨h1, h2⟩ := ih (fun i hi => hc i (by omega)) (fun i hi => hv i (by omega))
    have h3 : |c n * v n| ≤ c n * M := by
      rw [abs_mul, abs_of_nonneg (hc n (by omega))]
      exact mul_le_mul_of_nonneg_left (hv n (by omega)) (hc n (by omega))
    simp only [sumF]
    rw [add_mul]
    exact ⟨by linarith, le_trans (abs_add_le _ _) (by linarith)⟩

/-- Weighted averages. -/
theorem avg_round (R : Rounds rnd u η big) {kw o N x : Nat} {c v : Nat → K} {M : K} (ho : o < kw) (hx : x < N)
    (hc : ∀ i, i < kw → 0 ≤ c i) (hv : ∀ i, i < N → |v i| ≤ M)
    (hfit : AvgFits u η big (lastIn kw o N x - firstIn o x) (winWeight kw o c N x) M) :
    (∃ z, avgAt (roundArith rnd) kw o c N v x = some z ∧
      |z - exactAvg kw o c N v x| ≤ avgBound u η (lastIn kw o N x - firstIn o x) (winWeight kw o c N x) M) ∧
    weightAt (roundArith rnd) kw o c N x ≠ none := by
  have hl : lastIn kw o N x ≤ kw ∧ lastIn kw o N x + x ≤ N + o ∧ o < x + firstIn o x + 1 := by
    unfold lastIn firstIn; omega
  obtain ⟨hl1, hl2, hl3⟩ := hl
  unfold weightAt avgAt exactAvg
  generalize hm : lastIn kw o N x - firstIn o x = m at *
  have hc' : ∀ i, i < m → 0 ≤ c (firstIn o x + i) := fun i hi => hc _ (by omega)
  have hv' : ∀ i, i < m → |v (x + (firstIn o x + i) - o)| ≤ M := fun i hi => hv _ (by omega)
  obtain ⟨b1, b2⟩ := sumF_abs_le (n := m) (c := fun i => c (firstIn o x + i)) (v := fun i => v (x + (firstIn o x + i) - o)) hc' hv'
  have hwin : winWeight kw o c N x = sumF m (fun i => c (firstIn o x + i)) := by unfold winWeight; rw [hm]
  have hsum : winSum kw o c N v x = sumF m (fun i => c (firstIn o x + i) * v (x + (firstIn o x + i) - o)) := by
    unfold winSum; rw [hm]
  rw [hwin] at hfit ⊢
  rw [hsum]
  have hA : 0 ≤ sumF m (fun i => |c (firstIn o x + i) * v (x + (firstIn o x + i) - o)|) := by
    have : ∀ k, 0 ≤ sumF k (fun i => |c (firstIn o x + i) * v (x + (firstIn o x + i) - o)|) := fun k => by
      induction k with
      | zero => exact le_refl _
      | succ k ih => exact add_nonneg ih (abs_nonneg _)
    exact this m
  obtain ⟨T, eT, wT⟩ := foldO_round R (n := m) (c := fun i => c (firstIn o x + i)) (v := fun i => v (x + (firstIn o x + i) - o))
    (le_trans (grown_mono R.rel R.abs hA b1 (le_refl _) (le_refl _)) hfit.total)
  obtain ⟨W, eW, wW⟩ := foldO_roundAdd R (n := m) (c := fun i => c (firstIn o x + i)) hc' hfit.weights
  obtain ⟨q1, q2, q3⟩ := quot_error (wT.widen R b1).error wW.error hfit.weight b2
  refine ⟨?_, by rw [eW]; exact Option.some_ne_none _⟩
  have hM : |T / W| ≤ M + avgError u η m (sumF m (fun i => c (firstIn o x + i))) M := by
    have := abs_add_le (T / W - sumF m (fun i => c (firstIn o x + i) * v (x + (firstIn o x + i) - o)) /
      sumF m (fun i => c (firstIn o x + i))) (sumF m (fun i => c (firstIn o x + i) * v (x + (firstIn o x + i) - o)) /
      sumF m (fun i => c (firstIn o x + i)))
    rw [sub_add_cancel] at this
    unfold avgError
    linarith
  obtain ⟨z, ez, hz⟩ := R.near (T / W) (le_trans hM hfit.quotient)
  refine ⟨z, ?_, ?_⟩
  · dsimp only
    rw [hm, eT, Option.bind_some, eW, Option.bind_some]
    show (if W = 0 then none else rnd (T / W)) = _
    rw [if_neg q1, ez]
  · have h3 := abs_add_le (z - T / W) (T / W - sumF m (fun i => c (firstIn o x + i) * v (x + (firstIn o x + i) - o)) /
      sumF m (fun i => c (firstIn o x + i)))
    rw [sub_add_sub_cancel] at h3
    have h4 := mul_le_mul_of_nonneg_left hM R.rel
    unfold avgBound
    change _ ≤ avgError u η m (sumF m (fun i => c (firstIn o x + i))) M at q2
    linarith

/-- The running sums with arithmetic `B`, as they are computed. -/
def slideO {T : Type} (B : MeanArith V T) (kw : Nat) (v : Nat → V) : Nat → Option T
  | 0 => foldO kw B.zero (fun i t => B.add t (v i))
  | p + 1 => (slideO B kw v p).bind (fun t => (B.sub t (v p)).bind (fun t => B.add t (v (p + kw))))

end
end Boof
