import Verif.Spec.Sum
namespace Boof

theorem sumN_congr {n : Nat} {f g : Nat → Int} (e : ∀ i, i < n → f i = g i) : sumN n f = sumN n g := by
  induction n with
  | zero => rfl
  | succ n ih => simp only [sumN]; rw [ih (fun i hi => e i (by omega)), e n (by omega)]

theorem sumN_le {n : Nat} {f : Nat → Int} {c : Int} (e : ∀ i, i < n → f i ≤ c) : sumN n f ≤ n * c := by
  induction n with
  | zero => simp [sumN]
  | succ n ih =>
    have h1 := ih (fun i hi => e i (by omega)); have h2 := e n (by omega)
    have : ((n + 1 : Nat) : Int) * c = n * c + c := by rw [Int.natCast_succ, Int.add_mul, Int.one_mul]
    simp only [sumN]; omega

theorem le_sumN {n : Nat} {f : Nat → Int} {c : Int} (e : ∀ i, i < n → c ≤ f i) : n * c ≤ sumN n f := by
  induction n with
  | zero => simp [sumN]
  | succ n ih =>
    have h1 := ih (fun i hi => e i (by omega)); have h2 := e n (by omega)
    have : ((n + 1 : Nat) : Int) * c = n * c + c := by rw [Int.natCast_succ, Int.add_mul, Int.one_mul]
    simp only [sumN]; omega

theorem sumN_le_sumN {n : Nat} {f g : Nat → Int} (e : ∀ i, i < n → f i ≤ g i) : sumN n f ≤ sumN n g := by
  induction n with
  | zero => exact Int.le_refl _
  | succ n ih =>
    have h1 := ih (fun i hi => e i (by omega))
    have h2 := e n (by omega)
    simp only [sumN]; omega

theorem sumN_nonneg {n : Nat} {f : Nat → Int} (e : ∀ i, i < n → 0 ≤ f i) : 0 ≤ sumN n f := by
  have := le_sumN e; simpa using this

theorem sumN_mono_n {n m : Nat} {f : Nat → Int} (hnm : n ≤ m) (e : ∀ i, i < m → 0 ≤ f i) : sumN n f ≤ sumN m f := by
  induction m with
  | zero => have : n = 0 := by omega
            subst this; exact Int.le_refl _
  | succ m ih =>
    rcases Nat.lt_or_ge n (m+1) with h | h
    · have := ih (by omega) (fun i hi => e i (by omega)); have := e m (by omega); simp only [sumN]; omega
    · have : n = m + 1 := by omega
      subst this; exact Int.le_refl _

theorem sumN_add (n : Nat) (f g : Nat → Int) : sumN n (fun i => f i + g i) = sumN n f + sumN n g := by
  induction n with
  | zero => rfl
  | succ n ih => simp only [sumN]; omega

theorem sumN_mul (n : Nat) (c : Int) (f : Nat → Int) : sumN n (fun i => c * f i) = c * sumN n f := by
  induction n with
  | zero => simp [sumN]
  | succ n ih => simp only [sumN, ih]; rw [Int.mul_add]

theorem sumN_const (n : Nat) (c : Int) : sumN n (fun _ => c) = n * c := by
  induction n with
  | zero => simp [sumN]
  | succ n ih => simp only [sumN, ih]; rw [Int.natCast_succ, Int.add_mul, Int.one_mul]

theorem sumN_zero (n : Nat) : sumN n (fun _ => 0) = 0 := by rw [sumN_const]; simp

theorem sumN_comm (n m : Nat) (f : Nat → Nat → Int) :
    sumN n (fun i => sumN m (fun j => f i j)) = sumN m (fun j => sumN n (fun i => f i j)) := by
  induction n with
  | zero => simp only [sumN]; rw [sumN_zero]
  | succ n ih => simp only [sumN]; rw [ih, ← sumN_add]

/-- A single non-zero term. -/
theorem sumN_single {n k : Nat} {f : Nat → Int} (hk : k < n) (e : ∀ i, i < n → i ≠ k → f i = 0) :
    sumN n f = f k := by
  induction n with
  | zero => omega
  | succ n ih =>
    simp only [sumN]
    rcases Nat.lt_or_ge k n with h | h
    · rw [ih h (fun i hi => e i (by omega)), e n (by omega) (by omega)]; omega
    · have : k = n := by omega
      subst this
      rw [sumN_congr (g := fun _ => 0) (fun i hi => e i (by omega) (by omega)), sumN_zero]; omega

theorem pixelSum_congr {w h : Nat} {f g : Nat → Nat → Int} (e : ∀ x y, x < w → y < h → f x y = g x y) :
    pixelSum w h f = pixelSum w h g :=
  sumN_congr (fun y hy => sumN_congr (fun x hx => e x y hx hy))

theorem pixelSum_le {w h : Nat} {f : Nat → Nat → Int} {c : Int} (e : ∀ x y, x < w → y < h → f x y ≤ c) :
    pixelSum w h f ≤ (w * h : Nat) * c := by
  have := sumN_le (n := h) (f := fun y => sumN w (fun x => f x y)) (c := w * c)
    (fun y hy => sumN_le (fun x hx => e x y hx hy))
  unfold pixelSum
  rw [Int.natCast_mul, Int.mul_comm (w : Int), Int.mul_assoc]; exact this

theorem le_pixelSum {w h : Nat} {f : Nat → Nat → Int} {c : Int} (e : ∀ x y, x < w → y < h → c ≤ f x y) :
    (w * h : Nat) * c ≤ pixelSum w h f := by
  have := le_sumN (n := h) (f := fun y => sumN w (fun x => f x y)) (c := w * c)
    (fun y hy => le_sumN (fun x hx => e x y hx hy))
  unfold pixelSum
  rw [Int.natCast_mul, Int.mul_comm (w : Int), Int.mul_assoc]; exact this

/-- Each pixel has exactly one of the counted values. -/
theorem sumN_pixelCount {w h n : Nat} {f : Nat → Nat → Int} {m : Int}
    (hr : ∀ x y, x < w → y < h → m ≤ f x y ∧ f x y < m + n) :
    sumN n (fun k => pixelCount w h f (m + k)) = (w * h : Nat) := by
  unfold pixelCount pixelSum
  rw [sumN_comm]
  have : ∀ y, y < h → sumN n (fun i => sumN w (fun x => if f x y = m + i then 1 else 0)) = w := by
    intro y hy
    rw [sumN_comm]
    rw [sumN_congr (g := fun _ => 1), sumN_const]
    · omega
    · intro x hx
      obtain ⟨h1, h2⟩ := hr x y hx hy
      rw [sumN_single (k := (f x y - m).toNat) (by omega)]
      · rw [if_pos (by omega)]
      · intro i hi hne; rw [if_neg (by omega)]
  rw [sumN_congr this, sumN_const, Int.natCast_mul, Int.mul_comm]

end Boof
