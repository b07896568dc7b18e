import Verif.Proofs.Range
import Verif.Proofs.Symmetry
/-
Averages grow with the averaged numbers.
-/
namespace Boof

theorem sumF_mono {K : Type} [AddCommMonoid K] [PartialOrder K] [IsOrderedAddMonoid K] {n : Nat} {f g : Nat → K}
    (h : ∀ i, i < n → f i ≤ g i) : sumF n f ≤ sumF n g := by
  induction n with
  | zero => exact le_refl _
  | succ n ih =>
    show sumF n f + f n ≤ sumF n g + g n
    exact add_le_add (ih (fun i hi => h i (by omega))) (h n (by omega))

theorem under_of {kw o n x i : Nat} (hx : x < n) (hi : i < lastIn kw o n x - firstIn o x) :
    firstIn o x + i < kw ∧ Under kw o n x (x + (firstIn o x + i) - o) := by
  unfold lastIn firstIn at *
  exact ⟨by omega, by omega, by omega, by omega⟩

theorem winSum_mono {K : Type} [Ring K] [PartialOrder K] [IsOrderedRing K] {kw o n x : Nat} {c v v' : Nat → K} (hx : x < n)
    (hc : ∀ i, i < kw → 0 ≤ c i) (hu : ∀ i, Under kw o n x i → v i ≤ v' i) : winSum kw o c n v x ≤ winSum kw o c n v' x :=
  sumF_mono (fun i hi => by
    obtain ⟨h1, h2⟩ := under_of hx hi
    exact mul_le_mul_of_nonneg_left (hu _ h2) (hc _ h1))

theorem winSum_shift {K : Type} [CommRing K] {kw o n x : Nat} {c v v' : Nat → K} {a : K} (hx : x < n)
    (hu : ∀ i, Under kw o n x i → v' i = v i + a) : winSum kw o c n v' x = winSum kw o c n v x + winWeight kw o c n x * a := by
  unfold winSum winWeight
  have : ∀ m, m ≤ lastIn kw o n x - firstIn o x →
      sumF m (fun i => c (firstIn o x + i) * v' (x + (firstIn o x + i) - o)) =
      sumF m (fun i => c (firstIn o x + i) * v (x + (firstIn o x + i) - o)) + sumF m (fun i => c (firstIn o x + i)) * a := by
    intro m
    induction m with
    | zero => intro _; simp [sumF]
    | succ m ih =>
      intro hm
      simp only [sumF]
      rw [ih (by omega), hu _ (under_of (kw := kw) hx (by omega)).2]
      ring
  exact this _ (Nat.le_refl _)

/-- The quotient in a rounded average is a pixel, so converting it to the pixel type does nothing. -/
theorem roundedAvg_quot {t : IntTy} (ht : t ∈ [U8, U16, S16, S32, S64]) {kw o n x : Nat} {c v : Nat → Int} (hx : x < n)
    (hc : ∀ i, i < kw → 0 ≤ c i) (hW : 0 < winWeight kw o c n x) (hv : ∀ i, i < n → t.InRange (v i)) :
    roundedAvg t kw o c n v x = (winSum kw o c n v x + (winWeight kw o c n x).tdiv 2).tdiv (winWeight kw o c n x) := by
  obtain ⟨t1, -, -, -, -, t4⟩ := pix_types ht
  have b := sumF_between (n := lastIn kw o n x - firstIn o x) (c := fun i => c (firstIn o x + i))
    (v := fun i => v (x + (firstIn o x + i) - o)) (lo := t.lo) (hi := t.hi) (fun i hi => hc _ (under_of hx hi).1)
    (fun i hi => hv _ (under_of (kw := kw) hx hi).2.1)
  obtain ⟨l, u⟩ := rounded_between hW b.1 b.2
  exact IntTy.cast_of_inRange t1 ⟨l, le_trans u (by omega)⟩

theorem roundedAvg_mono {t : IntTy} (ht : t ∈ [U8, U16, S16, S32, S64]) {kw o n x : Nat} {c v v' : Nat → Int} (hx : x < n)
    (hc : ∀ i, i < kw → 0 ≤ c i) (hW : 0 < winWeight kw o c n x) (hv : ∀ i, i < n → t.InRange (v i)) (hv' : ∀ i, i < n → t.InRange (v' i))
    (hu : ∀ i, Under kw o n x i → v i ≤ v' i) : roundedAvg t kw o c n v x ≤ roundedAvg t kw o c n v' x := by
  rw [roundedAvg_quot ht hx hc hW hv, roundedAvg_quot ht hx hc hW hv']
  exact Int.tdiv_le_tdiv hW (by have := winSum_mono hx hc hu; omega)

theorem roundedAvg_shift {t : IntTy} (ht : t ∈ [U8, U16, S16, S32, S64]) {kw o n x : Nat} {c v v' : Nat → Int} {a : Int} (hx : x < n)
    (hc : ∀ i, i < kw → 0 ≤ c i) (hW : 0 < winWeight kw o c n x) (hv : ∀ i, i < n → t.InRange (v i)) (hv' : ∀ i, i < n → t.InRange (v' i))
    (ha : 0 ≤ a) (h0 : ∀ i, Under kw o n x i → 0 ≤ v i) (hu : ∀ i, Under kw o n x i → v' i = v i + a) :
    roundedAvg t kw o c n v' x = roundedAvg t kw o c n v x + a := by
  rw [roundedAvg_quot ht hx hc hW hv, roundedAvg_quot ht hx hc hW hv', winSum_shift hx hu]
  have hz : 0 ≤ winSum kw o c n v x := by
    have := winSum_mono (v := fun _ => 0) (v' := v) hx hc h0
    refine le_trans (le_of_eq ?_) this
    unfold winSum
    simp only [mul_zero]
    induction lastIn kw o n x - firstIn o x with
    | zero => rfl
    | succ n ih => simp only [sumF, ← ih]; rfl
  generalize winSum kw o c n v x = T at *
  generalize winWeight kw o c n x = W at *
  have h2 : 0 ≤ W.tdiv 2 := Int.tdiv_nonneg (by omega) (by omega)
  have hm : 0 ≤ W * a := Int.mul_nonneg (by omega) ha
  generalize W.tdiv 2 = H at *
  rw [Int.tdiv_eq_ediv_of_nonneg (by omega), Int.tdiv_eq_ediv_of_nonneg (by omega),
    show T + W * a + H = T + H + W * a by ring, Int.add_mul_ediv_left _ _ (by omega)]

theorem near_under {r n x i : Nat} (h : Under (2 * r + 1) r n x i) : Near r n x i := ⟨h.1, h.2.1, by have := h.2.2; omega⟩

theorem ones_pos {r n x : Nat} (hx : x < n) : 0 < winWeight (2 * r + 1) r (fun _ => (1 : Int)) n x := by
  rw [(winSum_ones (r := r) (fun _ => 0) hx).2]
  have := localCount_pos (r := r) hx
  omega

theorem roundedMean_mono {t : IntTy} (ht : t ∈ [U8, U16, S16, S32, S64]) {r n x : Nat} {v v' : Nat → Int} (hx : x < n)
    (hv : ∀ i, i < n → t.InRange (v i)) (hv' : ∀ i, i < n → t.InRange (v' i))
    (hu : ∀ i, Near r n x i → v i ≤ v' i) : roundedMean t r n v x ≤ roundedMean t r n v' x := by
  rw [← roundedMean_eq hx, ← roundedMean_eq hx]
  exact roundedAvg_mono ht hx (fun _ _ => by omega) (ones_pos hx) hv hv' (fun i hi => hu i (near_under hi))

theorem roundedMean_shift {t : IntTy} (ht : t ∈ [U8, U16, S16, S32, S64]) {r n x : Nat} {v v' : Nat → Int} {a : Int} (hx : x < n)
    (hv : ∀ i, i < n → t.InRange (v i)) (hv' : ∀ i, i < n → t.InRange (v' i))
    (ha : 0 ≤ a) (h0 : ∀ i, Near r n x i → 0 ≤ v i) (hu : ∀ i, Near r n x i → v' i = v i + a) :
    roundedMean t r n v' x = roundedMean t r n v x + a := by
  rw [← roundedMean_eq hx, ← roundedMean_eq hx]
  exact roundedAvg_shift ht hx (fun _ _ => by omega) (ones_pos hx) hv hv' ha (fun i hi => h0 i (near_under hi))
    (fun i hi => hu i (near_under hi))

section
variable {K : Type} [Field K] [LinearOrder K] [IsStrictOrderedRing K]

theorem exactAvg_mono {kw o n x : Nat} {c v v' : Nat → K} (hx : x < n) (hc : ∀ i, i < kw → 0 ≤ c i) (hW : 0 < winWeight kw o c n x)
    (hu : ∀ i, Under kw o n x i → v i ≤ v' i) : exactAvg kw o c n v x ≤ exactAvg kw o c n v' x := by
  unfold exactAvg
  rw [div_le_div_iff_of_pos_right hW]
  exact winSum_mono hx hc hu

theorem exactAvg_shift {kw o n x : Nat} {c v v' : Nat → K} {a : K} (hx : x < n) (hW : 0 < winWeight kw o c n x)
    (hu : ∀ i, Under kw o n x i → v' i = v i + a) : exactAvg kw o c n v' x = exactAvg kw o c n v x + a := by
  unfold exactAvg
  rw [winSum_shift hx hu, add_div, mul_div_cancel_left₀ _ (ne_of_gt hW)]

theorem nearLine_of {r n x i : Nat} (hx : x < n) (hi : i < localCount r n x) : Near r n x (x - r + i) := by
  unfold localCount at hi; unfold Near; omega

theorem exactMean_mono {r n x : Nat} {v v' : Nat → K} (hx : x < n) (hu : ∀ i, Near r n x i → v i ≤ v' i) :
    exactMean r n v x ≤ exactMean r n v' x := by
  have hq : (0 : K) < (localCount r n x : K) := by exact_mod_cast localCount_pos (r := r) hx
  unfold exactMean localSum
  rw [div_le_div_iff_of_pos_right hq]
  exact sumF_mono (fun i hi => hu _ (nearLine_of hx hi))

theorem exactMean_shift {r n x : Nat} {v v' : Nat → K} {a : K} (hx : x < n) (hu : ∀ i, Near r n x i → v' i = v i + a) :
    exactMean r n v' x = exactMean r n v x + a := by
  have hq : (0 : K) < (localCount r n x : K) := by exact_mod_cast localCount_pos (r := r) hx
  have : ∀ m, m ≤ localCount r n x → sumF m (fun i => v' (x - r + i)) = sumF m (fun i => v (x - r + i)) + m * a := by
    intro m
    induction m with
    | zero => intro _; simp [sumF]
    | succ m ih =>
      intro hm
      simp only [sumF]
      rw [ih (by omega), hu _ (nearLine_of hx (by omega))]
      push_cast; ring
  unfold exactMean localSum
  rw [this _ (Nat.le_refl _), add_div, mul_div_cancel_left₀ _ (ne_of_gt hq)]

end

end Boof
