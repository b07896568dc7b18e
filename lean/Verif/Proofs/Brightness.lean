import Verif.Proofs.BlurRun
import Verif.Proofs.Otsu
import Verif.Proofs.BlockOtsu
import Verif.Props.Otsu
import Verif.Spec.RoundedBlocks
/-
Sums, means, extremes and Otsu's criterion when a constant is added to all pixels.
-/
namespace Boof
open OtsuSpec

theorem sumF_addc (n : Nat) (v : Nat → Int) (c : Int) : sumF n (fun i => v i + c) = sumF n v + n * c := by
  induction n with
  | zero => simp [sumF]
  | succ n ih => simp only [sumF] at *; rw [ih]; push_cast; ring

theorem pixelSum_shift (w h : Nat) (f : Nat → Nat → Int) (c : Int) :
    pixelSum w h (fun x y => f x y + c) = pixelSum w h f + (w * h : Nat) * c := by
  unfold pixelSum
  rw [sumN_congr (g := fun y => sumN w (fun x => f x y) + (w : Int) * c) (fun y _ => by rw [sumN_add, sumN_const]), sumN_add, sumN_const]
  push_cast; ring

/-- The rounded mean of values which are not negative is one of the values in between. -/
theorem roundedMean_quotient {t : IntTy} (hb : 0 < t.bits) (hlo : t.lo ≤ 0) {r n x : Nat} {w : Nat → Int} {P : Int} (hx : x < n)
    (hPh : P ≤ t.hi) (h0 : ∀ i, i < n → 0 ≤ w i) (h1 : ∀ i, i < n → w i ≤ P) :
    roundedMean t r n w x = (localSum r n w x + (localCount r n x : Int) / 2) / (localCount r n x : Int) ∧
    0 ≤ roundedMean t r n w x ∧ roundedMean t r n w x ≤ P := by
  have hp := localCount_pos (r := r) hx
  have sums : ∀ m, m ≤ localCount r n x → 0 ≤ sumF m (fun i => w (x - r + i)) ∧ sumF m (fun i => w (x - r + i)) ≤ m * P := by
    intro m
    induction m with
    | zero => intro _; simp [sumF]
    | succ m ih =>
      intro hm
      have h2 := ih (by omega)
      have h3 := h0 (x - r + m) (by unfold localCount at hm; omega)
      have h4 := h1 (x - r + m) (by unfold localCount at hm; omega)
      simp only [sumF]
      push_cast
      constructor
      · omega
      · linarith
  obtain ⟨s0, sP⟩ := sums _ (Nat.le_refl _)
  change 0 ≤ localSum r n w x at s0
  change localSum r n w x ≤ _ at sP
  have e : (localSum r n w x + (localCount r n x : Int).tdiv 2).tdiv (localCount r n x) =
      (localSum r n w x + (localCount r n x : Int) / 2) / (localCount r n x : Int) := by
    rw [Int.tdiv_eq_ediv_of_nonneg (show (0 : Int) ≤ localCount r n x by omega), Int.tdiv_eq_ediv_of_nonneg (by omega)]
  have q0 : 0 ≤ (localSum r n w x + (localCount r n x : Int) / 2) / (localCount r n x : Int) := Int.ediv_nonneg (by omega) (by omega)
  have qP : (localSum r n w x + (localCount r n x : Int) / 2) / (localCount r n x : Int) ≤ P := by
    apply Int.lt_add_one_iff.mp
    apply Int.ediv_lt_of_lt_mul (by omega)
    have : (P + 1) * (localCount r n x : Int) = (localCount r n x : Int) * P + localCount r n x := by ring
    omega
  have : roundedMean t r n w x = (localSum r n w x + (localCount r n x : Int) / 2) / (localCount r n x : Int) := by
    unfold roundedMean
    rw [e]
    exact IntTy.cast_of_inRange hb ⟨le_trans hlo q0, le_trans qP hPh⟩
  rw [this]
  exact ⟨rfl, q0, qP⟩

/-- The rounded mean of values which are not negative follows a shift. -/
theorem roundedMean_addc {t : IntTy} (hb : 0 < t.bits) (hlo : t.lo ≤ 0) {r n x : Nat} {v : Nat → Int} {c P : Int} (hx : x < n)
    (hPh : P ≤ t.hi) (h0 : ∀ i, i < n → 0 ≤ v i ∧ v i ≤ P) (h1 : ∀ i, i < n → 0 ≤ v i + c ∧ v i + c ≤ P) :
    roundedMean t r n (fun i => v i + c) x = roundedMean t r n v x + c := by
  have hp := localCount_pos (r := r) hx
  rw [(roundedMean_quotient hb hlo hx hPh (fun i hi => (h1 i hi).1) (fun i hi => (h1 i hi).2)).1,
    (roundedMean_quotient hb hlo hx hPh (fun i hi => (h0 i hi).1) (fun i hi => (h0 i hi).2)).1]
  have : localSum r n (fun i => v i + c) x = localSum r n v x + (localCount r n x : Int) * c := by
    unfold localSum
    exact sumF_addc _ (fun i => v (x - r + i)) c
  rw [this]
  have e : localSum r n v x + (localCount r n x : Int) * c + (localCount r n x : Int) / 2 =
      localSum r n v x + (localCount r n x : Int) / 2 + (localCount r n x : Int) * c := by ring
  rw [e, Int.add_mul_ediv_left _ _ (by omega)]

theorem roundedMean_congr {t : IntTy} {r n x : Nat} {v w : Nat → Int} (e : ∀ i, i < n → v i = w i) :
    roundedMean t r n v x = roundedMean t r n w x := by
  unfold roundedMean localSum
  have : sumF (localCount r n x) (fun i => v (x - r + i)) = sumF (localCount r n x) (fun i => w (x - r + i)) := by
    have : ∀ m, m ≤ localCount r n x → sumF m (fun i => v (x - r + i)) = sumF m (fun i => w (x - r + i)) := by
      intro m
      induction m with
      | zero => intro _; rfl
      | succ m ih =>
        intro hm
        simp only [sumF]
        rw [ih (by omega), e (x - r + m) (by unfold localCount at hm; omega)]
    exact this _ (Nat.le_refl _)
  rw [this]

/-- The mean blur follows a shift. -/
theorem meanImage_shift {t : IntTy} (hb : 0 < t.bits) (hlo : t.lo ≤ 0) {r w ht x y : Nat} {f : Nat → Nat → Int} {c P : Int}
    (hx : x < w) (hy : y < ht) (hPh : P ≤ t.hi)
    (h0 : ∀ x y, x < w → y < ht → 0 ≤ f x y ∧ f x y ≤ P) (h1 : ∀ x y, x < w → y < ht → 0 ≤ f x y + c ∧ f x y + c ≤ P) :
    meanImage t r w ht (fun x y => f x y + c) x y = meanImage t r w ht f x y + c := by
  unfold meanImage
  have row : ∀ j, j < ht → roundedMean t r w (fun i => f i j + c) x = roundedMean t r w (fun i => f i j) x + c :=
    fun j hj => roundedMean_addc hb hlo hx hPh (fun i hi => h0 i j hi hj) (fun i hi => h1 i j hi hj)
  rw [roundedMean_congr row]
  refine roundedMean_addc hb hlo hy hPh (fun j hj => ?_) (fun j hj => ?_)
  · exact (roundedMean_quotient hb hlo hx hPh (fun i hi => (h0 i j hi hj).1) (fun i hi => (h0 i j hi hj).2)).2
  · rw [← row j hj]
    exact (roundedMean_quotient hb hlo hx hPh (fun i hi => (h1 i j hi hj).1) (fun i hi => (h1 i j hi hj).2)).2

/-! ### Blocks -/

theorem rectSum_shift (f : Nat → Nat → Int) (c : Int) (x0 x1 y0 y1 : Nat) :
    rectSum (fun x y => f x y + c) x0 x1 y0 y1 = rectSum f x0 x1 y0 y1 + ((x1 - x0) * (y1 - y0) : Nat) * c :=
  pixelSum_shift _ _ (fun x y => f (x0 + x) (y0 + y)) c

theorem nearest_shift {n : Nat} (hn : 0 < n) (s c : Int) : nearest (s + n * c) n = nearest s n + c := by
  unfold nearest
  have e : 2 * (s + n * c) + n = 2 * s + n + 2 * n * c := by ring
  rw [e, Int.add_mul_ediv_left _ _ (by omega)]

theorem blockLocalMean_shift {u : Bool} {w ht req i j : Nat} (S : Nat → Nat → Int) (c : Int)
    (hi : Grid.first u i ≤ Grid.last u w req i) (hj : Grid.first u j ≤ Grid.last u ht req j) :
    localMean u w ht req (fun i j => S i j + c) i j = localMean u w ht req S i j + c := by
  unfold localMean
  rw [rectSum_shift, Int.add_mul_ediv_left]
  have : 0 < (Grid.last u w req i + 1 - Grid.first u i) * (Grid.last u ht req j + 1 - Grid.first u j) :=
    Nat.mul_pos (by omega) (by omega)
  omega

theorem IsRectMin.shift {f : Nat → Nat → Int} {x0 x1 y0 y1 : Nat} {m m' c : Int} (h : IsRectMin f x0 x1 y0 y1 m)
    (h' : IsRectMin (fun x y => f x y + c) x0 x1 y0 y1 m') : m' = m + c := by
  obtain ⟨a, x, y, a1, a2, a3, a4, a5⟩ := h
  obtain ⟨b, x', y', b1, b2, b3, b4, b5⟩ := h'
  have := a x' y' b1 b2 b3 b4
  have := b x y a1 a2 a3 a4
  beta_reduce at *
  omega

theorem IsRectMax.shift {f : Nat → Nat → Int} {x0 x1 y0 y1 : Nat} {m m' c : Int} (h : IsRectMax f x0 x1 y0 y1 m)
    (h' : IsRectMax (fun x y => f x y + c) x0 x1 y0 y1 m') : m' = m + c := by
  obtain ⟨a, x, y, a1, a2, a3, a4, a5⟩ := h
  obtain ⟨b, x', y', b1, b2, b3, b4, b5⟩ := h'
  have := a x' y' b1 b2 b3 b4
  have := b x y a1 a2 a3 a4
  beta_reduce at *
  omega

/-! ### Otsu -/

theorem sumN_single_le {n k : Nat} {f : Nat → Int} (hk : k < n) (h0 : ∀ i, i < n → 0 ≤ f i) : f k ≤ sumN n f := by
  have e := sumN_single (f := fun i => if i = k then f k else 0) hk (fun i _ hi => if_neg hi)
  rw [if_pos rfl] at e
  rw [← e]
  refine sumN_le_sumN (fun i hi => ?_)
  split
  · rename_i c; rw [c]
  · exact h0 i hi

theorem pixelCount_nonneg (w h : Nat) (f : Nat → Nat → Int) (v : Int) : 0 ≤ pixelCount w h f v :=
  sumN_nonneg (fun y _ => sumN_nonneg (fun x _ => by beta_reduce; split <;> omega))

theorem pixelCount_pos {w h x y : Nat} (f : Nat → Nat → Int) (hx : x < w) (hy : y < h) : 0 < pixelCount w h f (f x y) := by
  have h1 := sumN_single_le (n := w) (k := x) (f := fun i => if f i y = f x y then 1 else 0) hx (fun i _ => by split <;> omega)
  have h2 := sumN_single_le (n := h) (k := y) (f := fun j => sumN w (fun i => if f i j = f x y then 1 else 0)) hy
    (fun j _ => sumN_nonneg (fun i _ => by split <;> omega))
  simp only [if_true] at h1
  show 0 < sumN h fun j => sumN w fun i => if f i j = f x y then 1 else 0
  omega

/-- Two levels with pixels: there is a split. -/
theorem split_of_two {n : Nat} {hist : Nat → Int} (h0 : ∀ k, k < n → 0 ≤ hist k) {a b : Nat} (hab : a < b) (hb : b < n)
    (ha0 : 0 < hist a) (hb0 : 0 < hist b) : IsSplit n hist a := by
  refine ⟨by omega, ?_, ?_⟩
  · have := sumN_single_le (n := a + 1) (k := a) (f := hist) (by omega) (fun i hi => h0 i (by omega))
    unfold below; omega
  · have := sumN_single_le (n := n - (a + 1)) (k := b - (a + 1)) (f := fun k => hist (a + 1 + k)) (by omega) (fun i hi => h0 _ (by omega))
    have e : a + 1 + (b - (a + 1)) = b := by omega
    rw [e] at this
    unfold above; omega

/-- `hist'` is `hist` moved up by `d` levels, and nothing is lost at the top. -/
structure Shifted (n d : Nat) (hist hist' : Nat → Int) : Prop where
  low : ∀ k, k < d → k < n → hist' k = 0
  move : ∀ k, k + d < n → hist' (k + d) = hist k
  top : ∀ k, k < n → n ≤ k + d → hist k = 0

theorem Shifted.sum {n d : Nat} {hist hist' : Nat → Int} (s : Shifted n d hist hist') {m : Nat} (hm : m + d ≤ n) (g g' : Nat → Int)
    (hg : ∀ k, g' (k + d) = g k) : sumN (m + d) (fun k => g' k * hist' k) = sumN m (fun k => g k * hist k) := by
  rw [sumN_split _ (show d ≤ m + d by omega), sumN_congr (g := fun _ => 0) (fun k hk => by rw [s.low k hk (by omega)]; omega), sumN_zero]
  rw [show m + d - d = m by omega, Int.zero_add]
  refine sumN_congr (fun k hk => ?_)
  rw [show d + k = k + d by omega, s.move k (by omega), hg]

theorem Shifted.below {n d : Nat} {hist hist' : Nat → Int} (s : Shifted n d hist hist') {i : Nat} (hi : i + d < n) :
    below hist' (i + d) = OtsuSpec.below hist i := by
  have := s.sum (m := i + 1) (by omega) (fun _ => 1) (fun _ => 1) (fun _ => rfl)
  simp only [Int.one_mul] at this
  unfold OtsuSpec.below
  rw [show i + d + 1 = i + 1 + d by omega]
  exact this

/-- Sums behind the split: the levels at the top are empty. -/
theorem Shifted.sumAbove {n d : Nat} {hist hist' : Nat → Int} (s : Shifted n d hist hist') {i : Nat} (hi : i + d < n) (g g' : Nat → Int)
    (hg : ∀ k, g' (k + d) = g k) :
    sumN (n - (i + d + 1)) (fun k => g' (i + d + 1 + k) * hist' (i + d + 1 + k)) = sumN (n - (i + 1)) (fun k => g (i + 1 + k) * hist (i + 1 + k)) := by
  rw [sumN_split (m := n - (i + d + 1)) (n := n - (i + 1)) (fun k => g (i + 1 + k) * hist (i + 1 + k)) (by omega)]
  rw [sumN_congr (n := n - (i + 1) - (n - (i + d + 1))) (g := fun _ => 0)
    (fun k hk => by rw [s.top _ (by omega) (by omega)]; omega), sumN_zero, Int.add_zero]
  refine sumN_congr (fun k hk => ?_)
  rw [show i + d + 1 + k = i + 1 + k + d by omega, s.move _ (by omega), hg]

theorem Shifted.above {n d : Nat} {hist hist' : Nat → Int} (s : Shifted n d hist hist') {i : Nat} (hi : i + d < n) :
    above n hist' (i + d) = OtsuSpec.above n hist i := by
  have := s.sumAbove hi (fun _ => 1) (fun _ => 1) (fun _ => rfl)
  simp only [Int.one_mul] at this
  exact this

theorem Shifted.split {n d : Nat} {hist hist' : Nat → Int} (s : Shifted n d hist hist') {i : Nat} (hi : i + d < n) :
    IsSplit n hist' (i + d) ↔ IsSplit n hist i := by
  unfold IsSplit
  rw [s.below hi, s.above hi]
  constructor
  · rintro ⟨-, b, c⟩; exact ⟨by omega, b, c⟩
  · rintro ⟨-, b, c⟩; exact ⟨by omega, b, c⟩

/-- A split of the histogram lies below the empty top. -/
theorem Shifted.split_lt {n d : Nat} {hist hist' : Nat → Int} (s : Shifted n d hist hist') {i : Nat} (hs : IsSplit n hist i) : i + d < n := by
  by_contra c
  obtain ⟨h1, -, h3⟩ := hs
  unfold OtsuSpec.above at h3
  rw [sumN_congr (g := fun _ => 0) (fun k hk => s.top _ (by omega) (by omega)), sumN_zero] at h3
  omega

theorem Shifted.le_split {n d : Nat} {hist hist' : Nat → Int} (s : Shifted n d hist hist') {j : Nat} (hs : IsSplit n hist' j) : d ≤ j := by
  by_contra c
  obtain ⟨h1, h2, -⟩ := hs
  unfold OtsuSpec.below at h2
  rw [sumN_congr (g := fun _ => 0) (fun k hk => s.low k (by omega) (by omega)), sumN_zero] at h2
  omega

section
variable {K : Type} [Field K] [LinearOrder K] [IsStrictOrderedRing K] [FloorRing K]

theorem Shifted.variance {n d : Nat} {hist hist' : Nat → Int} (s : Shifted n d hist hist') {i : Nat} (hs : IsSplit n hist i) :
    (variance n hist' (i + d) : K) = OtsuSpec.variance n hist i := by
  have hi := s.split_lt hs
  obtain ⟨-, hb, ha⟩ := hs
  have hbK : ((OtsuSpec.below hist i : Int) : K) ≠ 0 := by exact_mod_cast hb.ne'
  have haK : ((OtsuSpec.above n hist i : Int) : K) ≠ 0 := by exact_mod_cast ha.ne'
  have mb : (meanBelow hist' (i + d) : K) = meanBelow hist i + d := by
    unfold meanBelow
    rw [s.below hi, show i + d + 1 = i + 1 + d by omega,
      s.sum (m := i + 1) (by omega) (fun k => ((k + d : Nat) : Int)) (fun k => (k : Int)) (fun _ => rfl)]
    have : sumN (i + 1) (fun k => ((k + d : Nat) : Int) * hist k) = sumN (i + 1) (fun k => k * hist k) + d * OtsuSpec.below hist i := by
      unfold OtsuSpec.below
      rw [← sumN_mul, ← sumN_add]
      exact sumN_congr (fun k _ => by push_cast; ring)
    rw [this]
    push_cast
    field_simp
  have ma : (meanAbove n hist' (i + d) : K) = meanAbove n hist i + d := by
    unfold meanAbove
    rw [s.above hi, s.sumAbove hi (fun k => ((k + d : Nat) : Int)) (fun k => (k : Int)) (fun _ => rfl)]
    have : sumN (n - (i + 1)) (fun k => ((i + 1 + k + d : Nat) : Int) * hist (i + 1 + k)) =
        sumN (n - (i + 1)) (fun k => ((i + 1 + k : Nat) : Int) * hist (i + 1 + k)) + d * OtsuSpec.above n hist i := by
      unfold OtsuSpec.above
      rw [← sumN_mul, ← sumN_add]
      exact sumN_congr (fun k _ => by push_cast; ring)
    rw [this]
    push_cast
    field_simp
  unfold OtsuSpec.variance
  rw [s.below hi, s.above hi, mb, ma]
  ring

/-- Otsu's threshold follows the histogram, when there is one. -/
theorem Shifted.otsu {n d t : Nat} {hist hist' : Nat → Int} (s : Shifted n d hist hist') (h : IsOtsu K n hist t)
    (hs : ∃ i, IsSplit n hist i) : IsOtsu K n hist' (t + d) := by
  obtain ⟨i0, hi0⟩ := hs
  rcases h with ⟨a, b, c⟩ | ⟨a, -⟩
  · left
    have back : ∀ j, IsSplit n hist' j → ∃ i, j = i + d ∧ IsSplit n hist i := by
      intro j hj
      have := s.le_split hj
      refine ⟨j - d, by omega, ?_⟩
      have e : j - d + d = j := by omega
      rw [← s.split (by rw [e]; exact hj.1), e]
      exact hj
    refine ⟨(s.split (s.split_lt a)).mpr a, ?_, ?_⟩
    · intro j hj
      obtain ⟨i, rfl, hi⟩ := back j hj
      rw [s.variance hi, s.variance a]
      exact b i hi
    · intro j hj hlt
      obtain ⟨i, rfl, hi⟩ := back j hj
      rw [s.variance hi, s.variance a]
      exact c i hi (by omega)
  · exact absurd hi0 (a i0)

/-- The same in both directions. -/
theorem otsu_moves {n t t' : Nat} {count count' : Int → Int} {c : Int} (hc : ∀ v, count' (v + c) = count v)
    (hin : ∀ v, count v ≠ 0 → 0 ≤ v ∧ v < n ∧ 0 ≤ v + c ∧ v + c < n) (h0 : ∀ v, 0 ≤ count v)
    {a b : Int} (hab : a < b) (ha : 0 < count a) (hb : 0 < count b)
    (h : IsOtsu K n (fun k => count k) t) (h' : IsOtsu K n (fun k => count' k) t') : (t' : Int) = t + c := by
  have hc' : ∀ v, count' v = count (v - c) := fun v => by rw [← hc (v - c)]; congr 1; omega
  have zero : ∀ v, (v < 0 ∨ (n : Int) ≤ v ∨ v + c < 0 ∨ (n : Int) ≤ v + c) → count v = 0 := by
    intro v hv
    by_contra e
    have := hin v e
    omega
  obtain ⟨a1, a2, a3, a4⟩ := hin a (by omega)
  obtain ⟨b1, b2, b3, b4⟩ := hin b (by omega)
  rcases Int.le_total 0 c with hc0 | hc0
  · have s : Shifted n c.toNat (fun k => count k) (fun k => count' k) := by
      refine ⟨fun k h1 h2 => ?_, fun k h1 => ?_, fun k h1 h2 => ?_⟩
      · rw [hc']; exact zero _ (by omega)
      · rw [← hc k]; congr 1; omega
      · exact zero _ (by omega)
    have hs : IsSplit n (fun k => count k) a.toNat :=
      split_of_two (fun k _ => h0 k) (b := b.toNat) (by omega) (by omega)
        (by rw [show ((a.toNat : Nat) : Int) = a by omega]; exact ha) (by rw [show ((b.toNat : Nat) : Int) = b by omega]; exact hb)
    have := IsOtsu_unique (s.otsu h ⟨_, hs⟩) h'
    omega
  · have s : Shifted n (-c).toNat (fun k => count' k) (fun k => count k) := by
      refine ⟨fun k h1 h2 => ?_, fun k h1 => ?_, fun k h1 h2 => ?_⟩
      · exact zero _ (by omega)
      · rw [hc']; congr 1; omega
      · rw [hc']; exact zero _ (by omega)
    have hs : IsSplit n (fun k => count' k) (a + c).toNat :=
      split_of_two (fun k _ => by rw [hc']; exact h0 _) (b := (b + c).toNat) (by omega) (by omega)
        (by rw [show (((a + c).toNat : Nat) : Int) = a + c by omega, hc]; exact ha)
        (by rw [show (((b + c).toNat : Nat) : Int) = b + c by omega, hc]; exact hb)
    have := IsOtsu_unique (s.otsu h' ⟨_, hs⟩) h
    omega
end
end Boof
