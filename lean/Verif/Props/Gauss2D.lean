import Verif.Proofs.Gauss2D
/-
C109: 2D Gaussian kernels with rounded floating point arithmetic.
-/
namespace Boof
open M
variable {V : Type}

/-- `gaussian2D` with rounding returns a kernel each of whose coefficients is the product of two of the Gaussian, up to 400, below row 0 up to 50,
roundings times `(1+w*G)*(1+w*G')`; coefficients are between 0 and 1; rows are symmetric; and apart from row 0, which alone is
normalised, columns are symmetric and the kernel does not change if its axes are swapped. -/
theorem C109_gaussian {rnd rndE : ℝ → Option ℝ} (F : Format rnd) (FE : Format rndE) {E : GrowArray.Elem ℝ} (hz : E.ms E.zero = E.zero) {ex : ℝ → ℝ}
    (hex : ∀ x, 0 ≤ ex x) (hmono : ∀ x y, x ≤ y → y ≤ 0 → ex x ≤ ex y) {u η big c0 sigma : ℝ} {w : Nat} (G : GaussFits rnd rndE ex u η big c0 sigma w)
    (hc0 : 0 < c0) (hs : 0 < sigma) (hw : 0 < w) (hw2 : w * w < P32) (hP : w % 2 = 1 ∨ 1 / 2 ≤ sigma) (hfine : 1000 * ((w : ℝ) + 1) ^ 2 * u ≤ 1)
    (htiny : 4 * (w : ℝ) ^ 2 * η ≤ u) (h : Heap V) :
    ∃ k c, FactoryKernel.gaussian2DR rnd rndE E ex c0 sigma w h = .ok k h ∧ k.Is2D w (w / 2) c ∧
      (∀ x y, x < w → y < w →
        |c x y - gaussCoef sigma w x * gaussCoef sigma w y| ≤ 400 * ((1 + w * gaussCoef sigma w x) * (1 + w * gaussCoef sigma w y)) * u) ∧
      (∀ x y, x < w → 0 < y → y < w →
        |c x y - gaussCoef sigma w x * gaussCoef sigma w y| ≤ 50 * ((1 + w * gaussCoef sigma w x) * (1 + w * gaussCoef sigma w y)) * u) ∧
      (∀ x y, x < w → y < w → 0 ≤ c x y ∧ c x y ≤ 1) ∧
      (∀ x y, x < w → y < w → c (w - 1 - x) y = c x y) ∧
      (∀ x y, x < w → 0 < y → y < w - 1 → c x (w - 1 - y) = c x y) ∧
      (∀ x y, 0 < x → x < w → 0 < y → y < w → c y x = c x y) := by
  have hw3 : w < 2147483648 := by
    by_contra hge
    have := Nat.mul_le_mul (Nat.not_lt.mp hge) (Nat.not_lt.mp hge)
    unfold P32 at hw2; omega
  obtain ⟨seed, s, e, hk, hcl⟩ := C106_accuracy (V := V) hz G hc0 hs hw hw3 hP h
  obtain ⟨-, s', hk', hs01, hsym, -⟩ := C106_shape F FE hz hex hmono hc0 hs hw hw3 e
  have hss : ∀ i, i < w → s' i = s i := fun i hi => by
    have h1 := hk.coef i hi
    rw [hk'.coef i hi] at h1
    exact Option.some.inj h1
  have R := G.roundsE
  have hu := R.rel
  have hη := R.abs
  have hw1 : (1 : ℝ) ≤ w := by exact_mod_cast hw
  have hww : (1 : ℝ) ≤ (w : ℝ) ^ 2 := one_le_pow₀ hw1
  have hbig : 4 * (w : ℝ) ^ 2 ≤ big := G.range
  have hwu : 0 ≤ (w : ℝ) * u := mul_nonneg (by linarith) hu
  have hw2u : 0 ≤ (w : ℝ) ^ 2 * u := mul_nonneg (by linarith) hu
  have hwu1 : 1 * u ≤ (w : ℝ) * u := mul_le_mul_of_nonneg_right hw1 hu
  have hw2u1 : 1 * u ≤ (w : ℝ) ^ 2 * u := mul_le_mul_of_nonneg_right hww hu
  have hs0 : ∀ i, i < w → 0 ≤ s i := fun i hi => by rw [← hss i hi]; exact (hs01 i hi).1
  have hs1 : ∀ i, i < w → s i ≤ 1 := fun i hi => by rw [← hss i hi]; exact (hs01 i hi).2
  have hsy : ∀ i, i < w → s (w - 1 - i) = s i := fun i hi => by rw [← hss i hi, ← hss _ (by omega)]; exact hsym i hi
  have hPs := bell_sum hs hw hP
  have hG0 : ∀ i, 0 ≤ gaussCoef sigma w i := fun i => div_nonneg (bell_pos sigma w i).le (by linarith)
  have hG1 : ∀ i, i < w → gaussCoef sigma w i ≤ 1 := by
    intro i hi'
    unfold gaussCoef
    rw [div_le_one (by linarith), sumF_eq]
    exact Finset.single_le_sum (f := bell sigma w) (fun i _ => (bell_pos sigma w i).le) (Finset.mem_range.mpr hi')
  have hGsum := gaussCoef_sum (sigma := sigma) hw
  generalize gaussCoef sigma w = g at *
  -- products
  have hex1 : ∀ x y, ∃ p, x < w → y < w → rndE (s x * s y) = some p ∧ |p - g x * g y| ≤ 50 * ((1 + w * g x) * (1 + w * g y)) * u := by
    intro x y
    by_cases hxy : x < w ∧ y < w
    · obtain ⟨hx, hy⟩ := hxy
      have h0 : 0 ≤ s x * s y := mul_nonneg (hs0 x hx) (hs0 y hy)
      have h1 : s x * s y ≤ 1 := mul_le_one₀ (hs1 x hx) (hs0 y hy) (hs1 y hy)
      obtain ⟨p, ep, hp⟩ := R.near (s x * s y) (by rw [abs_of_nonneg h0]; linarith)
      refine ⟨p, fun _ _ => ⟨ep, outer_near hu (hG0 x) (hG0 y) hw1 ?_ G.tiny (hcl x hx) (hcl y hy) (hG1 x hx) (hG1 y hy) hp⟩⟩
      rw [show 1000 * ((w : ℝ) + 1) ^ 2 * u = 1000 * ((w : ℝ) ^ 2 * u) + 2000 * (w * u) + 1000 * u by ring] at hfine
      linarith
    · exact ⟨0, fun a b => absurd ⟨a, b⟩ hxy⟩
  choose p hp using hex1
  have hp0 : ∀ x y, x < w → y < w → 0 ≤ p x y := fun x y hx hy => FE.nonneg (mul_nonneg (hs0 x hx) (hs0 y hy)) (hp x y hx hy).1
  have hp1 : ∀ x y, x < w → y < w → p x y ≤ 1 := fun x y hx hy =>
    FE.le_one (mul_le_one₀ (hs1 x hx) (hs0 y hy) (hs1 y hy)) (hp x y hx hy).1
  have hpeq : ∀ x y x' y', x < w → y < w → x' < w → y' < w → s x * s y = s x' * s y' → p x y = p x' y' := by
    intro x y x' y' hx hy hx' hy' q
    have h1 := (hp x y hx hy).1
    rw [q, (hp x' y' hx' hy').1] at h1
    exact (Option.some.inj h1).symm
  -- the sum
  have hm : ∀ n, n < w * w → n % w < w ∧ n / w < w := fun n hn => ⟨Nat.mod_lt _ hw, Nat.div_lt_of_lt_mul hn⟩
  have hsumA : sumF (w * w) (fun n => (1 + w * g (n % w)) * (1 + w * g (n / w))) = 4 * (w : ℝ) ^ 2 := by
    rw [sumF_rows]
    have h1 : ∀ a : Nat → ℝ, sumF w (fun y => 1 + w * a y) = w + w * sumF w a := by
      intro a
      have : sumF w (fun y => 1 + w * a y) = sumF w (fun _ => (1 : ℝ)) + sumF w (fun y => w * a y) := by
        rw [sumF_eq, sumF_eq, sumF_eq, Finset.sum_add_distrib]
      rw [this, sumF_mul, sumF_const, mul_one]
    have h2 : ∀ y, y < w → sumF w (fun x => (1 + w * g ((y * w + x) % w)) * (1 + w * g ((y * w + x) / w))) = (1 + w * g y) * (2 * w) := by
      intro y _
      have h3 : ∀ x, x < w → (1 + w * g ((y * w + x) % w)) * (1 + w * g ((y * w + x) / w)) = (1 + w * g y) * (1 + w * g x) := by
        intro x hx
        rw [(flat2 hx y).1, (flat2 hx y).2, mul_comm]
      rw [sumF_congr h3, sumF_mul, h1, hGsum]
      ring
    rw [sumF_congr h2]
    have h4 : ∀ y, y < w → (1 + w * g y) * (2 * w) = (2 * w) * (1 + w * g y) := fun y _ => mul_comm _ _
    rw [sumF_congr h4, sumF_mul, h1, hGsum]
    ring
  have hsumG : sumF (w * w) (fun n => g (n % w) * g (n / w)) = 1 := by
    rw [sumF_rows]
    have h2 : ∀ y, y < w → sumF w (fun x => g ((y * w + x) % w) * g ((y * w + x) / w)) = g y := by
      intro y _
      have h3 : ∀ x, x < w → g ((y * w + x) % w) * g ((y * w + x) / w) = g y * g x := by
        intro x hx
        rw [(flat2 hx y).1, (flat2 hx y).2, mul_comm]
      rw [sumF_congr h3, sumF_mul, hGsum, mul_one]
    rw [sumF_congr h2, hGsum]
  have hA0 : ∀ x y, 1 ≤ (1 + w * g x) * (1 + w * g y) := fun x y =>
    one_le_mul_of_one_le_of_one_le (by linarith [mul_nonneg (show (0 : ℝ) ≤ w by linarith) (hG0 x)])
      (by linarith [mul_nonneg (show (0 : ℝ) ≤ w by linarith) (hG0 y)])
  have hdiff : |sumF (w * w) (fun n => p (n % w) (n / w)) - 1| ≤ 200 * (w : ℝ) ^ 2 * u := by
    have h1 : ∀ n, n < w * w → |p (n % w) (n / w) - g (n % w) * g (n / w)| ≤ 50 * u * ((1 + w * g (n % w)) * (1 + w * g (n / w))) := by
      intro n hn
      have := (hp _ _ (hm n hn).1 (hm n hn).2).2
      linarith
    rw [← hsumG, sumF_eq, sumF_eq, ← Finset.sum_sub_distrib]
    refine le_trans (Finset.abs_sum_le_sum_abs _ _) ?_
    refine le_trans (Finset.sum_le_sum (fun n hn => h1 n (Finset.mem_range.mp hn))) ?_
    rw [← Finset.mul_sum, ← sumF_eq, hsumA]
    linarith
  have hpart : ∀ n, n ≤ w * w → |sumF n (fun n => p (n % w) (n / w))| ≤ 1.2 := by
    intro n hn
    have h1 : 0 ≤ sumF n (fun n => p (n % w) (n / w)) := by
      rw [sumF_eq]
      exact Finset.sum_nonneg (fun i hi => hp0 _ _ (hm i (by have := Finset.mem_range.mp hi; omega)).1 (hm i (by have := Finset.mem_range.mp hi; omega)).2)
    have h2 : sumF n (fun n => p (n % w) (n / w)) ≤ sumF (w * w) (fun n => p (n % w) (n / w)) := by
      rw [sumF_eq, sumF_eq]
      exact Finset.sum_le_sum_of_subset_of_nonneg (Finset.range_mono hn) (fun i hi _ => hp0 _ _ (hm i (Finset.mem_range.mp hi)).1 (hm i (Finset.mem_range.mp hi)).2)
    rw [abs_of_nonneg h1]
    have h3 := (abs_le.mp hdiff).2
    nlinarith
  have hcast : ((w * w : Nat) : ℝ) = (w : ℝ) ^ 2 := by push_cast; ring
  obtain ⟨he0, he⟩ := C84_simple (n := w * w) (m := w * w) hu hη (show (0 : ℝ) ≤ 1.2 by norm_num) (by rw [hcast]; nlinarith)
  rw [hcast] at he
  have he' : roundError u η (w * w) (w * w) (1.2 : ℝ) ≤ 3 * (w : ℝ) ^ 2 * u := by
    nlinarith
  obtain ⟨S, eS, hS⟩ := foldO_sums R hpart (by
    have e : grown u η (w * w) (w * w) (1.2 : ℝ) = roundError u η (w * w) (w * w) (1.2 : ℝ) + 1.2 := by unfold roundError; ring
    rw [e]
    nlinarith)
  have hS2 := Within.error hS
  have hS3 : |S - 1| ≤ 203 * (w : ℝ) ^ 2 * u := by
    have := abs_add_le (S - sumF (w * w) (fun n => p (n % w) (n / w))) (sumF (w * w) (fun n => p (n % w) (n / w)) - 1)
    rw [sub_add_sub_cancel] at this
    linarith
  have hSlo : 0.79 ≤ S := by
    have := (abs_le.mp hS3).1
    nlinarith
  have hSpos : 0 < S := by linarith
  have hge := (foldO_ge FE (p := fun n => p (n % w) (n / w)) (fun n hn => hp0 _ _ (hm n hn).1 (hm n hn).2)
    (fun n hn => FE.fixed _ _ (hp _ _ (hm n hn).1 (hm n hn).2).1) eS).2.2
  have hpS : ∀ x, x < w → p x 0 ≤ S := by
    intro x hx
    have := hge x (lt_of_lt_of_le hx (Nat.le_mul_of_pos_left w hw))
    beta_reduce at this
    rwa [Nat.mod_eq_of_lt hx, Nat.div_eq_of_lt hx] at this
  -- the first row
  have hex2 : ∀ x, ∃ v, x < w → rndE (p x 0 / S) = some v ∧ |v - g x * g 0| ≤ 400 * ((1 + w * g x) * (1 + w * g 0)) * u := by
    intro x
    by_cases hx : x < w
    · have hA := hA0 x 0
      have hpx := (hp x 0 hx hw).2
      have hgg : 0 ≤ g x * g 0 := mul_nonneg (hG0 x) (hG0 0)
      have hggA : (w : ℝ) ^ 2 * (g x * g 0) ≤ (1 + w * g x) * (1 + w * g 0) := by
        have := mul_nonneg (show (0 : ℝ) ≤ w by linarith) (hG0 x)
        have := mul_nonneg (show (0 : ℝ) ≤ w by linarith) (hG0 0)
        linarith
      generalize (1 + w * g x) * (1 + w * g 0) = A at *
      have hq0 : 0 ≤ p x 0 / S := div_nonneg (hp0 x 0 hx hw) hSpos.le
      have hq1 : p x 0 / S ≤ 1 := by rw [div_le_one hSpos]; exact hpS x hx
      obtain ⟨v, ev, hv⟩ := R.near (p x 0 / S) (by rw [abs_of_nonneg hq0]; linarith)
      refine ⟨v, fun _ => ⟨ev, ?_⟩⟩
      rw [abs_of_nonneg hq0] at hv
      have h1 : |p x 0 / S - g x * g 0| ≤ 330 * A * u := by
        have e : p x 0 / S - g x * g 0 = ((p x 0 - g x * g 0) + (g x * g 0) * (1 - S)) / S := by field_simp; ring
        rw [e, abs_div, abs_of_pos hSpos, div_le_iff₀ hSpos]
        have t1 : |(g x * g 0) * (1 - S)| ≤ 203 * A * u := by
          rw [abs_mul, abs_of_nonneg hgg, abs_sub_comm]
          have h2 := mul_le_mul_of_nonneg_left hS3 hgg
          have h3 := mul_le_mul_of_nonneg_right hggA hu
          linarith
        have t2 := abs_add_le (p x 0 - g x * g 0) ((g x * g 0) * (1 - S))
        have t3 : 330 * A * u * 0.79 ≤ 330 * A * u * S := mul_le_mul_of_nonneg_left hSlo (by positivity)
        have t4 : 0 ≤ A * u := by positivity
        linarith
      have h2 := abs_add_le (v - p x 0 / S) (p x 0 / S - g x * g 0)
      rw [sub_add_sub_cancel] at h2
      have h3 : u * (p x 0 / S) ≤ u * 1 := mul_le_mul_of_nonneg_left hq1 hu
      have h4 := mul_le_mul_of_nonneg_right hA hu
      have := G.tiny
      linarith
    · exact ⟨0, fun q => absurd q hx⟩
  choose v hv using hex2
  obtain ⟨k, ek, hk2⟩ := gaussian2DR_run (V := V) E hz hw hw2 e hk (fun x y hx hy => (hp x y hx hy).1) eS (ne_of_gt hSpos) (fun x hx => (hv x hx).1)
  refine ⟨k, _, ek, hk2, fun x y hx hy => ?_, fun x y hx hy0 hy => ?_, fun x y hx hy => ?_, fun x y hx hy => ?_, fun x y hx hy0 hy => ?_,
    fun x y hx0 hx hy0 hy => ?_⟩
  · beta_reduce
    split
    · next q => subst q; exact (hv x hx).2
    · have := (hp x y hx hy).2
      have h4 := mul_le_mul_of_nonneg_right (hA0 x y) hu
      linarith
  · beta_reduce
    rw [if_neg (by omega)]
    exact (hp x y hx hy).2
  · beta_reduce
    split
    · refine ⟨FE.nonneg (div_nonneg (hp0 x 0 hx hw) hSpos.le) (hv x hx).1, FE.le_one ?_ (hv x hx).1⟩
      rw [div_le_one hSpos]; exact hpS x hx
    · exact ⟨hp0 x y hx hy, hp1 x y hx hy⟩
  · beta_reduce
    split
    · have h1 := (hv (w - 1 - x) (by omega)).1
      rw [hpeq (w - 1 - x) 0 x 0 (by omega) hw hx hw (by rw [hsy x hx]), (hv x hx).1] at h1
      exact (Option.some.inj h1).symm
    · exact hpeq _ _ _ _ (by omega) hy hx hy (by rw [hsy x hx])
  · beta_reduce
    rw [if_neg (by omega), if_neg (by omega)]
    exact hpeq _ _ _ _ hx (by omega) hx (by omega) (by rw [hsy y (by omega)])
  · beta_reduce
    rw [if_neg (by omega), if_neg (by omega)]
    exact hpeq _ _ _ _ hy hx hx hy (mul_comm _ _)

/-- The coefficients sum to one up to `1600*w*w` roundings. -/
theorem C109_sum {sigma u : ℝ} {w : Nat} (hw : 0 < w) {c : Nat → Nat → ℝ} (hc : ∀ x y, x < w → y < w →
    |c x y - gaussCoef sigma w x * gaussCoef sigma w y| ≤ 400 * ((1 + w * gaussCoef sigma w x) * (1 + w * gaussCoef sigma w y)) * u) :
    |sumF w (fun y => sumF w (fun x => c x y)) - 1| ≤ 1600 * (w : ℝ) ^ 2 * u := by
  have hGsum := gaussCoef_sum (sigma := sigma) hw
  generalize gaussCoef sigma w = g at *
  have h1 : sumF w (fun y => 1 + w * g y) = 2 * w := by
    have : sumF w (fun y => 1 + w * g y) = sumF w (fun _ => (1 : ℝ)) + sumF w (fun y => w * g y) := by
      rw [sumF_eq, sumF_eq, sumF_eq, Finset.sum_add_distrib]
    rw [this, sumF_mul, sumF_const, mul_one, hGsum]; ring
  have h2 : ∀ y, y < w → |sumF w (fun x => c x y) - g y| ≤ 800 * w * u * (1 + w * g y) := by
    intro y hy
    have e : g y = sumF w (fun x => g x * g y) := by
      rw [sumF_congr (fun x _ => mul_comm (g x) (g y)), sumF_mul, hGsum, mul_one]
    have e2 : 800 * w * u * (1 + w * g y) = sumF w (fun x => 400 * ((1 + w * g x) * (1 + w * g y)) * u) := by
      rw [sumF_congr (fun x _ => show 400 * ((1 + w * g x) * (1 + w * g y)) * u = (400 * (1 + w * g y) * u) * (1 + w * g x) by ring), sumF_mul, h1]
      ring
    conv_lhs => rw [e]
    rw [e2, sumF_eq, sumF_eq, sumF_eq, ← Finset.sum_sub_distrib]
    refine le_trans (Finset.abs_sum_le_sum_abs _ _) (Finset.sum_le_sum (fun x hx => ?_))
    exact hc x y (Finset.mem_range.mp hx) hy
  have e3 : 1600 * (w : ℝ) ^ 2 * u = sumF w (fun y => 800 * w * u * (1 + w * g y)) := by
    rw [sumF_mul, h1]; ring
  rw [← hGsum, e3, sumF_eq, sumF_eq, sumF_eq, ← Finset.sum_sub_distrib]
  exact le_trans (Finset.abs_sum_le_sum_abs _ _) (Finset.sum_le_sum (fun y hy => h2 y (Finset.mem_range.mp hy)))

/-- `float_to_int` of a 2D kernel with rounding, as C107 for 1D kernels (coefficients numbered row by row). -/
theorem C109_convert {K : Type} [Field K] [LinearOrder K] [IsStrictOrderedRing K] [FloorRing K] {rnd : K → Option K} {u η big : K}
    (R : Rounds rnd u η big) (F : Format rnd) (hu : 1000 * u ≤ 1) (hη : 100 * η ≤ u) (hb : 1000 ≤ big) (t : IntTy) (junk : Nat → Int) {k : Kernel K}
    {w o : Nat} {c : Nat → Nat → K} (hk : k.Is2D w o c) (ho : o < w) (hw : w * w < P32) {x0 y0 : Nat} (hx0 : x0 < w) (hy0 : y0 < w)
    (h0 : 100 * η ≤ u * |c x0 y0|) (h00 : c x0 y0 ≠ 0) (hbc : ∀ x y, x < w → y < w → |c x y| ≤ big)
    (hhi : (100 : Int) ≤ t.hi) (hlo0 : t.lo ≤ 0) (hlo : t.lo ≤ -100 ∨ ∀ x y, x < w → y < w → 0 ≤ c x y) (h : Heap V) :
    ∃ f k' d, rnd (1 / 100) = some f ∧ FactoryKernel.floatToInt2DR rnd (intElem t junk) t k f h = .ok k' h ∧ k'.Is2D w o d ∧
      NearIntKernel (w * w) (fun n => c (n % w) (n / w)) (fun n => d (n % w) (n / w)) (610 * u) :=
  convert2DR R F hu hη hb t junk hk ho hw hx0 hy0 h0 h00 hbc hhi hlo0 hlo h

/-- The integer 2D Gaussian kernel with rounding: coefficients between 0 and 100, not all zero, rows symmetric, and apart from row 0 columns are
symmetric and the axes can be swapped. -/
theorem C109_int {rnd : ℝ → Option ℝ} (F : Format rnd) {E : GrowArray.Elem ℝ} (hz : E.ms E.zero = E.zero) {ex : ℝ → ℝ}
    (hex : ∀ x, 0 ≤ ex x) (hmono : ∀ x y, x ≤ y → y ≤ 0 → ex x ≤ ex y) {u η big c0 sigma : ℝ} {w : Nat} (G : GaussFits rnd rnd ex u η big c0 sigma w)
    (hc0 : 0 < c0) (hs : 0 < sigma) (hw : 0 < w) (hw2 : w * w < P32) (hP : w % 2 = 1 ∨ 1 / 2 ≤ sigma) (hfine : 4000 * ((w : ℝ) + 1) ^ 2 * u ≤ 1)
    (htiny : 200 * (w : ℝ) ^ 2 * η ≤ u) (hb : 1000 ≤ big) (t : IntTy) (ht : t ∈ [U8, U16, S16, U32, S32, S64]) (junk : Nat → Int) (h : Heap V) :
    ∃ k d, FactoryKernel.gaussian2DIntR rnd E (intElem t junk) t ex c0 sigma w h = .ok k h ∧ k.Is2D w (w / 2) d ∧
      (∀ x y, x < w → y < w → 0 ≤ d x y ∧ d x y ≤ 100) ∧
      (∃ x y, x < w ∧ y < w ∧ 0 < d x y) ∧
      (∀ x y, x < w → y < w → d (w - 1 - x) y = d x y) ∧
      (∀ x y, x < w → 0 < y → y < w - 1 → d x (w - 1 - y) = d x y) ∧
      (∀ x y, 0 < x → x < w → 0 < y → y < w → d y x = d x y) := by
  have hu := G.rounds.rel
  have hη := G.rounds.abs
  have hw1 : (1 : ℝ) ≤ w := by exact_mod_cast hw
  have hww : (1 : ℝ) ≤ (w : ℝ) ^ 2 := one_le_pow₀ hw1
  have hwu1 : 1 * u ≤ (w : ℝ) * u := mul_le_mul_of_nonneg_right hw1 hu
  have hw2u1 : 1 * u ≤ (w : ℝ) ^ 2 * u := mul_le_mul_of_nonneg_right hww hu
  have hwη : 1 * η ≤ (w : ℝ) ^ 2 * η := mul_le_mul_of_nonneg_right hww hη
  have hf2 : 4000 * ((w : ℝ) + 1) ^ 2 * u = 4000 * ((w : ℝ) ^ 2 * u) + 8000 * (w * u) + 4000 * u := by ring
  obtain ⟨k2, c, e2, hk2, hacc, -, h01, hrow, hcol, hswap⟩ := C109_gaussian (V := V) F F hz hex hmono G hc0 hs hw hw2 hP (by linarith) (by linarith) h
  -- a coefficient which is not tiny
  have hsum := (abs_le.mp (C109_sum hw hacc)).1
  obtain ⟨x0, y0, hx0, hy0, hbig⟩ : ∃ x y, x < w ∧ y < w ∧ 1 / 2 ≤ (w : ℝ) ^ 2 * c x y := by
    by_contra hn
    have h1 : ∀ x y, x < w → y < w → c x y ≤ 1 / (2 * (w : ℝ) ^ 2) := by
      intro x y hx hy
      by_contra hc
      refine hn ⟨x, y, hx, hy, ?_⟩
      rw [not_le, div_lt_iff₀ (by positivity)] at hc
      linarith
    have h2 : sumF w (fun y => sumF w (fun x => c x y)) ≤ sumF w (fun _ => sumF w (fun _ => 1 / (2 * (w : ℝ) ^ 2))) :=
      sumF_mono (fun y hy => sumF_mono (fun x hx => h1 x y hx hy))
    rw [sumF_const, sumF_const] at h2
    have h3 : (w : ℝ) * (w * (1 / (2 * (w : ℝ) ^ 2))) = 1 / 2 := by
      have : (w : ℝ) ≠ 0 := by linarith
      field_simp
    rw [h3] at h2
    linarith
  have hpos : 0 < c x0 y0 := by
    by_contra hc
    have := mul_nonpos_of_nonneg_of_nonpos (by linarith : (0 : ℝ) ≤ (w : ℝ) ^ 2) (not_lt.mp hc)
    linarith
  have hη1 : 100 * η ≤ u * |c x0 y0| := by
    rw [abs_of_pos hpos]
    have h1 : 200 * (w : ℝ) ^ 2 * η * ((w : ℝ) ^ 2 * c x0 y0) ≤ u * ((w : ℝ) ^ 2 * c x0 y0) := mul_le_mul_of_nonneg_right htiny (by linarith)
    have h2 : 200 * (w : ℝ) ^ 2 * η * (1 / 2) ≤ 200 * (w : ℝ) ^ 2 * η * ((w : ℝ) ^ 2 * c x0 y0) := mul_le_mul_of_nonneg_left hbig (by positivity)
    have h3 : (w : ℝ) ^ 2 * (100 * η) ≤ (w : ℝ) ^ 2 * (u * c x0 y0) := by linarith
    exact le_of_mul_le_mul_left h3 (by linarith)
  obtain ⟨t1, t2, -⟩ := C46_types t ht
  obtain ⟨f, k, d, ef, e3, hk3, hd⟩ := C109_convert (V := V) G.rounds F (by linarith) (by linarith) hb t junk hk2 (by omega) hw2 hx0 hy0 hη1 (ne_of_gt hpos)
    (fun x y hx hy => by
      rw [abs_of_nonneg (h01 x y hx hy).1]
      linarith [(h01 x y hx hy).2]) t1 t2 (Or.inr (fun x y hx hy => (h01 x y hx hy).1)) h
  have heq : ∀ x y x' y', x < w → y < w → x' < w → y' < w → c x y = c x' y' → d x y = d x' y' := by
    intro x y x' y' hx hy hx' hy' e
    have h1 := hd.order _ _ (idx2_lt hx hy) (idx2_lt hx' hy')
    have h2 := hd.order _ _ (idx2_lt hx' hy') (idx2_lt hx hy)
    simp only [(flat2 hx y).1, (flat2 hx y).2, (flat2 hx' y').1, (flat2 hx' y').2] at h1 h2
    exact le_antisymm (h1 (le_of_eq e)) (h2 (le_of_eq e.symm))
  have hd01 : ∀ x y, x < w → y < w → 0 ≤ d x y ∧ d x y ≤ 100 := by
    intro x y hx hy
    have h1 := hd.nonneg _ (idx2_lt hx hy)
    have h2 := (abs_le.mp (hd.bound _ (idx2_lt hx hy))).2
    simp only [(flat2 hx y).1, (flat2 hx y).2] at h1 h2
    exact ⟨h1 (h01 x y hx hy).1, h2⟩
  refine ⟨k, d, ?_, hk3, hd01, ?_, fun x y hx hy => heq _ _ _ _ (by omega) hy hx hy (hrow x y hx hy),
    fun x y hx hy0 hy => heq _ _ _ _ hx (by omega) hx (by omega) (hcol x y hx hy0 hy),
    fun x y hx0 hx hy0 hy => heq _ _ _ _ hy hx hx hy (hswap x y hx0 hx hy0 hy)⟩
  · unfold FactoryKernel.gaussian2DIntR
    rw [M.bind_ok e2, optBind ef, e3]
  · obtain ⟨q, mx, mn, hmx, -, -, -⟩ := hd.quotient
    obtain ⟨n, hn, e⟩ := hmx.1
    have hm : n % w < w ∧ n / w < w := ⟨Nat.mod_lt _ hw, Nat.div_lt_of_lt_mul hn⟩
    have h1 := hd.largest n hn (fun j hj => by rw [e]; exact hmx.2 j hj)
    have h2 := (hd01 _ _ hm.1 hm.2).1
    exact ⟨_, _, hm.1, hm.2, by omega⟩

/-- `double` kernels of width up to 10000, sigma between 1/1000 and 1000000. -/
theorem C109_double {E : GrowArray.Elem ℝ} (hz : E.ms E.zero = E.zero) {sigma : ℝ} (hs : 1 / 1000 ≤ sigma) (hs2 : sigma ≤ 1000000) {w : Nat} (hw : 0 < w)
    (hw2 : w ≤ 10000) (hP : w % 2 = 1 ∨ 1 / 2 ≤ sigma) (h : Heap V) :
    (∃ k c, FactoryKernel.gaussian2DR float64 float64 E expRounded 2.5066282746310 sigma w h = .ok k h ∧ k.Is2D w (w / 2) c ∧
      (∀ x y, x < w → y < w → |c x y - gaussCoef sigma w x * gaussCoef sigma w y| ≤
        400 * ((1 + w * gaussCoef sigma w x) * (1 + w * gaussCoef sigma w y)) * (1 / 2 ^ 53)) ∧
      (∀ x y, x < w → 0 < y → y < w - 1 → c x (w - 1 - y) = c x y)) ∧
    ∀ (t : IntTy) (_ : t ∈ [U8, U16, S16, U32, S32, S64]) (junk : Nat → Int),
      ∃ k d, FactoryKernel.gaussian2DIntR float64 E (intElem t junk) t expRounded 2.5066282746310 sigma w h = .ok k h ∧ k.Is2D w (w / 2) d ∧
        (∀ x y, x < w → y < w → 0 ≤ d x y ∧ d x y ≤ 100) ∧ ∃ x y, x < w ∧ y < w ∧ 0 < d x y := by
  have hwr : (w : ℝ) ≤ 10000 := by exact_mod_cast hw2
  have hw0 : (0 : ℝ) ≤ w := Nat.cast_nonneg w
  have hww : (w : ℝ) ^ 2 ≤ 10000 ^ 2 := pow_le_pow_left₀ hw0 hwr 2
  have hww1 : ((w : ℝ) + 1) ^ 2 ≤ 10001 ^ 2 := pow_le_pow_left₀ (by linarith) (by linarith) 2
  have hP32 : w * w < P32 := by
    have := Nat.mul_le_mul hw2 hw2
    unfold P32; omega
  have hη : 200 * (w : ℝ) ^ 2 * (1 / 2 ^ 1075) ≤ 1 / 2 ^ 53 := by
    have h1 : (1 : ℝ) / 2 ^ 1075 ≤ 1 / 2 ^ 100 := one_div_le_one_div_of_le (by positivity) (pow_le_pow_right₀ (by norm_num) (by norm_num))
    have h0 : (0 : ℝ) ≤ 1 / 2 ^ 1075 := by positivity
    generalize (1 : ℝ) / 2 ^ 1075 = η at *
    have h3 : 200 * (w : ℝ) ^ 2 * η ≤ 200 * 10000 ^ 2 * η := mul_le_mul_of_nonneg_right (by linarith) h0
    linarith
  have hη4 : 4 * (w : ℝ) ^ 2 * (1 / 2 ^ 1075) ≤ 1 / 2 ^ 53 := by
    have h0 : (0 : ℝ) ≤ (w : ℝ) ^ 2 * (1 / 2 ^ 1075) := by positivity
    generalize (1 : ℝ) / 2 ^ 1075 = η at *
    linarith
  have G := C106_double (fun _ hx => expRounded_near hx) (c0 := 2.5066282746310) (sigma := sigma) (w := w) (by norm_num) (by norm_num) hs hs2 (by omega)
  constructor
  · obtain ⟨k, c, e, hk, h1, -, -, -, h2, -⟩ := C109_gaussian (V := V) float64_format float64_format hz expRounded_nonneg (fun _ _ => expRounded_mono) G
      (by norm_num) (by linarith) hw hP32 hP (by linarith) hη4 h
    exact ⟨k, c, e, hk, h1, h2⟩
  · intro t ht junk
    obtain ⟨k, d, e, hk, h1, h2, -⟩ := C109_int (V := V) float64_format hz expRounded_nonneg (fun _ _ => expRounded_mono) G
      (by norm_num) (by linarith) hw hP32 hP (by linarith) hη (by
        have hb : (2 : ℝ) ^ 10 ≤ 2 ^ 1023 := pow_le_pow_right₀ (by norm_num) (by norm_num)
        exact le_trans (by norm_num) hb) t ht junk h
    exact ⟨k, d, e, hk, h1, h2⟩

/-- The columns of `gaussian2D(1,3)` are not symmetric in `double`: the products have the rounded sum `1+1/2^52`, and only row 0 is divided by it.
With exact arithmetic they are symmetric (C45).  `ex` is any exponential function which is correctly rounded at 0 and -1/2. -/
theorem C109_symmetric_refuted (E : GrowArray.Elem ℚ) (hz : E.ms E.zero = E.zero) {ex : ℚ → ℚ} (h0 : ex 0 = 1)
    (h1 : ex (-(1 / 2)) = 2731571253070597 / 4503599627370496) (h : Heap V) :
    ∃ k c, FactoryKernel.gaussian2DR float64 float64 E ex 2.5066282746310 1 (3 : Nat) h = .ok k h ∧ k.Is2D 3 1 c ∧
      c 0 0 = 5412505868681442 / 2 ^ 56 ∧ c 0 2 = 5412505868681443 / 2 ^ 56 := by
  have f0 : float64 (0 : ℚ) = some 0 := by decide +kernel
  have f1 : float64 (1 : ℚ) = some 1 := by decide +kernel
  have f2 : float64 (2 : ℚ) = some 2 := by decide +kernel
  have fm1 : float64 (-1 : ℚ) = some (-1) := by decide +kernel
  have fh : float64 (-(1 / 2) : ℚ) = some (-(1 / 2)) := by decide +kernel
  have fc : float64 (2.5066282746310 : ℚ) = some (1411106270448065 / 562949953421312) := by decide +kernel
  have fp : float64 ((2731571253070597 / 4503599627370496) / (1411106270448065 / 562949953421312) : ℚ) = some (4358957059115933 / 18014398509481984) := by
    decide +kernel
  have fp1 : float64 (1 / (1411106270448065 / 562949953421312) : ℚ) = some (7186705221432915 / 18014398509481984) := by decide +kernel
  have fpp : float64 (4358957059115933 / 18014398509481984 : ℚ) = some (4358957059115933 / 18014398509481984) := by decide +kernel
  have fpp1 : float64 (7186705221432915 / 18014398509481984 : ℚ) = some (7186705221432915 / 18014398509481984) := by decide +kernel
  have hside : ∀ s : ℚ, s = 1 ∨ s = -1 → pdfO float64 ex 2.5066282746310 0 1 s = some (4358957059115933 / 18014398509481984) := by
    intro s hs
    have es : float64 s = some s := by rcases hs with rfl | rfl <;> assumption
    have hsq : -s * s = -1 := by rcases hs with rfl | rfl <;> norm_num
    unfold pdfO
    rw [sub_zero, es, Option.bind_some, hsq, fm1, Option.bind_some, mul_one, f2, Option.bind_some, mul_one, f2, Option.bind_some, if_neg (by norm_num),
      show (-1 : ℚ) / 2 = -(1 / 2) by norm_num, fh, Option.bind_some, one_mul, fc, Option.bind_some, if_neg (by norm_num), h1, fp]
  have hmid : pdfO float64 ex 2.5066282746310 0 1 0 = some (7186705221432915 / 18014398509481984) := by
    unfold pdfO
    rw [sub_zero, f0, Option.bind_some, mul_zero, f0, Option.bind_some, mul_one, f2, Option.bind_some, mul_one, f2, Option.bind_some, if_neg (by norm_num),
      zero_div, f0, Option.bind_some, one_mul, fc, Option.bind_some, if_neg (by norm_num), h0, fp1]
  have three : ∀ i, i < 3 → i = 0 ∨ i = 1 ∨ i = 2 := fun i hi => by omega
  obtain ⟨seed, e, hk⟩ := gaussCore_run (V := V) (rnd := float64) (rndE := float64) (ex := ex) (c0 := 2.5066282746310) (sigma := 1) (E := E) hz (w := 3) (by decide) (by decide) h
    (p := fun i => if i = 1 then 7186705221432915 / 18014398509481984 else 4358957059115933 / 18014398509481984)
    (c := fun i => if i = 1 then 1017504483007295 / 2251799813685248 else 4937181322711813 / 18014398509481984)
    (S := 3976154834916195 / 4503599627370496) (fun i hi => by
      unfold sampleO
      rcases three i hi with rfl | rfl | rfl
      · rw [show fromMiddle ℚ 3 0 = -1 by unfold fromMiddle; norm_num, fm1, Option.bind_some, hside _ (Or.inr rfl), Option.bind_some, if_neg (by decide)]
        exact fpp
      · rw [show fromMiddle ℚ 3 1 = 0 by unfold fromMiddle; norm_num, f0, Option.bind_some, hmid, Option.bind_some, if_pos rfl]
        exact fpp1
      · rw [show fromMiddle ℚ 3 2 = 1 by unfold fromMiddle; norm_num, f1, Option.bind_some, hside _ (Or.inl rfl), Option.bind_some, if_neg (by decide)]
        exact fpp) (by decide +kernel) (by norm_num) (by decide +kernel)
  rw [← gaussCore_both float64 float64 E ex _ one_pos (by decide) h] at e
  obtain ⟨k, ek, hk2⟩ := gaussian2DR_run (V := V) E hz (by decide) (by decide) e hk
    (p := fun x y => if x = 1 then (if y = 1 then 7356358174632353 / 36028797018963968 else 8923713553484369 / 72057594037927936)
      else (if y = 1 then 8923713553484369 / 72057594037927936 else 5412505868681443 / 72057594037927936))
    (v := fun x => if x = 1 then 8923713553484367 / 72057594037927936 else 2706252934340721 / 36028797018963968)
    (S := 4503599627370497 / 4503599627370496) (fun x y hx hy => by
      rcases three x hx with rfl | rfl | rfl <;> rcases three y hy with rfl | rfl | rfl <;> decide +kernel) (by decide +kernel) (by norm_num) (by decide +kernel)
  exact ⟨k, _, ek, hk2, by norm_num, by norm_num⟩

/-- The value assumed for `ex(-1/2)` is the number of the format nearest to the exponential function. -/
theorem C109_exp_half : |(2731571253070597 / 4503599627370496 : ℝ) - Real.exp (-(1 / 2))| ≤ 1 / 2 ^ 54 := by
  have h := Real.exp_bound (x := -(1 / 2)) (by norm_num) (n := 18) (by norm_num)
  rw [abs_sub_comm] at h
  have h2 := abs_add_le ((2731571253070597 / 4503599627370496 : ℝ) - ∑ m ∈ Finset.range 18, (-(1 / 2) : ℝ) ^ m / m.factorial)
    ((∑ m ∈ Finset.range 18, (-(1 / 2) : ℝ) ^ m / m.factorial) - Real.exp (-(1 / 2)))
  rw [sub_add_sub_cancel] at h2
  refine le_trans h2 (le_trans (add_le_add_right h _) ?_)
  norm_num [Finset.sum_range_succ, Nat.factorial]

/-- A function as required: exact at 0, rounded at -1/2. -/
example (h : Heap V) : ∃ k c, FactoryKernel.gaussian2DR float64 float64 (⟨id, 8, 0, fun _ => 7⟩ : GrowArray.Elem ℚ)
    (fun x => if x = 0 then 1 else if x = -(1 / 2) then 2731571253070597 / 4503599627370496 else 0) 2.5066282746310 1 (3 : Nat) h = .ok k h ∧
    k.Is2D 3 1 c ∧ c 0 0 ≠ c 0 2 := by
  obtain ⟨k, c, e, hk, h1, h2⟩ := C109_symmetric_refuted (V := V) (⟨id, 8, 0, fun _ => 7⟩ : GrowArray.Elem ℚ) rfl
    (ex := fun x => if x = 0 then 1 else if x = -(1 / 2) then 2731571253070597 / 4503599627370496 else 0) (if_pos rfl)
    (by rw [if_neg (by norm_num), if_pos rfl]) h
  exact ⟨k, c, e, hk, by rw [h1, h2]; norm_num⟩

/-- A kernel of width 5 and sigma 3/2 in `double`, and its integers. -/
example (h : Heap V) : (∃ k c, FactoryKernel.gaussian2DR float64 float64 (⟨id, 8, 0, fun _ => 7⟩ : GrowArray.Elem ℝ) expRounded 2.5066282746310 (3/2) (5 : Nat) h = .ok k h ∧
    k.Is2D 5 2 c ∧ c 0 1 = c 0 3) ∧ ∃ k d, FactoryKernel.gaussian2DIntR float64 (⟨id, 8, 0, fun _ => 7⟩ : GrowArray.Elem ℝ) (intElem U8 (fun _ => 3)) U8 expRounded
    2.5066282746310 (3/2) (5 : Nat) h = .ok k h ∧ k.Is2D 5 2 d ∧ d 2 2 ≤ 100 := by
  obtain ⟨⟨k, c, e, hk, -, h2⟩, h3⟩ := C109_double (V := V) (E := (⟨id, 8, 0, fun _ => 7⟩ : GrowArray.Elem ℝ)) rfl (sigma := 3/2) (by norm_num) (by norm_num)
    (w := 5) (by decide) (by decide) (Or.inl (by decide)) h
  obtain ⟨k', d, e', hk', h4, -⟩ := h3 U8 (by decide) (fun _ => 3)
  exact ⟨⟨k, c, e, hk, (h2 0 1 (by decide) (by decide) (by decide)).symm⟩, k', d, e', hk', (h4 2 2 (by decide) (by decide)).2⟩

end Boof
