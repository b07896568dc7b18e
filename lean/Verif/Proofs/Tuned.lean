import Verif.Spec.Tuned
import Verif.Proofs.OtsuRounding
/-
The end of `ComputeOtsu::compute` with rounding.
-/
namespace Boof
open M OtsuSpec
variable {K : Type} [Field K] [LinearOrder K] [IsStrictOrderedRing K]

/-- `tuning*threshold*tuning*threshold`. -/
theorem square_near {rnd : K → Option K} {u η big τ r : K} (R : Rounds rnd u η big) (hu16 : 16 * u ≤ 1) (hr : 0 ≤ r)
    (hη : 4 * ((|τ| + 1) * (r + 1)) * η ≤ u) (hbig : 4 * ((|τ| + 1) * (r + 1)) ^ 2 ≤ big) :
    ∃ a1 a2 a3, rnd (τ * r) = some a1 ∧ rnd (a1 * τ) = some a2 ∧ rnd (a2 * r) = some a3 ∧ |a3 - (τ * r) ^ 2| ≤ 4 * u * (τ * r) ^ 2 + u := by
  have hu := R.rel
  have hη0 := R.abs
  have hT := abs_nonneg τ
  generalize ht : |τ| = t at *
  -- the sizes
  have hB1 : 1 ≤ (t + 1) * (r + 1) := one_le_mul_of_one_le_of_one_le (by linarith only [hT]) (by linarith only [hr])
  have htr0 : 0 ≤ t * r := mul_nonneg hT hr
  have hexp : (t + 1) * (r + 1) = t * r + t + r + 1 := by ring
  have hsq : (t + 1) * (r + 1) ≤ ((t + 1) * (r + 1)) ^ 2 := by rw [sq]; exact le_mul_of_one_le_left (by linarith only [hB1]) hB1
  have h2sq : t * (t * r) + (t * r) ^ 2 ≤ ((t + 1) * (r + 1)) ^ 2 := by
    rw [hexp]
    have h1 := mul_nonneg hT htr0
    have h2 : 0 ≤ (t + r + 1) ^ 2 := sq_nonneg _
    have h3 : 0 ≤ t * r * (t + r + 1) := mul_nonneg htr0 (by linarith only [hT, hr])
    have h4 : 0 ≤ t * r * (r + 1) := mul_nonneg htr0 (by linarith only [hr])
    linarith only [h1, h2, h3, h4, show (t * r + t + r + 1) ^ 2 = (t * r) ^ 2 + 2 * (t * r * (t + r + 1)) + (t + r + 1) ^ 2 by ring,
      show t * r * (t + r + 1) = t * (t * r) + t * r * (r + 1) by ring]
  have hηη : η ≤ 4 * ((t + 1) * (r + 1)) * η := le_mul_of_one_le_left hη0 (by linarith only [hB1])
  have hη1 : η ≤ 1 := by linarith only [hηη, hη, hu16, hu]
  have htη : t * η ≤ ((t + 1) * (r + 1)) * η := mul_le_mul_of_nonneg_right (by rw [hexp]; linarith only [htr0, hr]) hη0
  have hrη : r * η ≤ ((t + 1) * (r + 1)) * η := mul_le_mul_of_nonneg_right (by rw [hexp]; linarith only [htr0, hT]) hη0
  have hη' : 4 * (t * (r * η) + t * η + r * η + η) ≤ u := by
    rw [hexp] at hη
    linarith only [hη, show 4 * (t * r + t + r + 1) * η = 4 * (t * (r * η) + t * η + r * η + η) by ring]
  have htη0 : 0 ≤ t * η := mul_nonneg hT hη0
  have hrη0 : 0 ≤ r * η := mul_nonneg hr hη0
  have htrη0 : 0 ≤ t * (r * η) := mul_nonneg hT hrη0
  -- the first product
  have x1 : |τ * r| = t * r := by rw [abs_mul, ht, abs_of_nonneg hr]
  obtain ⟨a1, e1, h1⟩ := R.near (τ * r) (by rw [x1]; linarith only [hbig, hsq, hexp, hT, hr, htr0])
  rw [x1] at h1
  -- the second
  have hy2 : 0 ≤ t * (t * r) := mul_nonneg hT htr0
  have d2 : |a1 * τ - τ ^ 2 * r| ≤ u * (t * (t * r)) + t * η := by
    rw [show a1 * τ - τ ^ 2 * r = (a1 - τ * r) * τ by ring, abs_mul, ht]
    have := mul_le_mul_of_nonneg_right h1 hT
    linarith only [this, show (u * (t * r) + η) * t = u * (t * (t * r)) + t * η by ring]
  have y2 : |τ ^ 2 * r| = t * (t * r) := by rw [abs_mul, abs_pow, ht, abs_of_nonneg hr]; ring
  have x2 : |a1 * τ| ≤ t * (t * r) + u * (t * (t * r)) + t * η := by
    have := abs_add_le (a1 * τ - τ ^ 2 * r) (τ ^ 2 * r)
    rw [sub_add_cancel, y2] at this; linarith only [this, d2]
  have huy2 : 16 * (u * (t * (t * r))) ≤ t * (t * r) := by
    have := mul_le_mul_of_nonneg_right hu16 hy2
    linarith only [this]
  have hub : u ≤ 1 := by linarith only [hu16, hu]
  obtain ⟨a2, e2, h2⟩ := R.near (a1 * τ) (le_trans x2 (by
    linarith only [huy2, hbig, h2sq, hy2, hsq, hB1, hη', htη0, hrη0, htrη0, hη0, hub, sq_nonneg (t * r)]))
  have h2' : |a2 - τ ^ 2 * r| ≤ 33/16 * (u * (t * (t * r))) + 2 * (t * η) + η := by
    have h3 := abs_add_le (a2 - a1 * τ) (a1 * τ - τ ^ 2 * r)
    rw [sub_add_sub_cancel] at h3
    have h4 := mul_le_mul_of_nonneg_left x2 hu
    have h5 := mul_le_mul_of_nonneg_left huy2 hu
    have h6 : u * (t * η) ≤ t * η := mul_le_of_le_one_left htη0 hub
    linarith only [h2, h3, h4, h5, h6, d2, show u * (t * (t * r) + u * (t * (t * r)) + t * η) = u * (t * (t * r)) + u * (u * (t * (t * r))) + u * (t * η) by ring,
      show u * (16 * (u * (t * (t * r)))) = 16 * (u * (u * (t * (t * r)))) by ring]
  -- the third
  have hA : (τ * r) ^ 2 = t * (t * r) * r := by
    rw [show t * (t * r) * r = (t * r) ^ 2 by ring, ← x1, sq_abs]
  have hA0 : 0 ≤ t * (t * r) * r := mul_nonneg hy2 hr
  have d3 : |a2 * r - (τ * r) ^ 2| ≤ 33/16 * (u * (t * (t * r) * r)) + 2 * (t * (r * η)) + r * η := by
    rw [show a2 * r - (τ * r) ^ 2 = (a2 - τ ^ 2 * r) * r by ring, abs_mul, abs_of_nonneg hr]
    have := mul_le_mul_of_nonneg_right h2' hr
    linarith only [this, show (33/16 * (u * (t * (t * r))) + 2 * (t * η) + η) * r = 33/16 * (u * (t * (t * r) * r)) + 2 * (t * (r * η)) + r * η by ring]
  have hAsq : t * (t * r) * r = (t * r) ^ 2 := by ring
  rw [hA] at d3 ⊢
  have x3 : |a2 * r| ≤ t * (t * r) * r + 33/16 * (u * (t * (t * r) * r)) + 2 * (t * (r * η)) + r * η := by
    have := abs_add_le (a2 * r - t * (t * r) * r) (t * (t * r) * r)
    rw [sub_add_cancel, abs_of_nonneg hA0] at this; linarith only [this, d3]
  generalize t * (t * r) * r = A at *
  have huA0 : 0 ≤ u * A := mul_nonneg hu hA0
  have huA : 16 * (u * A) ≤ A := by
    have := mul_le_mul_of_nonneg_right hu16 hA0
    linarith only [this]
  obtain ⟨a3, e3, h3⟩ := R.near (a2 * r) (le_trans x3 (by
    rw [← hAsq] at h2sq
    linarith only [huA, hbig, h2sq, hy2, hsq, hB1, hη', htη0, hrη0, htrη0, hη0, hub, hA0]))
  refine ⟨a1, a2, a3, e1, e2, e3, ?_⟩
  have h4 := abs_add_le (a3 - a2 * r) (a2 * r - A)
  rw [sub_add_sub_cancel] at h4
  have h5 := mul_le_mul_of_nonneg_left x3 hu
  have h6 := mul_le_mul_of_nonneg_left huA hu
  have h7 : u * (t * (r * η)) ≤ t * (r * η) := mul_le_of_le_one_left htrη0 hub
  have h8 : u * (r * η) ≤ r * η := mul_le_of_le_one_left hrη0 hub
  linarith only [h3, h4, h5, h6, h7, h8, d3, hη', htη0, hrη0, huA0, hη0,
    show u * (A + 33/16 * (u * A) + 2 * (t * (r * η)) + r * η) = u * A + 33/16 * (u * (u * A)) + 2 * (u * (t * (r * η))) + u * (r * η) by ring,
    show u * (16 * (u * A)) = 16 * (u * (u * A)) by ring]

/-- `variance + 0.001`. -/
theorem denominator_near {rnd : K → Option K} {u η big v : K} (R : Rounds rnd u η big) (hu16 : 16 * u ≤ 1) (hη : 1000 * η ≤ u) (hv : 0 ≤ v)
    (hbig : v + 1 ≤ big) :
    ∃ m w, rnd (1/1000) = some m ∧ rnd (v + m) = some w ∧ |w - (v + 1/1000)| ≤ 5 * u * (v + 1/1000) := by
  have hu := R.rel
  have hη0 := R.abs
  obtain ⟨m, em, hm⟩ := R.near (1/1000) (by rw [abs_of_pos (by norm_num)]; linarith only [hv, hbig])
  rw [abs_of_pos (show (0 : K) < 1/1000 by norm_num)] at hm
  have hm' := abs_le.mp hm
  have hvm0 : 0 ≤ v + m := by linarith only [hm'.1, hv, hu16, hη, hη0]
  have huv : 0 ≤ u * v := mul_nonneg hu hv
  obtain ⟨w, ew, hw⟩ := R.near (v + m) (by rw [abs_of_nonneg hvm0]; linarith only [hm'.2, hbig, hu16, hη, hη0])
  rw [abs_of_nonneg hvm0] at hw
  refine ⟨m, w, em, ew, ?_⟩
  have h1 := abs_add_le (w - (v + m)) (m - 1/1000)
  rw [show w - (v + m) + (m - 1/1000) = w - (v + 1/1000) by ring] at h1
  have h2 : u * (v + m) ≤ u * (v + 2/1000) := mul_le_mul_of_nonneg_left (by linarith only [hm'.2, hu16, hη, hη0]) hu
  linarith only [h1, h2, hw, hm, hη, huv, hu]

/-- The penalty, before and after 1/2 is added. -/
theorem quotient_near {rnd : K → Option K} {u η big A D a w : K} (R : Rounds rnd u η big) (hu : 2 ^ 20 * u ≤ 1) (hη : 1000 * η ≤ u) (hA : 0 ≤ A)
    (hD : 1/1000 ≤ D) (ha : |a - A| ≤ 4 * u * A + u) (hw : |w - D| ≤ 5 * u * D) (hbig : A / D + 8 ≤ big) (hbig2 : 2 * (A / D) ≤ big) :
    0 < w ∧ ∃ q b, rnd (a / w) = some q ∧ rnd (q + 1/2) = some b ∧ |b - (A / D + 1/2)| ≤ 15 * u * (A / D) + 1300 * u := by
  have hu0 := R.rel
  have hη0 := R.abs
  have hD0 : 0 < D := by linarith only [hD]
  have hAX : A = A / D * D := by field_simp
  have hX0 : 0 ≤ A / D := div_nonneg hA hD0.le
  generalize A / D = X at *
  have huD : 2 ^ 20 * (u * D) ≤ D := by
    have := mul_le_mul_of_nonneg_right hu hD0.le
    linarith only [this]
  have huD0 : 0 ≤ u * D := mul_nonneg hu0 hD0.le
  have hw' := abs_le.mp hw
  have hwD : 99/100 * D ≤ w := by linarith only [hw'.1, huD, huD0]
  have hw0 : 0 < w := by linarith only [hwD, hD0]
  refine ⟨hw0, ?_⟩
  have huX0 : 0 ≤ u * X := mul_nonneg hu0 hX0
  have huX : 2 ^ 20 * (u * X) ≤ X := by
    have := mul_le_mul_of_nonneg_right hu hX0
    linarith only [this]
  have d1 : |a / w - X| ≤ 10 * (u * X) + 1020 * u := by
    rw [div_sub' hw0.ne', abs_div, abs_of_pos hw0, div_le_iff₀ hw0]
    have h1 := abs_add_le (a - A) (X * (D - w))
    rw [show a - A + X * (D - w) = a - w * X by rw [hAX]; ring, abs_mul, abs_of_nonneg hX0, abs_sub_comm D] at h1
    have h2 := mul_le_mul_of_nonneg_left hw hX0
    have h3 := mul_le_mul_of_nonneg_left hwD (show 0 ≤ 10 * (u * X) + 1020 * u by linarith only [huX0, hu0])
    have h4 : u ≤ 1000 * (u * D) := by
      have := mul_le_mul_of_nonneg_left hD hu0
      linarith only [this]
    have h5 : 0 ≤ u * (X * D) := mul_nonneg hu0 (mul_nonneg hX0 hD0.le)
    have h6 : u * A = u * (X * D) := by rw [← hAX]
    linarith only [h1, h2, h3, h4, h5, h6, huD0, ha, show X * (5 * u * D) = 5 * (u * (X * D)) by ring,
      show (10 * (u * X) + 1020 * u) * (99/100 * D) = 99/10 * (u * (X * D)) + 1020 * 99/100 * (u * D) by ring]
  have d1' := abs_le.mp d1
  have x1 : |a / w| ≤ X + 10 * (u * X) + 1020 * u := by
    have := abs_add_le (a / w - X) X
    rw [sub_add_cancel, abs_of_nonneg hX0] at this; linarith only [this, d1]
  obtain ⟨q, eq, hq⟩ := R.near (a / w) (le_trans x1 (by linarith only [huX, hbig, hu, hu0, huX0, hX0, hbig2]))
  have d2 : |q - X| ≤ 12 * (u * X) + 1100 * u := by
    have h1 := abs_add_le (q - a / w) (a / w - X)
    rw [sub_add_sub_cancel] at h1
    have h2 := mul_le_mul_of_nonneg_left x1 hu0
    have h3 := mul_le_mul_of_nonneg_left huX hu0
    have h4 := mul_le_mul_of_nonneg_left hu hu0
    linarith only [h1, h2, h3, h4, hq, d1, hη, huX0, hu0, hη0, show u * (X + 10 * (u * X) + 1020 * u) = u * X + 10 * (u * (u * X)) + 1020 * (u * u) by ring,
      show u * (2 ^ 20 * (u * X)) = 2 ^ 20 * (u * (u * X)) by ring, show u * (2 ^ 20 * u) = 2 ^ 20 * (u * u) by ring]
  have x2 : |q + 1/2| ≤ X + 12 * (u * X) + 1100 * u + 1/2 := by
    have h1 := abs_add_le (q - X) (X + 1/2)
    rw [show q - X + (X + 1/2) = q + 1/2 by ring, abs_of_nonneg (show 0 ≤ X + 1/2 by linarith only [hX0])] at h1
    linarith only [h1, d2]
  obtain ⟨b, eb, hb⟩ := R.near (q + 1/2) (le_trans x2 (by linarith only [huX, hbig, hu, hu0, huX0, hX0, hbig2]))
  refine ⟨q, b, eq, eb, ?_⟩
  have h1 := abs_add_le (b - (q + 1/2)) (q - X)
  rw [show b - (q + 1/2) + (q - X) = b - (X + 1/2) by ring] at h1
  have h2 := mul_le_mul_of_nonneg_left x2 hu0
  have h3 := mul_le_mul_of_nonneg_left huX hu0
  have h4 := mul_le_mul_of_nonneg_left hu hu0
  linarith only [h1, h2, h3, h4, hb, d2, hη, huX0, hu0, hη0, show u * (X + 12 * (u * X) + 1100 * u + 1/2) = u * X + 12 * (u * (u * X)) + 1100 * (u * u) + 1/2 * u by ring,
    show u * (2 ^ 20 * (u * X)) = 2 ^ 20 * (u * (u * X)) by ring, show u * (2 ^ 20 * u) = 2 ^ 20 * (u * u) by ring]

/-- The moved threshold, scaled. -/
theorem scaled_near {rnd : K → Option K} {u η big s N Z : K} (R : Rounds rnd u η big) (hu : 2 ^ 20 * u ≤ 1) (hs : 0 ≤ s) (hη : 1000 * (s + 1) * η ≤ u)
    (hN : s * |N| ≤ Z) (hNb : |N| ≤ big) (hbig : 2 * Z + 8 ≤ big) :
    ∃ x y z, rnd N = some x ∧ rnd (s * max x 0) = some y ∧ rnd (y + 1/2) = some z ∧ |z - (s * max N 0 + 1/2)| ≤ 4 * u * (Z + 1) ∧ 0 ≤ z := by
  have hu0 := R.rel
  have hη0 := R.abs
  have hsη0 : 0 ≤ s * η := mul_nonneg hs hη0
  have hη' : 1000 * (s * η) + 1000 * η ≤ u := by linarith only [hη]
  have hZ0 : 0 ≤ Z := le_trans (mul_nonneg hs (abs_nonneg N)) hN
  obtain ⟨x, ex, hx⟩ := R.near N hNb
  have hmax : |max x 0 - max N 0| ≤ |x - N| := abs_max_sub_max_le_abs x N 0
  have huZ0 : 0 ≤ u * Z := mul_nonneg hu0 hZ0
  have huZ : 2 ^ 20 * (u * Z) ≤ Z := by
    have := mul_le_mul_of_nonneg_right hu hZ0
    linarith only [this]
  have d1 : |s * max x 0 - s * max N 0| ≤ u * Z + s * η := by
    rw [← mul_sub, abs_mul, abs_of_nonneg hs]
    have h1 := mul_le_mul_of_nonneg_left (le_trans hmax hx) hs
    have h2 := mul_le_mul_of_nonneg_left hN hu0
    linarith only [h1, h2, show s * (u * |N| + η) = u * (s * |N|) + s * η by ring]
  have hM0 : 0 ≤ s * max N 0 := mul_nonneg hs (le_max_right _ _)
  have hMZ : s * max N 0 ≤ Z := by
    refine le_trans (mul_le_mul_of_nonneg_left ?_ hs) hN
    exact max_le (le_abs_self N) (abs_nonneg N)
  have hx0 : 0 ≤ s * max x 0 := mul_nonneg hs (le_max_right _ _)
  have d1' := abs_le.mp d1
  obtain ⟨y, ey, hy⟩ := R.near (s * max x 0) (by
    rw [abs_of_nonneg hx0]
    linarith only [d1'.2, hMZ, huZ, huZ0, hη', hη0, hsη0, hbig, hu, hu0, hZ0])
  rw [abs_of_nonneg hx0] at hy
  have hux : u * (s * max x 0) ≤ 2 * (u * Z) + u := by
    have h1 := mul_le_mul_of_nonneg_left (show s * max x 0 ≤ Z + u * Z + s * η by linarith only [d1'.2, hMZ]) hu0
    have h2 : u * (u * Z) ≤ u * Z := mul_le_of_le_one_left huZ0 (by linarith only [hu, hu0])
    have h3 : u * (s * η) ≤ u * 1 := mul_le_mul_of_nonneg_left (by linarith only [hη', hη0, hu, hu0]) hu0
    linarith only [h1, h2, h3, show u * (Z + u * Z + s * η) = u * Z + u * (u * Z) + u * (s * η) by ring]
  have hux' : u * (s * max x 0) ≤ u * Z + u * (u * Z) + u * (s * η) := by
    have h1 := mul_le_mul_of_nonneg_left (show s * max x 0 ≤ Z + u * Z + s * η by linarith only [d1'.2, hMZ]) hu0
    linarith only [h1, show u * (Z + u * Z + s * η) = u * Z + u * (u * Z) + u * (s * η) by ring]
  have huuZ : 2 ^ 20 * (u * (u * Z)) ≤ u * Z := by
    have := mul_le_mul_of_nonneg_left huZ hu0
    linarith only [this, show u * (2 ^ 20 * (u * Z)) = 2 ^ 20 * (u * (u * Z)) by ring]
  have husη : u * (s * η) ≤ s * η := mul_le_of_le_one_left hsη0 (by linarith only [hu, hu0])
  have hy' := abs_le.mp hy
  have hy0 : 0 ≤ y + 1/2 := by
    have h1 : u * (s * max x 0) ≤ s * max x 0 := mul_le_of_le_one_left hx0 (by linarith only [hu, hu0])
    linarith only [h1, hy'.1, hη', hη0, hsη0, hu, hu0]
  have d2 : |y - s * max N 0| ≤ 2 * (u * Z) + 1/100 * (u * Z) + 1/100 * u := by
    have h1 := abs_add_le (y - s * max x 0) (s * max x 0 - s * max N 0)
    rw [sub_add_sub_cancel] at h1
    linarith only [h1, hy, d1, hux', huuZ, husη, hη', hη0, hsη0, huZ0, hu0]
  have d2' := abs_le.mp d2
  obtain ⟨z, ez, hz⟩ := R.near (y + 1/2) (by
    rw [abs_of_nonneg hy0]
    linarith only [d2'.2, hMZ, huZ, huZ0, hbig, hu, hu0, hZ0])
  rw [abs_of_nonneg hy0] at hz
  have huy : u * (y + 1/2) ≤ u * Z + 1/100 * (u * Z) + 6/10 * u := by
    have h1 := mul_le_mul_of_nonneg_left (show y + 1/2 ≤ Z + 1/100 * Z + 1/100 + 1/2 by linarith only [d2'.2, hMZ, huZ, huZ0, hu, hu0]) hu0
    linarith only [h1, hu0]
  refine ⟨x, y, z, ex, ey, ez, ?_, ?_⟩
  · have h1 := abs_add_le (z - (y + 1/2)) (y - s * max N 0)
    rw [show z - (y + 1/2) + (y - s * max N 0) = z - (s * max N 0 + 1/2) by ring] at h1
    linarith only [h1, hz, d2, huy, hη', hη0, hsη0, huZ0, hu0, show 4 * u * (Z + 1) = 4 * (u * Z) + 4 * u by ring]
  · have hz' := abs_le.mp hz
    have h3 : u * (y + 1/2) ≤ 1/2 * (y + 1/2) := mul_le_mul_of_nonneg_right (by linarith only [hu, hu0]) hy0
    have h1 : u * (s * max x 0) ≤ s * max x 0 := mul_le_of_le_one_left hx0 (by linarith only [hu, hu0])
    linarith only [hz'.1, h3, h1, hy'.1, hη', hη0, hsη0, hu, hu0]

/-- The penalty when the threshold and the variance have relative errors. -/
theorem texture_near {τ raw raw' var var' ρ : K} (hρ0 : 0 ≤ ρ) (hρ : 2 * ρ ≤ 1) (hr0 : 0 ≤ raw) (hv : 0 ≤ var)
    (hr : |raw' - raw| ≤ 2/3 * ρ * raw) (hvar : |var' - var| ≤ ρ * var) :
    |texture τ raw' var' - texture τ raw var| ≤ 6 * ρ * texture τ raw var := by
  have hr' := abs_le.mp hr
  have hv' := abs_le.mp hvar
  have hρr : ρ * raw ≤ 1/2 * raw := mul_le_mul_of_nonneg_right (by linarith only [hρ]) hr0
  have hρr0 : 0 ≤ ρ * raw := mul_nonneg hρ0 hr0
  have hρv : ρ * var ≤ 1/2 * var := mul_le_mul_of_nonneg_right (by linarith only [hρ]) hv
  have hsq : |raw' ^ 2 - raw ^ 2| ≤ 14/9 * ρ * raw ^ 2 := by
    rw [sq_sub_sq, abs_mul, mul_comm, abs_of_nonneg (show 0 ≤ raw' + raw by linarith only [hr'.1, hρr, hr0])]
    have h1 := mul_le_mul hr (show raw' + raw ≤ 7/3 * raw by linarith only [hr'.2, hρr, hr0]) (by linarith only [hr'.1, hρr, hr0]) (by linarith only [hρr0])
    linarith only [h1, show 2/3 * ρ * raw * (7/3 * raw) = 14/9 * ρ * raw ^ 2 by ring]
  have hA : |(τ * raw') ^ 2 - (τ * raw) ^ 2| ≤ 14/9 * ρ * (τ * raw) ^ 2 := by
    rw [show (τ * raw') ^ 2 - (τ * raw) ^ 2 = τ ^ 2 * (raw' ^ 2 - raw ^ 2) by ring, abs_mul, abs_of_nonneg (sq_nonneg τ)]
    have := mul_le_mul_of_nonneg_left hsq (sq_nonneg τ)
    linarith only [this, show τ ^ 2 * (14/9 * ρ * raw ^ 2) = 14/9 * ρ * (τ * raw) ^ 2 by ring]
  unfold texture
  have hD0 : 0 < var + 1/1000 := by linarith only [hv]
  have hAX : (τ * raw) ^ 2 = (τ * raw) ^ 2 / (var + 1/1000) * (var + 1/1000) := by field_simp
  have hX0 : 0 ≤ (τ * raw) ^ 2 / (var + 1/1000) := div_nonneg (sq_nonneg _) hD0.le
  generalize (τ * raw) ^ 2 / (var + 1/1000) = X at *
  have hW : 1/2 * (var + 1/1000) ≤ var' + 1/1000 := by linarith only [hv'.1, hρv, hv]
  have hW0 : 0 < var' + 1/1000 := by linarith only [hW, hD0]
  rw [div_sub' hW0.ne', abs_div, abs_of_pos hW0, div_le_iff₀ hW0]
  have h1 := abs_add_le ((τ * raw') ^ 2 - (τ * raw) ^ 2) (X * (var - var'))
  rw [show (τ * raw') ^ 2 - (τ * raw) ^ 2 + X * (var - var') = (τ * raw') ^ 2 - (var' + 1/1000) * X by rw [hAX]; ring, abs_mul X, abs_of_nonneg hX0,
    abs_sub_comm var] at h1
  have h2 := mul_le_mul_of_nonneg_left hvar hX0
  have hρX : 0 ≤ ρ * X := mul_nonneg hρ0 hX0
  have h3 := mul_le_mul_of_nonneg_left hW (show 0 ≤ 6 * ρ * X by linarith only [hρX])
  have h4 : 0 ≤ ρ * X * var := mul_nonneg hρX hv
  rw [hAX] at hA
  rw [hAX] at h1
  linarith only [h1, h2, h3, h4, hA, hρX, show X * (ρ * var) = ρ * X * var by ring,
    show 6 * ρ * X * (1/2 * (var + 1/1000)) = 3 * (ρ * X * var) + 3/1000 * (ρ * X) by ring,
    show 14/9 * ρ * (X * (var + 1/1000)) = 14/9 * (ρ * X * var) + 14/9000 * (ρ * X) by ring]

end Boof
