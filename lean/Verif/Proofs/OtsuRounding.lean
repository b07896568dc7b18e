import Verif.Model.RoundedOtsu
import Verif.Proofs.Rounding
import Verif.Proofs.Otsu
import Verif.Props.Rounding
/-
Error analysis of Otsu's method with rounding.
-/
namespace Boof
open M OtsuSpec
variable {K : Type} [Field K] [LinearOrder K] [IsStrictOrderedRing K]

theorem round_near {rnd : K → Option K} {u η big x B : K} (R : Rounds rnd u η big) (hx : |x| ≤ B) (hB : B ≤ big) :
    ∃ y, rnd x = some y ∧ |y - x| ≤ u * B + η := by
  obtain ⟨y, e, h⟩ := R.near x (le_trans hx hB)
  exact ⟨y, e, le_trans h (by linarith [mul_le_mul_of_nonneg_left hx R.rel])⟩

theorem round_near' {rnd : K → Option K} {u η big x B : K} (R : Rounds rnd u η big) (hx : |x| ≤ B) (hB : B ≤ big) :
    ∃ y, rnd x = some y ∧ |y - x| ≤ u * B + η ∧ |y - x| ≤ u * |x| + η := by
  obtain ⟨y, e, h⟩ := R.near x (le_trans hx hB)
  exact ⟨y, e, le_trans h (by linarith [mul_le_mul_of_nonneg_left hx R.rel]), h⟩

/-- The computed class means and their difference. -/
theorem means_near {rnd : K → Option K} {u η big G c t a b : K} (R : Rounds rnd u η big) (hG0 : 0 ≤ G) (hc : c = 3 * G + 13 * u) (hct : c * t ≤ 1)
    (hη : η ≤ u) (hbig : 3 * t ^ 2 ≤ big) (hBK : 1 ≤ a) (hFK : 1 ≤ b) (ht : a + b = t) {S SB S' SB' : K}
    (b1 : 0 ≤ SB) (b2 : SB ≤ a) (b3 : 0 ≤ S - SB) (b4 : S - SB ≤ b) (e1 : |S' - S| ≤ G * t) (e2 : |SB' - SB| ≤ G * a) :
    ∃ mB d mF e, rnd (SB' / a) = some mB ∧ rnd (S' - SB') = some d ∧ rnd (d / b) = some mF ∧ rnd (mB - mF) = some e ∧
      |mB - SB / a| ≤ G + 3 * u ∧ |mF - (S - SB) / b| ≤ (2 * G + 6 * u) * (t / b) ∧
      |e - (SB / a - (S - SB) / b)| ≤ c * (t / b) ∧ |SB / a - (S - SB) / b| ≤ 1 ∧ c * (t / b) ≤ 1 := by
  have hu := R.rel
  have hη0 := R.abs
  have ha0 : 0 < a := by linarith
  have hb0 : 0 < b := by linarith
  have ht2 : 2 ≤ t := by linarith
  have hGt : 3 * (G * t) + 13 * (u * t) ≤ 1 := by rw [hc] at hct; linarith [hct]
  have hGt0 : 0 ≤ G * t := by positivity
  have hut0 : 0 ≤ u * t := by positivity
  have hu_t : u ≤ u * t := le_mul_of_one_le_right hu (by linarith)
  have hG_t : G ≤ G * t := le_mul_of_one_le_right hG0 (by linarith)
  have hG1 : G ≤ 1 := by linarith
  have hu1 : 13 * u ≤ 1 := by linarith
  have htt : t ≤ t ^ 2 := by nlinarith
  have hbt : 2 * t ≤ big := by linarith
  have hb2' : 2 ≤ big := by linarith
  -- the mean of the first class
  have s1 : |SB' / a - SB / a| ≤ G := by
    rw [← sub_div, abs_div, abs_of_pos ha0, div_le_iff₀ ha0]; exact e2
  have s2 : |SB / a| ≤ 1 := by
    rw [abs_of_nonneg (div_nonneg b1 ha0.le), div_le_one ha0]; exact b2
  have s3 : |SB' / a| ≤ 2 := by
    have := abs_add_le (SB' / a - SB / a) (SB / a)
    rw [sub_add_cancel] at this; linarith
  obtain ⟨mB, q1, q2⟩ := round_near R s3 hb2'
  have s4 : |mB - SB / a| ≤ G + 3 * u := by
    have := abs_add_le (mB - SB' / a) (SB' / a - SB / a)
    rw [sub_add_sub_cancel] at this; linarith
  -- the sum of the second class
  have s5 : |S' - SB' - (S - SB)| ≤ 2 * (G * t) := by
    have := abs_add_le (S' - S) (-(SB' - SB))
    rw [abs_neg, show S' - S + -(SB' - SB) = S' - SB' - (S - SB) by ring] at this
    have : G * a ≤ G * t := mul_le_mul_of_nonneg_left (by linarith) hG0
    linarith
  have s6 : |S' - SB'| ≤ 2 * t := by
    have := abs_add_le (S' - SB' - (S - SB)) (S - SB)
    rw [sub_add_cancel, abs_of_nonneg b3] at this
    have : 2 * (G * t) ≤ 1 := by linarith
    linarith
  obtain ⟨d, q3, q4⟩ := round_near R s6 hbt
  have s7 : |d - (S - SB)| ≤ (2 * G + 3 * u) * t := by
    have := abs_add_le (d - (S' - SB')) (S' - SB' - (S - SB))
    rw [sub_add_sub_cancel] at this; linarith
  -- its mean
  have r1 : ∀ z : K, z * t / b = z * (t / b) := fun z => by ring
  have s8 : |d / b - (S - SB) / b| ≤ (2 * G + 3 * u) * (t / b) := by
    rw [← sub_div, abs_div, abs_of_pos hb0, ← r1]; exact div_le_div_of_nonneg_right s7 hb0.le
  have hr : 1 ≤ t / b := by rw [le_div_iff₀ hb0]; linarith
  have hrt : t / b ≤ t := div_le_self (by linarith) hFK
  have s9 : |(S - SB) / b| ≤ 1 := by
    rw [abs_of_nonneg (div_nonneg b3 hb0.le), div_le_one hb0]; exact b4
  have s10 : (2 * G + 3 * u) * (t / b) ≤ 1 := by
    have : (2 * G + 3 * u) * (t / b) ≤ (2 * G + 3 * u) * t := mul_le_mul_of_nonneg_left hrt (by linarith)
    linarith
  have s11 : |d / b| ≤ 2 := by
    have := abs_add_le (d / b - (S - SB) / b) ((S - SB) / b)
    rw [sub_add_cancel] at this
    linarith
  obtain ⟨mF, q5, q6⟩ := round_near R s11 hb2'
  have hur : u ≤ u * (t / b) := le_mul_of_one_le_right hu hr
  have hGr : G ≤ G * (t / b) := le_mul_of_one_le_right hG0 hr
  have s12 : |mF - (S - SB) / b| ≤ (2 * G + 6 * u) * (t / b) := by
    have := abs_add_le (mF - d / b) (d / b - (S - SB) / b)
    rw [sub_add_sub_cancel] at this
    linarith
  -- the difference
  have s13 : |mB - mF - (SB / a - (S - SB) / b)| ≤ (3 * G + 9 * u) * (t / b) := by
    have := abs_add_le (mB - SB / a) (-(mF - (S - SB) / b))
    rw [abs_neg, show mB - SB / a + -(mF - (S - SB) / b) = mB - mF - (SB / a - (S - SB) / b) by ring] at this
    linarith
  have hcr : c * (t / b) ≤ 1 := le_trans (mul_le_mul_of_nonneg_left hrt (by rw [hc]; positivity)) hct
  have hcr' : 3 * (G * (t / b)) + 13 * (u * (t / b)) ≤ 1 := by rw [hc] at hcr; linarith
  have hur0 : 0 ≤ u * (t / b) := by positivity
  have s14 : |SB / a - (S - SB) / b| ≤ 1 := by
    have h1 : 0 ≤ SB / a := div_nonneg b1 ha0.le
    have h2 : 0 ≤ (S - SB) / b := div_nonneg b3 hb0.le
    rw [abs_of_nonneg h1] at s2
    rw [abs_of_nonneg h2] at s9
    rw [abs_le]; constructor <;> linarith
  have s15 : |mB - mF| ≤ 2 := by
    have := abs_add_le (mB - mF - (SB / a - (S - SB) / b)) (SB / a - (S - SB) / b)
    rw [sub_add_cancel] at this
    linarith
  obtain ⟨e, q7, q8⟩ := round_near R s15 hb2'
  refine ⟨mB, d, mF, e, q1, q3, q5, q7, s4, s12, ?_, s14, hcr⟩
  have := abs_add_le (e - (mB - mF)) (mB - mF - (SB / a - (S - SB) / b))
  rw [sub_add_sub_cancel] at this
  rw [hc]; linarith

/-- The computed product of the two counts and the square of the difference. -/
theorem product_near {rnd : K → Option K} {u η big c t a b e D : K} (R : Rounds rnd u η big) (hu1 : 13 * u ≤ 1) (hc0 : 0 ≤ c)
    (hη : η ≤ u) (hbig : 3 * t ^ 2 ≤ big) (hBK : 1 ≤ a) (hFK : 1 ≤ b) (ht : a + b = t) (s14 : |D| ≤ 1) (hcr : c * (t / b) ≤ 1)
    (s16 : |e - D| ≤ c * (t / b)) :
    ∃ p q v, rnd (a * b) = some p ∧ rnd (p * e) = some q ∧ rnd (q * e) = some v ∧
      (|p - a * b| ≤ u * |a * b| + η ∧ |q - p * e| ≤ u * |p * e| + η ∧ |v - q * e| ≤ u * |q * e| + η) ∧ |v - a * b * D ^ 2| ≤ (6 * u + 3 * c) * t ^ 2 := by
  have hu := R.rel
  have ha0 : 0 < a := by linarith
  have hb0 : 0 < b := by linarith
  have s17 : |e| ≤ 2 := by
    have := abs_add_le (e - D) D
    rw [sub_add_cancel] at this
    linarith
  have hW1 : 1 ≤ a * b := by nlinarith
  have hW4 : 4 * (a * b) ≤ t ^ 2 := by rw [← ht]; nlinarith [sq_nonneg (a - b)]
  have hW : 0 < a * b := by positivity
  have key : a * b * (c * (t / b) * 3) = 3 * (c * t * a) := by field_simp
  have hca : c * t * a ≤ c * t * t := mul_le_mul_of_nonneg_left (by linarith) (mul_nonneg hc0 (by linarith))
  generalize a * b = W at *
  have huW : u ≤ u * W := le_mul_of_one_le_right hu hW1
  have huW0 : 0 ≤ u * W := by positivity
  have hWu : 13 * (u * W) ≤ W := by nlinarith
  obtain ⟨p, q9, q10, r1⟩ := round_near' R (le_of_eq (abs_of_pos hW)) (by linarith : W ≤ big)
  have s18 : |p - W| ≤ 2 * (u * W) := by linarith
  have s19 : |p * e - W * e| ≤ 4 * (u * W) := by
    rw [← sub_mul, abs_mul]
    calc |p - W| * |e| ≤ (2 * (u * W)) * 2 := mul_le_mul s18 s17 (abs_nonneg _) (by linarith)
      _ = _ := by ring
  have s20 : |W * e| ≤ 2 * W := by
    rw [abs_mul, abs_of_pos hW]
    linarith [mul_le_mul_of_nonneg_left s17 hW.le]
  have s21 : |p * e| ≤ 3 * W := by
    have := abs_add_le (p * e - W * e) (W * e)
    rw [sub_add_cancel] at this
    linarith
  obtain ⟨q, q11, q12, r2⟩ := round_near' R s21 (by linarith)
  have s22 : |q - W * e| ≤ 8 * (u * W) := by
    have := abs_add_le (q - p * e) (p * e - W * e)
    rw [sub_add_sub_cancel] at this
    linarith
  have s23 : |q| ≤ 3 * W := by
    have := abs_add_le (q - W * e) (W * e)
    rw [sub_add_cancel] at this
    linarith
  have s24 : |q * e| ≤ 6 * W := by
    rw [abs_mul]
    calc |q| * |e| ≤ (3 * W) * 2 := mul_le_mul s23 s17 (abs_nonneg _) (by linarith)
      _ = _ := by ring
  obtain ⟨v, q13, q14, r3⟩ := round_near' R s24 (by linarith)
  have s25 : |v - W * e * e| ≤ 23 * (u * W) := by
    have h1 := abs_add_le (v - q * e) (q * e - W * e * e)
    rw [sub_add_sub_cancel, ← sub_mul, abs_mul (q - W * e)] at h1
    have : |q - W * e| * |e| ≤ (8 * (u * W)) * 2 := mul_le_mul s22 s17 (abs_nonneg _) (by linarith)
    linarith
  have s26 : |W * e * e - W * D ^ 2| ≤ 3 * (c * t * a) := by
    rw [show W * e * e - W * D ^ 2 = W * ((e - D) * (e + D)) by ring, abs_mul, abs_mul, abs_of_pos hW]
    have h1 : |e + D| ≤ 3 := le_trans (abs_add_le _ _) (by linarith)
    have h2 : |e - D| * |e + D| ≤ c * (t / b) * 3 := mul_le_mul s16 h1 (abs_nonneg _) (le_trans (abs_nonneg _) s16)
    rw [← key]
    exact mul_le_mul_of_nonneg_left h2 hW.le
  refine ⟨p, q, v, q9, q11, q13, ⟨r1, r2, r3⟩, ?_⟩
  have h1 := abs_add_le (v - W * e * e) (W * e * e - W * D ^ 2)
  rw [sub_add_sub_cancel] at h1
  have h3 : 4 * (u * W) ≤ u * t ^ 2 := by
    have := mul_le_mul_of_nonneg_left hW4 hu
    linarith
  have h4 : (6 * u + 3 * c) * t ^ 2 = 6 * (u * t ^ 2) + 3 * (c * t * t) := by ring
  rw [h4]; linarith

/-- The computed class means and the computed variance of one split. -/
theorem classesR_near {rnd : K → Option K} {u η big G c t : K} (R : Rounds rnd u η big) (hG0 : 0 ≤ G) (hc : c = 3 * G + 13 * u) (hct : c * t ≤ 1)
    (hη : η ≤ u) (hbig : 3 * t ^ 2 ≤ big) {wB wF : Nat} (hB : 1 ≤ wB) (hF : 1 ≤ wF) (ht : (wB : K) + wF = t) {S SB S' SB' : K}
    (b1 : 0 ≤ SB) (b2 : SB ≤ wB) (b3 : 0 ≤ S - SB) (b4 : S - SB ≤ wF) (e1 : |S' - S| ≤ G * t) (e2 : |SB' - SB| ≤ G * wB) :
    ∃ mB mF e v, ComputeOtsu.classesR rnd S' SB' wB wF = some (mB, mF, v) ∧
      |e - (SB / wB - (S - SB) / wF)| ≤ c * (t / wF) ∧
      |mB - SB / wB| ≤ G + 3 * u ∧ |mF - (S - SB) / wF| ≤ (2 * G + 6 * u) * (t / wF) ∧
      (∃ p q, |p - (wB : K) * wF| ≤ u * |(wB : K) * wF| + η ∧ |q - p * e| ≤ u * |p * e| + η ∧ |v - q * e| ≤ u * |q * e| + η) ∧
      |v - (wB : K) * wF * (SB / wB - (S - SB) / wF) ^ 2| ≤ (6 * u + 3 * c) * t ^ 2 := by
  have hBK : (1 : K) ≤ wB := by exact_mod_cast hB
  have hFK : (1 : K) ≤ wF := by exact_mod_cast hF
  have hu := R.rel
  obtain ⟨mB, d, mF, e, q1, q2, q3, q4, m1, m2, m3, m4, m5⟩ := means_near R hG0 hc hct hη hbig hBK hFK ht b1 b2 b3 b4 e1 e2
  have h13 : 13 * u ≤ 1 := by
    have h1 : 13 * u * 1 ≤ c * t := mul_le_mul (by rw [hc]; linarith) (by linarith) one_pos.le (by rw [hc]; positivity)
    linarith
  obtain ⟨p, q, v, q5, q6, q7, ⟨r1, r2, r3⟩, m6⟩ := product_near R h13 (by rw [hc]; positivity) hη hbig hBK hFK ht m4 m5 m3
  refine ⟨mB, mF, e, v, ?_, m3, m1, m2, ⟨p, q, r1, r2, r3⟩, m6⟩
  unfold ComputeOtsu.classesR
  rw [q1, Option.bind_some, q2, Option.bind_some, q3, Option.bind_some, q4, Option.bind_some, q5, Option.bind_some, q6, Option.bind_some, q7,
    Option.bind_some]

/-- A difference that is clearly negative stays so when it is weighted. -/
theorem weighted_neg {u η N p e q : K} (hu : 0 ≤ u) (hu1 : 13 * u ≤ 1) (hN : 1 ≤ N) (hη : 32 * N * η ≤ 1) (hp : 1 / 2 ≤ p)
    (he : e * (2 * N) ≤ -1) (n2 : |q - p * e| ≤ u * |p * e| + η) : q * (8 * N) ≤ -1 := by
  have he0 : e < 0 := by nlinarith
  have hpe : p * e * (4 * N) ≤ -1 := by
    have : p * e * (4 * N) = (2 * p) * (e * (2 * N)) := by ring
    rw [this]; nlinarith
  have hpe0 : p * e < 0 := mul_neg_of_pos_of_neg (by linarith) he0
  rw [abs_of_neg hpe0] at n2
  generalize p * e = x at *
  have h4 := (abs_le.mp n2).2
  have h5 : q ≤ x * (1 - u) + η := by linarith
  have h6 : x * (1 - u) * (8 * N) ≤ -2 * (12 / 13) := by
    have : x * (1 - u) * (8 * N) = (x * (4 * N)) * (2 * (1 - u)) := by ring
    rw [this]
    generalize x * (4 * N) = y at *
    nlinarith
  have h7 : q * (8 * N) ≤ (x * (1 - u) + η) * (8 * N) := mul_le_mul_of_nonneg_right h5 (by linarith)
  have h8 : (x * (1 - u) + η) * (8 * N) = x * (1 - u) * (8 * N) + 32 * N * η / 4 := by ring
  linarith

/-- A difference that is clearly negative gives a positive variance. -/
theorem weighted_pos {u η N e q v : K} (hu : 0 ≤ u) (hu1 : 13 * u ≤ 1) (hN : 1 ≤ N) (hη : 32 * N ^ 2 * η ≤ 1) (hq : q * (8 * N) ≤ -1)
    (he : e * (2 * N) ≤ -1) (n3 : |v - q * e| ≤ u * |q * e| + η) : 0 < v := by
  have he0 : e < 0 := by nlinarith
  have hq0 : q < 0 := by nlinarith
  have hqe : 1 ≤ q * e * (16 * N ^ 2) := by
    have : q * e * (16 * N ^ 2) = (-(q * (8 * N))) * (-(e * (2 * N))) := by ring
    rw [this]
    generalize q * (8 * N) = a at *
    generalize e * (2 * N) = b at *
    nlinarith
  have hqe0 : 0 < q * e := mul_pos_of_neg_of_neg hq0 he0
  rw [abs_of_pos hqe0] at n3
  generalize q * e = x at *
  have hN2 : 0 < 16 * N ^ 2 := by positivity
  generalize hM : 16 * N ^ 2 = L at *
  have h8 := (abs_le.mp n3).1
  have h10 : 12 / 13 ≤ x * (1 - u) * L := by
    have : x * (1 - u) * L = (x * L) * (1 - u) := by ring
    rw [this]
    generalize x * L = y at *
    nlinarith
  have hηL : 2 * (L * η) ≤ 1 := by rw [← hM]; linarith
  have h11 : 0 < (x * (1 - u) - η) * L := by
    have : (x * (1 - u) - η) * L = x * (1 - u) * L - L * η := by ring
    rw [this]; linarith
  have h12 : 0 < x * (1 - u) - η := pos_of_mul_pos_left h11 hN2.le
  linarith

/-- The product of the weights stays large. -/
theorem weights_large {u η N a b p : K} (hu1 : 13 * u ≤ 1) (hη0 : 0 ≤ η) (hN : 1 ≤ N) (hη : 32 * N * η ≤ 1) (hBK : 1 ≤ a) (hFK : 1 ≤ b)
    (n1 : |p - a * b| ≤ u * |a * b| + η) : 1 / 2 ≤ p := by
  have hW1 : 1 ≤ a * b := by nlinarith
  rw [abs_of_pos (by linarith : 0 < a * b)] at n1
  generalize a * b = x at *
  have := (abs_le.mp n1).1
  have hη2 : 32 * η ≤ 1 := le_trans (by nlinarith) hη
  nlinarith

theorem sharp_pos {u η N a b c t D e p q v : K} (h13 : 13 * u ≤ 1) (hu : 0 ≤ u) (hη0 : 0 ≤ η) (hN : 1 ≤ N) (hη : 32 * N ^ 2 * η ≤ 1)
    (hb1 : 1 ≤ a) (ha1 : 1 ≤ b) (hd : D * (2 * N) ≤ -2) (hq : t / b ≤ t) (hc : 0 ≤ c) (s1 : c * t * (2 * N) ≤ 1) (q2 : |e - D| ≤ c * (t / b))
    (r1 : |p - a * b| ≤ u * |a * b| + η) (r2 : |q - p * e| ≤ u * |p * e| + η) (r3 : |v - q * e| ≤ u * |q * e| + η) : 0 < v := by
  have hN2 : 0 ≤ 2 * N := by linarith only [hN]
  have he : e * (2 * N) ≤ -1 := by
    have h1 := mul_le_mul_of_nonneg_right (abs_le.mp q2).2 hN2
    have h2 := mul_le_mul_of_nonneg_right (mul_le_mul_of_nonneg_left hq hc) hN2
    rw [sub_mul] at h1
    linarith only [h1, h2, s1, hd]
  have hη1 : 32 * N * η ≤ 1 := by
    have h1 : N ≤ N ^ 2 := by rw [sq]; exact le_mul_of_one_le_left (by linarith only [hN]) hN
    have h2 := mul_le_mul_of_nonneg_right h1 hη0
    linarith only [h2, hη]
  exact weighted_pos hu h13 hN hη (weighted_neg hu h13 hN hη1 (weights_large h13 hη0 hN hη1 hb1 ha1 r1) he r2) he r3

/-- Underflow is small against the products. -/
theorem under_small {u η w N E : K} (hu : 0 ≤ u) (hη0 : 0 ≤ η) (hw : 1 ≤ w) (hN : 1 ≤ N) (hη : N ^ 2 * η ≤ u) (hE0 : 0 ≤ E)
    (hNE : 1 ≤ N * (2 * E)) : η ≤ 2 * u * (w * E) ∧ η ≤ 4 * u * (w * E ^ 2) := by
  have hN0 : 0 < N := by linarith only [hN]
  constructor
  · have h1 : N ^ 2 * η ≤ u * (N * (2 * E)) := le_trans hη (le_mul_of_one_le_right hu hNE)
    have h2 : N * η ≤ u * (2 * E) := by
      have : N * (N * η) ≤ N * (u * (2 * E)) := by
        linarith only [h1, show N ^ 2 * η = N * (N * η) by ring, show u * (N * (2 * E)) = N * (u * (2 * E)) by ring]
      exact le_of_mul_le_mul_left this hN0
    have h3 : η ≤ N * η := le_mul_of_one_le_left hη0 hN
    have h4 := mul_le_mul_of_nonneg_right hw (mul_nonneg hu hE0)
    linarith only [h2, h3, h4, show w * (u * E) = u * (w * E) by ring, show u * (2 * E) = 2 * (u * E) by ring]
  · have h1 : 1 ≤ (N * (2 * E)) ^ 2 := one_le_pow₀ hNE
    have h2 : N ^ 2 * η ≤ N ^ 2 * (u * (4 * E ^ 2)) := by
      have := mul_le_mul_of_nonneg_left h1 hu
      linarith only [this, hη, show u * (N * (2 * E)) ^ 2 = N ^ 2 * (u * (4 * E ^ 2)) by ring]
    have h3 := le_of_mul_le_mul_left h2 (pow_pos hN0 2)
    have h4 := mul_le_mul_of_nonneg_right hw (mul_nonneg hu (sq_nonneg E))
    linarith only [h3, h4, show w * (u * E ^ 2) = u * (w * E ^ 2) by ring, show u * (4 * E ^ 2) = 4 * (u * E ^ 2) by ring]

/-- Weighting a square. -/
theorem weighted_rel {u η w e p q v : K} (hu : 0 ≤ u) (hu1 : 128 * u ≤ 1) (hw : 1 ≤ w) (hηu : η ≤ u) (hη1 : η ≤ 2 * u * (w * |e|))
    (hη2 : η ≤ 4 * u * (w * |e| ^ 2)) (hp : |p - w| ≤ u * |w| + η)
    (hq : |q - p * e| ≤ u * |p * e| + η) (hv : |v - q * e| ≤ u * |q * e| + η) : |v - w * e ^ 2| ≤ 12 * u * (w * |e| ^ 2) := by
  have hw0 : 0 < w := by linarith only [hw]
  have hE0 : 0 ≤ |e| := abs_nonneg e
  have hwa : |w| = w := abs_of_pos hw0
  have hp1 : |p - w| ≤ 2 * u * w := by
    rw [hwa] at hp
    have := mul_le_mul_of_nonneg_left hw hu
    linarith only [hp, this, hηu]
  have hp2 : |p| ≤ (1 + 2 * u) * w := by
    have := abs_add_le (p - w) w
    rw [sub_add_cancel, hwa] at this; linarith only [this, hp1]
  have hpe : |p * e| ≤ (1 + 2 * u) * (w * |e|) := by
    rw [abs_mul, ← mul_assoc]; exact mul_le_mul_of_nonneg_right hp2 hE0
  have hP0 : 0 ≤ w * |e| := mul_nonneg hw0.le hE0
  have hq1 : |q - w * e| ≤ 6 * u * (w * |e|) := by
    have h1 := abs_add_le (q - p * e) ((p - w) * e)
    rw [show q - p * e + (p - w) * e = q - w * e by ring, abs_mul] at h1
    have h2 := mul_le_mul_of_nonneg_right hp1 hE0
    have h3 := mul_le_mul_of_nonneg_left hpe hu
    have h4 : u * ((1 + 2 * u) * (w * |e|)) ≤ 2 * u * (w * |e|) := by
      have h5 := mul_nonneg hu hP0
      have h6 := mul_le_mul_of_nonneg_right hu1 h5
      linarith only [h5, h6, show u * ((1 + 2 * u) * (w * |e|)) = u * (w * |e|) + 2 * (u * (u * (w * |e|))) by ring,
        show 128 * u * (u * (w * |e|)) = 128 * (u * (u * (w * |e|))) by ring]
    linarith only [h1, h2, h3, h4, hq, hη1, show 2 * u * w * |e| = 2 * u * (w * |e|) by ring]
  have hq2 : |q| ≤ 2 * (w * |e|) := by
    have h1 := abs_add_le (q - w * e) (w * e)
    rw [sub_add_cancel, abs_mul w, hwa] at h1
    have h6 := mul_le_mul_of_nonneg_right hu1 hP0
    linarith only [h1, hq1, h6, hP0]
  have hqe : |q * e| ≤ 2 * (w * |e| ^ 2) := by
    rw [abs_mul]
    have := mul_le_mul_of_nonneg_right hq2 hE0
    linarith only [this, show 2 * (w * |e|) * |e| = 2 * (w * |e| ^ 2) by ring]
  have h1 := abs_add_le (v - q * e) ((q - w * e) * e)
  rw [show v - q * e + (q - w * e) * e = v - w * e ^ 2 by ring, abs_mul] at h1
  have h2 := mul_le_mul_of_nonneg_right hq1 hE0
  have h3 := mul_le_mul_of_nonneg_left hqe hu
  linarith only [h1, h2, h3, hv, hη2, show 6 * u * (w * |e|) * |e| = 6 * u * (w * |e| ^ 2) by ring]

/-- The relative error of the weighted square of a difference which is computed with a small relative error. -/
theorem product_rel {u η a b e D p q v κ N : K} (hu : 0 ≤ u) (hη0 : 0 ≤ η) (hκ : 64 * u ≤ κ) (hκ1 : 2 * κ ≤ 1) (ha : 1 ≤ a) (hb : 1 ≤ b)
    (hN : 1 ≤ N) (hη : N ^ 2 * η ≤ u) (hD : 1 ≤ N * |D|) (he : |e - D| ≤ κ * |D|) (hp : |p - a * b| ≤ u * |a * b| + η)
    (hq : |q - p * e| ≤ u * |p * e| + η) (hv : |v - q * e| ≤ u * |q * e| + η) : |v - a * b * D ^ 2| ≤ 3 * κ * (a * b * D ^ 2) := by
  have hw : 1 ≤ a * b := one_le_mul_of_one_le_of_one_le ha hb
  have hN0 : 0 < N := by linarith only [hN]
  generalize a * b = w at *
  have hw0 : 0 < w := by linarith only [hw]
  have hd0 : 0 ≤ |D| := abs_nonneg D
  have hκ0 : 0 ≤ κ := by linarith only [hκ, hu]
  have hκd : κ * |D| ≤ 1 / 2 * |D| := mul_le_mul_of_nonneg_right (by linarith only [hκ1]) hd0
  have hηu : η ≤ u := le_trans (le_mul_of_one_le_left hη0 (one_le_pow₀ hN)) hη
  have hE1 : |e| ≤ 3 / 2 * |D| := by
    have := abs_add_le (e - D) D
    rw [sub_add_cancel] at this; linarith only [this, he, hκd]
  have hE2 : |D| ≤ 2 * |e| := by
    have := abs_add_le (D - e) e
    rw [sub_add_cancel, abs_sub_comm] at this
    linarith only [this, he, hκd]
  have hNE : 1 ≤ N * (2 * |e|) := le_trans hD (mul_le_mul_of_nonneg_left hE2 hN0.le)
  have hE0 : 0 ≤ |e| := abs_nonneg e
  obtain ⟨hη1, hη2⟩ := under_small hu hη0 hw hN hη hE0 hNE
  have hv1 := weighted_rel hu (by linarith only [hκ, hκ1]) hw hηu hη1 hη2 hp hq hv
  have hsq : |w * e ^ 2 - w * D ^ 2| ≤ 5 / 2 * κ * (w * |D| ^ 2) := by
    rw [show w * e ^ 2 - w * D ^ 2 = w * ((e - D) * (e + D)) by ring, abs_mul, abs_mul, abs_of_pos hw0]
    have h1 : |e + D| ≤ 5 / 2 * |D| := by
      have := abs_add_le e D
      linarith only [this, hE1]
    have h2 := mul_le_mul he h1 (abs_nonneg _) (mul_nonneg hκ0 hd0)
    have h3 := mul_le_mul_of_nonneg_left h2 hw0.le
    linarith only [h3, show w * (κ * |D| * (5 / 2 * |D|)) = 5 / 2 * κ * (w * |D| ^ 2) by ring]
  have hEs : |e| ^ 2 ≤ 9 / 4 * |D| ^ 2 := by
    have := mul_le_mul hE1 hE1 hE0 (by linarith only [hd0])
    linarith only [this, show 3 / 2 * |D| * (3 / 2 * |D|) = 9 / 4 * |D| ^ 2 by ring, sq |e|]
  have hfin : 12 * u * (w * |e| ^ 2) ≤ 1 / 2 * κ * (w * |D| ^ 2) := by
    have h1 := mul_le_mul_of_nonneg_left hEs (mul_nonneg hu hw0.le)
    have h2 := mul_le_mul_of_nonneg_right hκ (mul_nonneg hw0.le (sq_nonneg |D|))
    have h3 : 0 ≤ u * (w * |D| ^ 2) := mul_nonneg hu (mul_nonneg hw0.le (sq_nonneg |D|))
    linarith only [h1, h2, h3, show u * w * |e| ^ 2 = u * (w * |e| ^ 2) by ring, show u * w * (9 / 4 * |D| ^ 2) = 9 / 4 * (u * (w * |D| ^ 2)) by ring,
      show 12 * u * (w * |e| ^ 2) = 12 * (u * (w * |e| ^ 2)) by ring, show 64 * u * (w * |D| ^ 2) = 64 * (u * (w * |D| ^ 2)) by ring]
  have := abs_add_le (v - w * e ^ 2) (w * e ^ 2 - w * D ^ 2)
  rw [sub_add_sub_cancel] at this
  rw [sq_abs D] at hfin hsq
  linarith only [this, hfin, hsq, hv1]

/-- The computed mid-point of the class means. -/
theorem midpoint_near {rnd : K → Option K} {u η big N T mb mf MB MF : K} (R : Rounds rnd u η big) (hN : 1 ≤ N) (hT : 1 ≤ T) (hη : η ≤ u)
    (hs : (6 * N + 28) * u * T * (2 * N) ≤ 1) (hbig : 4 * N ≤ big) (b0 : 0 ≤ mb) (b1 : mb ≤ N - 1) (f0 : 1 ≤ mf) (f1 : mf ≤ N - 1)
    (e1 : |MB - mb / N| ≤ (2 * N + 8) * u) (e2 : |MF - mf / N| ≤ (4 * N + 16) * u * T) :
    ∃ p q r y, rnd (MB + MF) = some p ∧ rnd (N * p) = some q ∧ rnd (q / 2) = some r ∧ rnd (r + 1/2) = some y ∧ 0 ≤ r ∧
      |y - ((mb + mf) / 2 + 1/2)| ≤ (3 * N + 22) * N * u * T ∧ 0 ≤ y ∧ y ≤ N ∧ |r - (mb + mf) / 2| ≤ (3 * N + 22) * N * u * T := by
  have hu := R.rel
  have hN0 : 0 < N := by linarith
  have huκ : u ≤ u * T := le_mul_of_one_le_right hu hT
  have e2' : |MF - mf / N| ≤ (4 * N + 16) * (u * T) := by rw [← mul_assoc]; exact e2
  have hs' : (6 * N + 28) * (u * T) * (2 * N) ≤ 1 := by rw [← mul_assoc (6 * N + 28)]; exact hs
  rw [show (3 * N + 22) * N * u * T = (3 * N + 22) * N * (u * T) by ring]
  have e1' : |MB - mb / N| ≤ (2 * N + 8) * (u * T) := le_trans e1 (mul_le_mul_of_nonneg_left huκ (by linarith))
  have hη0 := R.abs
  generalize u * T = κ at *
  have hκ : 0 ≤ κ := le_trans hu huκ
  have hNκ0 : 0 ≤ N * κ := mul_nonneg hN0.le hκ
  have hκN : κ ≤ N * κ := le_mul_of_one_le_left hκ hN
  have huN : N * u ≤ N * κ := mul_le_mul_of_nonneg_left huκ hN0.le
  have hNN : N * κ ≤ N * (N * κ) := le_mul_of_one_le_left hNκ0 hN
  have hsum : 12 * (N * (N * κ)) + 56 * (N * κ) ≤ 1 := by linarith [hs', show (6 * N + 28) * κ * (2 * N) = 12 * (N * (N * κ)) + 56 * (N * κ) by ring]
  rw [show (3 * N + 22) * N * κ = 3 * (N * (N * κ)) + 22 * (N * κ) by ring]
  rw [show (2 * N + 8) * κ = 2 * (N * κ) + 8 * κ by ring] at e1'
  rw [show (4 * N + 16) * κ = 4 * (N * κ) + 16 * κ by ring] at e2'
  generalize hM : N * κ = M at *
  generalize hL : N * M = L at *
  have x0 : 0 ≤ (mb + mf) / N := div_nonneg (by linarith) hN0.le
  have x2 : (mb + mf) / N ≤ 2 := by rw [div_le_iff₀ hN0]; linarith
  have hNx : N * ((mb + mf) / N) = mb + mf := by field_simp
  rw [add_div] at x0 x2 hNx
  have g1 : |MB + MF - (mb / N + mf / N)| ≤ 6 * M + 24 * κ := by
    have := abs_add_le (MB - mb / N) (MF - mf / N)
    rw [show MB - mb / N + (MF - mf / N) = MB + MF - (mb / N + mf / N) by ring] at this
    linarith only [this, e1', e2']
  generalize mb / N + mf / N = x at *
  clear e1 e2 e1' e2' hs hs'
  have g2 : |MB + MF| ≤ 3 := by
    have := abs_add_le (MB + MF - x) x
    rw [sub_add_cancel, abs_of_nonneg x0] at this
    linarith only [this, g1, x2, hsum, hκN, hNN]
  obtain ⟨p, ep, hp⟩ := round_near R g2 (by linarith only [hbig, hN])
  have g3 : |p - x| ≤ 6 * M + 28 * κ := by
    have := abs_add_le (p - (MB + MF)) (MB + MF - x)
    rw [sub_add_sub_cancel] at this
    linarith only [this, g1, hp, hη, huκ]
  have g4 : |N * p - (mb + mf)| ≤ 6 * L + 28 * M := by
    rw [← hNx, ← mul_sub, abs_mul, abs_of_pos hN0]
    have := mul_le_mul_of_nonneg_left g3 hN0.le
    rw [mul_add, mul_left_comm, mul_left_comm N, hL, hM] at this
    exact this
  have hmm : 0 ≤ mb + mf := by linarith only [b0, f0]
  have g5 : |N * p| ≤ 3 * N := by
    have := abs_add_le (N * p - (mb + mf)) (mb + mf)
    rw [sub_add_cancel, abs_of_nonneg hmm] at this
    linarith only [this, g4, b1, f1, hsum, hN, hNκ0, hNN]
  obtain ⟨q, eq, hq⟩ := round_near R g5 (by linarith only [hbig, hN])
  have g6 : |q / 2 - (mb + mf) / 2| ≤ 3 * L + 16 * M := by
    have := abs_add_le (q - N * p) (N * p - (mb + mf))
    rw [sub_add_sub_cancel] at this
    rw [← sub_div, abs_div, abs_of_pos (show (0 : K) < 2 by norm_num), div_le_iff₀ (by norm_num)]
    linarith only [this, g4, hq, hη, huκ, huN, hκN]
  have g7 : |q / 2| ≤ 2 * N := by
    have := abs_add_le (q / 2 - (mb + mf) / 2) ((mb + mf) / 2)
    rw [sub_add_cancel, abs_of_nonneg (by linarith only [hmm] : 0 ≤ (mb + mf) / 2)] at this
    linarith only [this, g6, b1, f1, hsum, hN, hNκ0, hNN]
  obtain ⟨r, er, hr⟩ := round_near R g7 (by linarith only [hbig, hN])
  have g8 : |r - (mb + mf) / 2| ≤ 3 * L + 19 * M := by
    have := abs_add_le (r - q / 2) (q / 2 - (mb + mf) / 2)
    rw [sub_add_sub_cancel] at this
    linarith only [this, g6, hr, hη, huκ, huN, hκN]
  have g8' := abs_le.mp g8
  have g9 : 0 ≤ r := by linarith only [g8'.1, b0, f0, hsum, hNκ0, hNN]
  have g10 : |r + 1/2| ≤ 2 * N := by
    rw [abs_of_nonneg (by linarith only [g9])]
    linarith only [g8'.2, b1, f1, hsum, hNκ0, hNN, hN]
  obtain ⟨y, ey, hy⟩ := round_near R g10 (by linarith only [hbig, hN])
  have g11 : |y - ((mb + mf) / 2 + 1/2)| ≤ 3 * L + 22 * M := by
    have := abs_add_le (y - (r + 1/2)) (r - (mb + mf) / 2)
    rw [show y - (r + 1/2) + (r - (mb + mf) / 2) = y - ((mb + mf) / 2 + 1/2) by ring] at this
    linarith only [this, g8, hy, hη, huκ, huN, hκN]
  have g12 := abs_le.mp g11
  refine ⟨p, q, r, y, ep, eq, er, ey, g9, g11, ?_, ?_, ?_⟩
  · linarith only [g12.1, b0, f0, hsum, hNκ0, hNN]
  · linarith only [g12.2, b1, f1, hsum, hNκ0, hNN]
  · linarith only [g8, hNκ0]

/-- The exact sum over the first levels, scaled to `0 .. 1`. -/
def partialSum (n : Nat) (hist : Nat → Int) (k : Nat) : K := ((sumN k (fun k => k * hist k) : Int) : K) / (n : K)

section sums
variable {n T : Nat} {hist : Nat → Int} (h0 : ∀ k, k < n → 0 ≤ hist k) (hT : sumN n hist = T)
include h0

theorem partialSum_nonneg {k : Nat} (hk : k ≤ n) : (0 : K) ≤ partialSum n hist k := by
  unfold partialSum
  refine div_nonneg ?_ (Nat.cast_nonneg _)
  have : 0 ≤ sumN k (fun k => k * hist k) := sumN_nonneg (fun j hj => mul_nonneg (by omega) (h0 j (by omega)))
  exact_mod_cast this

theorem partialSum_le {k : Nat} (hk : k ≤ n) : (partialSum n hist k : K) ≤ ((sumN k hist : Int) : K) := by
  unfold partialSum
  rcases Nat.eq_zero_or_pos n with rfl | hn
  · obtain rfl : k = 0 := by omega
    simp [sumN]
  rw [div_le_iff₀ (by exact_mod_cast hn)]
  have : sumN k (fun k => k * hist k) ≤ sumN k hist * n := by
    rw [mul_comm, ← sumN_mul]
    exact sumN_le_sumN (fun j hj => mul_le_mul_of_nonneg_right (by omega) (h0 j (by omega)))
  exact_mod_cast this

theorem partialSum_rest {k : Nat} (hk : k ≤ n) : (0 : K) ≤ partialSum n hist n - partialSum n hist k ∧
    (partialSum n hist n - partialSum n hist k : K) ≤ ((sumN n hist - sumN k hist : Int) : K) := by
  rcases Nat.eq_zero_or_pos n with rfl | hn
  · obtain rfl : k = 0 := by omega
    simp [sumN]
  unfold partialSum
  have hnK : (0 : K) < n := by exact_mod_cast hn
  rw [← sub_div, ← Int.cast_sub, sumN_split (fun k => k * hist k) hk, sumN_split hist hk, add_sub_cancel_left, add_sub_cancel_left]
  constructor
  · refine div_nonneg ?_ hnK.le
    have : 0 ≤ sumN (n - k) (fun j => ((k + j : Nat) : Int) * hist (k + j)) :=
      sumN_nonneg (fun j hj => mul_nonneg (by omega) (h0 _ (by omega)))
    exact_mod_cast this
  · rw [div_le_iff₀ hnK]
    have : sumN (n - k) (fun j => ((k + j : Nat) : Int) * hist (k + j)) ≤ sumN (n - k) (fun j => hist (k + j)) * n := by
      rw [mul_comm, ← sumN_mul]
      exact sumN_le_sumN (fun j hj => mul_le_mul_of_nonneg_right (by push_cast; omega) (h0 _ (by omega)))
    exact_mod_cast this

end sums

section scan
variable [FloorRing K] {rnd : K → Option K} {u η big : K} {n T : Nat} {hist : Nat → Int}

/-- The sum over the first `k` levels as it is computed. -/
def SumOk (u η : K) (n T : Nat) (hist : Nat → Int) (k : Nat) (y : K) : Prop :=
  Within u (T * η) (k + 2) (3 * k) (partialSum n hist k) (partialSum n hist k) y

theorem Rounds.weaken {η' : K} (R : Rounds rnd u η big) (h : η ≤ η') : Rounds rnd u η' big :=
  ⟨R.rel, le_trans R.abs h, fun x hx => by
    obtain ⟨y, e, hy⟩ := R.near x hx
    exact ⟨y, e, by linarith⟩⟩

theorem OtsuFits.facts (F : OtsuFits rnd u η big n T) (hn : 0 < n) (hT : 0 < T) :
    (1 : K) ≤ n ∧ (1 : K) ≤ T ∧ η ≤ T * η ∧ η ≤ u ∧ 28 * (u * T) ≤ 1 ∧ 6 * ((n : K) * (u * T)) ≤ 1 - 28 * (u * T) := by
  have hu := F.rounds.rel
  have hη := F.rounds.abs
  have hnK : (1 : K) ≤ n := by exact_mod_cast hn
  have hTK : (1 : K) ≤ T := by exact_mod_cast hT
  have h1 : η ≤ T * η := le_mul_of_one_le_left hη hTK
  have h2 : (T : K) * η ≤ n * (T * η) := le_mul_of_one_le_left (by positivity) hnK
  have h3 := F.tiny
  have h4 := F.fine
  have h5 : 0 ≤ (n : K) * (u * T) := by positivity
  refine ⟨hnK, hTK, h1, by nlinarith, by nlinarith, by nlinarith⟩

theorem grown_small (F : OtsuFits rnd u η big n T) (hn : 0 < n) (hT : 0 < T) {k m : Nat} (hk : k ≤ n + 2) (hm : m ≤ 3 * n) {A : K} (hA0 : 0 ≤ A)
    (hA : A ≤ T) : roundError u (T * η) k m A ≤ 2 * (n + 2) * u * A + u ∧ grown u (T * η) k m A ≤ big := by
  obtain ⟨f1, f2, f3, f4, f5, f6⟩ := F.facts hn hT
  have hu := F.rounds.rel
  have hη := F.rounds.abs
  have huT : u ≤ u * T := le_mul_of_one_le_right hu f2
  have hnu : (n : K) * u ≤ n * (u * T) := mul_le_mul_of_nonneg_left huT (by linarith)
  have hkK : (k : K) ≤ n + 2 := by exact_mod_cast hk
  have hmK : (m : K) ≤ 3 * n := by exact_mod_cast hm
  have hku : 2 * (k : K) * u ≤ 1 := by
    have : (k : K) * u ≤ (n + 2) * u := mul_le_mul_of_nonneg_right hkK hu
    nlinarith
  have h1 := (C84_simple (n := k) (m := m) hu (by positivity : 0 ≤ T * η) hA0 hku).2
  have h2 : 2 * (k : K) * u * A ≤ 2 * (n + 2) * u * A := by
    have : 2 * (k : K) * u ≤ 2 * (n + 2) * u := mul_le_mul_of_nonneg_right (by linarith) hu
    exact mul_le_mul_of_nonneg_right this hA0
  have h3 : 2 * (m : K) * (T * η) ≤ u := by
    have : 2 * (m : K) * (T * η) ≤ 2 * (3 * n) * (T * η) := mul_le_mul_of_nonneg_right (by linarith) (by positivity)
    have := F.tiny
    nlinarith
  have h4 : roundError u (T * η) k m A ≤ 2 * (n + 2) * u * A + u := by linarith
  refine ⟨h4, ?_⟩
  unfold roundError at h4
  have h5 : 2 * ((n : K) + 2) * u * A ≤ 2 * (n + 2) * u * T := mul_le_mul_of_nonneg_left hA (by positivity)
  have h6 : (T : K) ≤ T ^ 2 := by nlinarith
  have := F.range
  nlinarith

theorem addR_step (F : OtsuFits rnd u η big n T) (h0 : ∀ k, k < n → 0 ≤ hist k) (hT : sumN n hist = T) (hT0 : 0 < T) {k : Nat} (hk : k < n) {y : K}
    (w : SumOk u η n T hist k y) : ∃ z, ComputeOtsu.addR rnd n k (hist k) y = some z ∧ SumOk u η n T hist (k + 1) z := by
  obtain ⟨f1, f2, f3, f4, f5, f6⟩ := F.facts (by omega) hT0
  have hu := F.rounds.rel
  have hη := F.rounds.abs
  have R' := F.rounds.weaken f3
  have hn0 : (0 : K) < n := by linarith
  have hkn : (k : K) ≤ n := by exact_mod_cast hk.le
  have hf0 : (0 : K) ≤ k / n := by positivity
  have hf1 : (k : K) / n ≤ 1 := (div_le_one hn0).mpr hkn
  have hc0 : (0 : K) ≤ (hist k : K) := by exact_mod_cast h0 k hk
  have hsum : partialSum n hist (k + 1) = partialSum n hist k + (k : K) / n * (hist k : K) := by
    unfold partialSum
    simp only [sumN]
    push_cast
    field_simp
  have hle : (partialSum n hist (k + 1) : K) ≤ T := by
    refine le_trans (partialSum_le h0 (by omega)) ?_
    have : sumN (k + 1) hist ≤ T := by rw [← hT]; exact sumN_mono_n (by omega) h0
    exact_mod_cast this
  have hp0 := partialSum_nonneg (K := K) h0 (show k ≤ n by omega)
  have hcT : (hist k : K) ≤ T := by
    have h1 : hist k ≤ T := by
      rw [← hT]
      have h1 : sumN (k + 1) hist ≤ sumN n hist := sumN_mono_n (by omega) h0
      have h2 : 0 ≤ sumN k hist := sumN_nonneg (fun j hj => h0 j (by omega))
      simp only [sumN] at h1
      omega
    exact_mod_cast h1
  have hfc : (0 : K) ≤ (k : K) / n * (hist k : K) := mul_nonneg hf0 hc0
  have hfcT : (k : K) / n * (hist k : K) ≤ T := by linarith
  have hTbig : (1 : K) ≤ big := by
    have := F.range
    nlinarith
  obtain ⟨f, e1, d1⟩ := F.rounds.near ((k : K) / n) (by rw [abs_of_nonneg hf0]; linarith)
  rw [abs_of_nonneg hf0] at d1
  have w1 : Within u (T * η) 1 1 ((k : K) / n * (hist k : K)) ((k : K) / n * (hist k : K)) (f * (hist k : K)) := by
    refine ⟨le_of_eq (abs_of_nonneg hfc), ?_⟩
    unfold grown
    rw [← sub_mul, abs_mul, abs_of_nonneg hc0]
    have h1 : |f - k / n| * (hist k : K) ≤ (u * (k / n) + η) * (hist k : K) := mul_le_mul_of_nonneg_right d1 hc0
    have h2 : η * (hist k : K) ≤ T * η := by rw [mul_comm]; exact mul_le_mul_of_nonneg_right hcT hη
    have h3 : 0 ≤ u * (T * η) := by positivity
    push_cast
    nlinarith
  have g := fun {k m : Nat} (hk : k ≤ n + 2) (hm : m ≤ 3 * n) {A : K} (hA0 : 0 ≤ A) (hA : A ≤ T) =>
    (grown_small F (by omega) hT0 hk hm hA0 hA).2
  obtain ⟨p, e2, w2⟩ := w1.round R' (g (by omega) (by omega) hfc hfcT)
  have w3 := w.plus (w2.mono (n' := k + 2) (m' := 2) R' (by omega) (by omega))
  obtain ⟨z, e3, w4⟩ := w3.round R' (g (by omega) (by omega) (by linarith) (by linarith))
  refine ⟨z, ?_, ?_⟩
  · unfold ComputeOtsu.addR
    rw [e1, Option.bind_some, e2, Option.bind_some, e3]
  · unfold SumOk
    rw [hsum]
    exact w4.mono R' (by omega) (by omega)

theorem SumOk.error (F : OtsuFits rnd u η big n T) (h0 : ∀ k, k < n → 0 ≤ hist k) (hn : 0 < n) (hT0 : 0 < T) {k : Nat} (hk : k ≤ n) {y w : K}
    (h : SumOk u η n T hist k y) (hw : partialSum n hist k ≤ w) (hw1 : 1 ≤ w) (hwT : w ≤ T) :
    |y - partialSum n hist k| ≤ (2 * n + 5) * u * w := by
  have hu := F.rounds.rel
  have hp0 := partialSum_nonneg (K := K) h0 hk
  have h1 := Within.error h
  have h2 := (grown_small F hn hT0 (show k + 2 ≤ n + 2 by omega) (show 3 * k ≤ 3 * n by omega) hp0 (le_trans hw hwT)).1
  have h3 : 2 * ((n : K) + 2) * u * partialSum n hist k ≤ 2 * (n + 2) * u * w := mul_le_mul_of_nonneg_left hw (by positivity)
  have h4 : u ≤ u * w := le_mul_of_one_le_right hu hw1
  nlinarith

theorem totalR_run {V : Type} (F : OtsuFits rnd u η big n T) {a : GrowArray Int} (ha : a.Is hist) (hn : a.size = n) (h0 : ∀ k, k < n → 0 ≤ hist k)
    (hT : sumN n hist = T) (hT0 : 0 < T) (h : Heap V) :
    ∃ S, (ComputeOtsu.totalR rnd a : M V K) h = .ok S h ∧ SumOk u η n T hist n S := by
  have : Spec (ComputeOtsu.totalR rnd a : M V K) h (fun s h' => h' = h ∧ SumOk u η n T hist n s) := by
    unfold ComputeOtsu.totalR
    rw [hn]
    refine Spec.loopS (fun i s h' => h' = h ∧ SumOk u η n T hist i s) ?_ ?_
    · refine ⟨rfl, ?_⟩
      have R' := F.rounds.weaken (η' := T * η) (le_mul_of_one_le_left F.rounds.abs (by exact_mod_cast hT0))
      have : (partialSum n hist 0 : K) = 0 := by simp [partialSum, sumN]
      unfold SumOk
      rw [this]
      exact Within.exact R' (by simp)
    · rintro i s h' hi ⟨rfl, w⟩
      refine Spec.bind_eq (ha.get (by omega) _) ?_
      obtain ⟨z, e, w'⟩ := addR_step F h0 hT hT0 hi w
      rw [e]
      exact Spec.pure ⟨rfl, w'⟩
  obtain ⟨s, h', e, rfl, hs⟩ := this
  exact ⟨s, e, hs⟩

/-- The computed class means and the computed variance of a split of the histogram. -/
theorem split_near (F : OtsuFits rnd u η big n T) (h0 : ∀ k, k < n → 0 ≤ hist k) (hT : sumN n hist = T) {i : Nat}
    (hs : IsSplit n hist i) {S SB : K} (wS : SumOk u η n T hist n S) (wB : SumOk u η n T hist (i + 1) SB) :
    ∃ mB mF v, ComputeOtsu.classesR rnd S SB (below hist i).toNat (above n hist i).toNat = some (mB, mF, v) ∧
      |v - variance n hist i / (n : K) ^ 2| ≤ otsuError u n T ∧
      |mB - meanBelow hist i / n| ≤ (2 * n + 8) * u ∧ |mF - meanAbove n hist i / n| ≤ (4 * n + 16) * u * T ∧
      (OtsuSharp u η n T → 0 < v) ∧
      (OtsuSharp u η n T → (n : K) ^ 2 * η ≤ u →
        |v - variance n hist i / (n : K) ^ 2| ≤ 3 * ((6 * n + 28) * u * T * n) * (variance n hist i / (n : K) ^ 2)) := by
  obtain ⟨hi, hb, ha⟩ := hs
  have hab := above_eq n hist hi
  have hbl : below hist i = sumN (i + 1) hist := rfl
  have hT0 : 0 < T := by
    have := sumN_mono_n (f := hist) (show i + 1 ≤ n by omega) h0
    omega
  obtain ⟨f1, f2, f3, f4, f5, f6⟩ := F.facts (by omega) hT0
  have hu := F.rounds.rel
  have hη0 := F.rounds.abs
  have hn0 : (0 : K) < n := by linarith
  have hbK : (((below hist i).toNat : Nat) : K) = (below hist i : Int) := by
    exact_mod_cast congrArg (Int.cast (R := K)) (Int.toNat_of_nonneg hb.le)
  have haK : (((above n hist i).toNat : Nat) : K) = (above n hist i : Int) := by
    exact_mod_cast congrArg (Int.cast (R := K)) (Int.toNat_of_nonneg ha.le)
  have hb1 : (1 : K) ≤ (below hist i : Int) := by exact_mod_cast hb
  have ha1 : (1 : K) ≤ (above n hist i : Int) := by exact_mod_cast ha
  have htot : ((below hist i : Int) : K) + ((above n hist i : Int) : K) = (T : K) := by
    have : below hist i + above n hist i = (T : Int) := by omega
    exact_mod_cast congrArg (Int.cast (R := K)) this
  have p1 := partialSum_nonneg (K := K) h0 (show i + 1 ≤ n by omega)
  have p2 := partialSum_le (K := K) h0 (show i + 1 ≤ n by omega)
  obtain ⟨p3, p4⟩ := partialSum_rest (K := K) h0 (show i + 1 ≤ n by omega)
  have p5 := partialSum_le (K := K) h0 (Nat.le_refl n)
  rw [← hab] at p4
  rw [← hbl] at p2
  have e1 := SumOk.error F h0 (by omega) hT0 (Nat.le_refl n) wS (w := (T : K)) (by rw [hT] at p5; exact_mod_cast p5) f2 (le_refl _)
  have e2 := SumOk.error F h0 (by omega) hT0 (show i + 1 ≤ n by omega) wB p2 hb1 (by linarith)
  obtain ⟨mB, mF, e, v, q1, q2, q3, q4, ⟨p, q, r1, r2, r3⟩, q5⟩ := classesR_near (G := (2 * n + 5) * u) (c := (6 * n + 28) * u) (t := T)
    F.rounds (by positivity) (by ring) F.fine f4 F.range (wB := (below hist i).toNat) (wF := (above n hist i).toNat) (by omega) (by omega)
    (by rw [hbK, haK]; exact htot) p1 (by rw [hbK]; exact p2) p3 (by rw [haK]; exact p4) e1 (by rw [hbK]; exact e2)
  rw [hbK, haK] at q5 r1
  rw [hbK] at q3 q2
  rw [haK] at q4 q2
  have hmB : (partialSum n hist (i + 1) : K) / (below hist i : Int) = meanBelow hist i / n := by
    unfold meanBelow partialSum; rw [div_right_comm]
  have hmF : (partialSum n hist n - partialSum n hist (i + 1) : K) / (above n hist i : Int) = meanAbove n hist i / n := by
    unfold meanAbove partialSum
    rw [← sub_div, div_right_comm]
    congr 2
    rw [sumN_split (fun k => k * hist k) (show i + 1 ≤ n by omega)]
    push_cast; ring
  have hvar : (below hist i : K) * (above n hist i : K) * (meanBelow hist i / (n : K) - meanAbove n hist i / (n : K)) ^ 2 =
      variance n hist i / (n : K) ^ 2 := by
    unfold variance; field_simp
  rw [hmB, hmF] at q5 q2
  rw [hmB] at q3
  rw [hmF] at q4
  have hq : (T : K) / (above n hist i : Int) ≤ T := div_le_self (by linarith) ha1
  refine ⟨mB, mF, v, q1, ?_, ?_, ?_, ?_, ?_⟩
  · rw [← hvar]
    refine le_trans q5 (le_of_eq ?_)
    unfold otsuError; ring
  · exact le_trans q3 (le_of_eq (by ring))
  · refine le_trans q4 (le_trans (mul_le_mul_of_nonneg_left hq (by positivity)) (le_of_eq (by ring)))
  · rintro ⟨s1, s2⟩
    obtain ⟨_, m1, m2, _, _⟩ := variance_pos (K := K) h0 ⟨hi, hb, ha⟩
    have hd : (meanBelow hist i / n - meanAbove n hist i / n : K) * (2 * n) ≤ -2 := by
      rw [← sub_div]
      have : (meanBelow hist i - meanAbove n hist i : K) / n * (2 * n) = 2 * (meanBelow hist i - meanAbove n hist i) := by field_simp
      rw [this]; linarith only [m1, m2]
    have huT : u ≤ u * T := le_mul_of_one_le_right hu f2
    exact sharp_pos (by linarith only [huT, f5, hu]) hu hη0 f1 s2 hb1 ha1 hd hq (by positivity) s1 q2 r1 r2 r3
  · rintro ⟨s1, s2⟩ hη2
    obtain ⟨_, m1, m2, _, _⟩ := variance_pos (K := K) h0 ⟨hi, hb, ha⟩
    have hD : (1 : K) ≤ n * |(meanBelow hist i / n - meanAbove n hist i / n : K)| := by
      rw [← sub_div, abs_div, abs_of_pos hn0, mul_div_cancel₀ _ hn0.ne', abs_sub_comm]
      exact le_trans (by linarith only [m1, m2]) (le_abs_self _)
    have hT2 : (2 : K) ≤ T := by linarith only [htot, hb1, ha1]
    have hc0 : 0 ≤ (6 * (n : K) + 28) * u := by positivity
    rw [← hvar]
    refine product_rel (κ := (6 * n + 28) * u * T * n) hu hη0 ?_ (by linarith only [s1]) hb1 ha1 f1 hη2 hD (le_trans q2 ?_) r1 r2 r3
    · have h1 : (34 : K) * u ≤ (6 * n + 28) * u := mul_le_mul_of_nonneg_right (by linarith only [f1]) hu
      have h2 : (6 * (n : K) + 28) * u * 2 ≤ (6 * n + 28) * u * T := mul_le_mul_of_nonneg_left hT2 hc0
      have h3 : (6 * (n : K) + 28) * u * T ≤ (6 * n + 28) * u * T * n := le_mul_of_one_le_right (by positivity) f1
      linarith only [h1, h2, h3, hu]
    · have h1 : (6 * (n : K) + 28) * u * (T / (above n hist i : Int)) ≤ (6 * n + 28) * u * T := mul_le_mul_of_nonneg_left hq hc0
      have h2 := mul_le_mul_of_nonneg_left hD (mul_nonneg hc0 (by linarith only [hT2] : (0 : K) ≤ T))
      linarith only [h1, h2, show (6 * (n : K) + 28) * u * T * (n * |(meanBelow hist i / n - meanAbove n hist i / n : K)|) =
        (6 * n + 28) * u * T * n * |(meanBelow hist i / n - meanAbove n hist i / n : K)| by ring]

/-- What the scan has found after `i` levels. -/
structure BestR (u η : K) (n T : Nat) (hist : Nat → Int) (i : Nat) (s : ComputeOtsu.Scan K) : Prop where
  best : (∃ t : Nat, t < i ∧ IsSplit n hist t ∧ 0 < hist t ∧ s.threshold = t ∧ |s.variance - variance n hist t / (n : K) ^ 2| ≤ otsuError u n T ∧
      |s.selectedMB - meanBelow hist t / n| ≤ (2 * n + 8) * u ∧ |s.selectedMF - meanAbove n hist t / n| ≤ (4 * n + 16) * u * T ∧
      (OtsuSharp u η n T → (n : K) ^ 2 * η ≤ u →
        |s.variance - variance n hist t / (n : K) ^ 2| ≤ 3 * ((6 * n + 28) * u * T * n) * (variance n hist t / (n : K) ^ 2))) ∨
    (s.threshold = 0 ∧ s.variance = 0 ∧ s.selectedMB = 0 ∧ s.selectedMF = 0)
  nonneg : 0 ≤ s.variance
  all : ∀ j, j < i → IsSplit n hist j → variance n hist j / (n : K) ^ 2 ≤ s.variance + otsuError u n T
  pos : OtsuSharp u η n T → ∀ j, j < i → IsSplit n hist j → 0 < s.variance

theorem BestR.keep {i : Nat} {s s' : ComputeOtsu.Scan K} (hb : BestR u η n T hist i s) (e1 : s'.threshold = s.threshold)
    (e2 : s'.variance = s.variance) (e3 : s'.selectedMB = s.selectedMB) (e4 : s'.selectedMF = s.selectedMF)
    (h : IsSplit n hist i → variance n hist i / (n : K) ^ 2 ≤ s.variance + otsuError u n T ∧ (OtsuSharp u η n T → 0 < s.variance)) :
    BestR u η n T hist (i + 1) s' := by
  refine ⟨?_, by rw [e2]; exact hb.nonneg, fun j hj hs => ?_, fun hS j hj hs => ?_⟩
  · rw [e1, e2, e3, e4]
    rcases hb.best with ⟨t, ht, r⟩ | r
    · exact Or.inl ⟨t, by omega, r⟩
    · exact Or.inr r
  · rw [e2]
    by_cases e : j = i
    · subst e; exact (h hs).1
    · exact hb.all j (by omega) hs
  · rw [e2]
    by_cases e : j = i
    · subst e; exact (h hs).2 hS
    · exact hb.pos hS j (by omega) hs

theorem scanR_run {V : Type} (F : OtsuFits rnd u η big n T) (hid : Idempotent rnd) (hz0 : rnd 0 = some 0) {a : GrowArray Int} (ha : a.Is hist)
    (hn : a.size = n) (h0 : ∀ k, k < n → 0 ≤ hist k) (hT : sumN n hist = T) (hT0 : 0 < T) (hT32 : T < P32) {S : K} (wS : SumOk u η n T hist n S)
    (h : Heap V) :
    ∃ s : ComputeOtsu.Scan K, (ComputeOtsu.scanR rnd a S T : M V _) h = .ok s h ∧ BestR u η n T hist n s := by
  have R' := F.rounds.weaken (η' := T * η) (le_mul_of_one_le_left F.rounds.abs (by exact_mod_cast hT0))
  have hmono : ∀ {i}, i ≤ n → sumN i hist ≤ T := fun hi => by
    rw [← hT]; exact sumN_mono_n hi h0
  have hnn : ∀ {i}, i ≤ n → 0 ≤ sumN i hist := fun hi => sumN_nonneg (fun k hk => h0 k (by omega))
  suffices hspec : Spec (ComputeOtsu.scanR rnd a S T : M V (ComputeOtsu.Scan K)) h (fun s h' => h' = h ∧ BestR u η n T hist n s) by
    obtain ⟨s, h', e, rfl, hb⟩ := hspec
    exact ⟨s, e, hb⟩
  unfold ComputeOtsu.scanR
  rw [hn]
  refine Spec.conseq (Spec.loopS
    (fun i (s : ComputeOtsu.Scan K) h' => h' = h ∧ BestR u η n T hist i s ∧
      (s.done = true → ∀ j, i ≤ j → ¬IsSplit n hist j) ∧
      (s.done = false → (s.wB : Int) = sumN i hist ∧ SumOk u η n T hist i s.sumB ∧ rnd s.sumB = some s.sumB ∧
        (s.wB ≠ 0 → ∀ mB mF v, ComputeOtsu.classesR rnd S s.sumB s.wB (T - s.wB) = some (mB, mF, v) → v ≤ s.variance))) ?_ ?_) ?_
  · refine ⟨rfl, ⟨Or.inr ⟨rfl, rfl, rfl, rfl⟩, le_refl _, fun j hj => by omega, fun _ j hj => by omega⟩, by simp,
      fun _ => ⟨by simp [sumN], ?_, hz0, fun c => absurd rfl c⟩⟩
    have : (partialSum n hist 0 : K) = 0 := by simp [partialSum, sumN]
    unfold SumOk
    rw [this]
    exact Within.exact R' (by simp)
  · rintro i s h' hi ⟨rfl, hb, hd1, hd2⟩
    by_cases hdone : s.done = true
    · rw [if_pos hdone]
      exact Spec.pure ⟨rfl, hb.keep rfl rfl rfl rfl (fun c => absurd c (hd1 hdone i (Nat.le_refl _))), fun hh j hj => hd1 hdone j (by omega),
        fun hh => by rw [hdone] at hh; simp at hh⟩
    rw [if_neg hdone]
    obtain ⟨hw, hsB, hfix, hlast⟩ := hd2 (by simpa using hdone)
    refine Spec.bind_eq (ha.get (by omega) _) ?_
    have hci := h0 i hi
    have hsucc : sumN (i+1) hist = sumN i hist + hist i := rfl
    have hle := hmono (show i + 1 ≤ n by omega)
    have hwB : wrap32 (s.wB + (hist i).toNat) = (sumN (i+1) hist).toNat := by
      rw [wrap32_of_lt]
      · omega
      · omega
    have hge := hnn (show i + 1 ≤ n by omega)
    have hgi := hnn (show i ≤ n by omega)
    simp only [hwB]
    have hab := above_eq n hist hi
    have hbl : below hist i = sumN (i+1) hist := rfl
    by_cases hz : (sumN (i+1) hist).toNat = 0
    · rw [if_pos hz]
      refine Spec.pure ⟨rfl, hb.keep rfl rfl rfl rfl ?_, fun hh => absurd hh hdone, fun _ => ⟨Int.toNat_of_nonneg hge, ?_, hfix, fun c => absurd hz c⟩⟩
      · rintro ⟨_, hb', _⟩; omega
      · have hc0 : hist i = 0 := by omega
        have : (partialSum n hist (i + 1) : K) = partialSum n hist i := by
          unfold partialSum; simp only [sumN, hc0, mul_zero, add_zero]
        show SumOk u η n T hist (i + 1) s.sumB
        unfold SumOk
        rw [this]
        exact hsB.mono R' (by omega) (by omega)
    rw [if_neg hz]
    have hwF : sub32 T (sumN (i+1) hist).toNat = (above n hist i).toNat := by
      rw [sub32_of_le (by omega) hT32]; omega
    simp only [hwF]
    have hab0 : 0 ≤ above n hist i := by omega
    by_cases hzF : (above n hist i).toNat = 0
    · rw [if_pos hzF]
      have hstop : ∀ j, i ≤ j → ¬IsSplit n hist j := by
        rintro j hj ⟨hj1, _, hj3⟩
        rw [above_eq _ _ hj1] at hj3
        have := sumN_mono_n (f := hist) (show i + 1 ≤ j + 1 by omega) (fun k hk => h0 k (by omega))
        omega
      exact Spec.pure ⟨rfl, hb.keep rfl rfl rfl rfl (fun c => absurd c (hstop i (Nat.le_refl _))), fun _ j hj => hstop j (by omega),
        fun hh => by simp at hh⟩
    rw [if_neg hzF]
    have hsplit : IsSplit n hist i := ⟨hi, by omega, by omega⟩
    obtain ⟨SB, ea, hSB⟩ := addR_step F h0 hT hT0 hi hsB
    obtain ⟨mB, mF, v, ec, n1, n2, n3, n4, n5⟩ := split_near F h0 hT hsplit wS hSB
    rw [hbl] at ec
    have hSBfix : rnd SB = some SB := by
      unfold ComputeOtsu.addR at ea
      rw [Option.bind_eq_some_iff] at ea
      obtain ⟨f, _, ea⟩ := ea
      rw [Option.bind_eq_some_iff] at ea
      obtain ⟨p, _, ea⟩ := ea
      exact hid _ _ ea
    have hT' : T - (sumN (i+1) hist).toNat = (above n hist i).toNat := by omega
    rw [ea]
    refine Spec.bind_eq (show (opt (some SB) : M V K) _ = .ok SB _ from rfl) ?_
    rw [ec]
    refine Spec.bind_eq (show (opt (some (mB, mF, v)) : M V _) _ = .ok (mB, mF, v) _ from rfl) ?_
    have nl := (abs_le.mp n1).1
    by_cases hgt : v > s.variance
    · rw [if_pos hgt]
      have hpos : 0 < hist i := by
        refine lt_of_le_of_ne hci (fun c => ?_)
        have hc0 : hist i = 0 := c.symm
        have hSBe : SB = s.sumB := by
          unfold ComputeOtsu.addR at ea
          rw [Option.bind_eq_some_iff] at ea
          obtain ⟨f, _, ea⟩ := ea
          rw [hc0, Int.cast_zero, mul_zero, hz0, Option.bind_some, add_zero, hfix] at ea
          exact (Option.some.inj ea).symm
        have hwe : s.wB = (sumN (i+1) hist).toNat := by omega
        rw [← hT', hSBe, ← hwe] at ec
        exact absurd (hlast (by omega) _ _ _ ec) (not_le.mpr hgt)
      refine Spec.pure ⟨rfl, ⟨Or.inl ⟨i, by omega, hsplit, hpos, rfl, n1, n2, n3, n5⟩, le_trans hb.nonneg hgt.le, ?_, ?_⟩, fun hh => absurd hh hdone,
        fun _ => ⟨Int.toNat_of_nonneg hge, hSB, hSBfix, fun _ mB' mF' v' e' => ?_⟩⟩
      · intro j hj hs
        show _ ≤ v + otsuError u n T
        by_cases e : j = i
        · subst e; linarith
        · have := hb.all j (by omega) hs
          linarith
      · intro hS j hj hs
        exact lt_of_le_of_lt hb.nonneg hgt
      · rw [show (T - (sumN (i+1) hist).toNat) = (above n hist i).toNat from hT'] at e'
        have e'' := ec.symm.trans e'
        cases e''
        exact le_refl _
    · rw [if_neg hgt]
      have hle' := not_lt.mp hgt
      refine Spec.pure ⟨rfl, hb.keep rfl rfl rfl rfl (fun _ => ⟨by linarith, fun hS => lt_of_lt_of_le (n4 hS) hle'⟩), fun hh => absurd hh hdone,
        fun _ => ⟨Int.toNat_of_nonneg hge, hSB, hSBfix, fun _ mB' mF' v' e' => ?_⟩⟩
      rw [show (T - (sumN (i+1) hist).toNat) = (above n hist i).toNat from hT'] at e'
      have e'' := ec.symm.trans e'
      cases e''
      exact hle'
  · rintro s h' ⟨rfl, hb, _⟩
    exact ⟨rfl, hb⟩

end scan

end Boof
