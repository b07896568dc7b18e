import Mathlib.Analysis.Complex.ExponentialBounds
import Verif.Spec.Gauss
import Verif.Proofs.GaussRounding
import Verif.Proofs.Algebra
import Verif.Props.Rounding
import Verif.Props.SigmaRounding
/-
Rounding errors of Gaussian kernels.
-/
namespace Boof

theorem exp_sub_le (a b : ℝ) : Real.exp a - Real.exp b ≤ (a - b) * Real.exp a := by
  have h := Real.add_one_le_exp (b - a)
  have h2 : Real.exp b = Real.exp (b - a) * Real.exp a := by rw [← Real.exp_add]; congr 1; ring
  have h3 := mul_le_mul_of_nonneg_right h (Real.exp_pos a).le
  rw [h2]; linarith

theorem mul_exp_neg_le {t : ℝ} (ht : 0 ≤ t) : t * Real.exp (-t) ≤ 1 / 2 := by
  have h := Real.quadratic_le_exp_of_nonneg ht
  have h2 : 2 * t ≤ Real.exp t := by nlinarith [sq_nonneg (t - 1)]
  rw [Real.exp_neg, ← div_eq_mul_inv, div_le_div_iff₀ (Real.exp_pos t) (by norm_num)]
  linarith

theorem exp_near {x δ u η : ℝ} (hx : 0 ≤ x) (hu : 0 ≤ u) (hu1 : 100 * u ≤ 1) (hη0 : 0 ≤ η) (hη : η ≤ u) (hδ : |δ| ≤ 8 * u * x + η) :
    |Real.exp (-x + δ) - Real.exp (-x)| ≤ 6 * u := by
  have h1 : |Real.exp (-x + δ) - Real.exp (-x)| ≤ |δ| * Real.exp (-x + |δ|) := by
    have hm1 : Real.exp (-x + δ) ≤ Real.exp (-x + |δ|) := Real.exp_le_exp.mpr (by linarith [le_abs_self δ])
    have hm2 : Real.exp (-x) ≤ Real.exp (-x + |δ|) := Real.exp_le_exp.mpr (by linarith [abs_nonneg δ])
    rcases le_total 0 δ with h | h
    · rw [abs_of_nonneg (by linarith [Real.exp_le_exp.mpr (show -x ≤ -x + δ by linarith)])]
      have := exp_sub_le (-x + δ) (-x)
      rw [abs_of_nonneg h]
      linarith
    · rw [abs_of_nonpos (by linarith [Real.exp_le_exp.mpr (show -x + δ ≤ -x by linarith)])]
      have := exp_sub_le (-x) (-x + δ)
      have h4 := mul_le_mul_of_nonneg_left hm2 (abs_nonneg δ)
      rw [abs_of_nonpos h] at h4 ⊢
      linarith
  have h2 : Real.exp (-x + |δ|) ≤ Real.exp (-((1 - 8 * u) * x)) * (51 / 50) := by
    have e1 : Real.exp (-x + |δ|) ≤ Real.exp (-((1 - 8 * u) * x)) * Real.exp η := by
      rw [← Real.exp_add]
      exact Real.exp_le_exp.mpr (by linarith)
    refine le_trans e1 (mul_le_mul_of_nonneg_left ?_ (Real.exp_pos _).le)
    have e2 := Real.add_one_le_exp (-η)
    have e3 : Real.exp η * Real.exp (-η) = 1 := by rw [← Real.exp_add, add_neg_cancel, Real.exp_zero]
    have e4 : Real.exp η * (99 / 100) ≤ 1 := by
      rw [← e3]
      exact mul_le_mul_of_nonneg_left (by linarith) (Real.exp_pos _).le
    linarith
  have hy : 0 ≤ (1 - 8 * u) * x := mul_nonneg (by linarith) hx
  have h3 := mul_exp_neg_le hy
  have h4 : Real.exp (-((1 - 8 * u) * x)) ≤ 1 := Real.exp_le_one_iff.mpr (by linarith)
  have h0 := (Real.exp_pos (-((1 - 8 * u) * x))).le
  generalize Real.exp (-((1 - 8 * u) * x)) = y at h2 h3 h4 h0
  have h5 : |δ| * Real.exp (-x + |δ|) ≤ (8 * u * x + η) * (y * (51 / 50)) := by
    refine mul_le_mul hδ h2 (Real.exp_pos _).le ?_
    have := mul_nonneg hu hx
    linarith
  have h6 : x * y ≤ 100 / 184 := by
    have : (1 - 8 / 100) * (x * y) ≤ (1 - 8 * u) * (x * y) := mul_le_mul_of_nonneg_right (by linarith) (mul_nonneg hx h0)
    linarith
  have h7 : 8 * u * (x * y) ≤ 8 * u * (100 / 184) := mul_le_mul_of_nonneg_left h6 (by linarith)
  have h8 : η * y ≤ u * 1 := mul_le_mul hη h4 h0 hu
  calc _ ≤ _ := h1
    _ ≤ _ := h5
    _ = (8 * u * (x * y) + η * y) * (51 / 50) := by ring
    _ ≤ 6 * u := by linarith

theorem ratio_near {num den D x u : ℝ} (hD : 0 < D) (hx : 0 ≤ x) (hu : 0 ≤ u) (hu1 : 100 * u ≤ 1) (hn : |num + D * x| ≤ 2 * u * (D * x))
    (hd : |den - D| ≤ 7 / 2 * u * D) : 0 < den ∧ |num / den + x| ≤ 6 * u * x := by
  have h1 := mul_le_mul_of_nonneg_right hu1 hD.le
  have h2 := (abs_le.mp hd).1
  have h3 : 193 / 200 * D ≤ den := by linarith
  have hden : 0 < den := by linarith
  refine ⟨hden, ?_⟩
  have e : num / den + x = ((num + D * x) + x * (den - D)) / den := by field_simp; ring
  rw [e, abs_div, abs_of_pos hden, div_le_iff₀ hden]
  have h4 := abs_add_le (num + D * x) (x * (den - D))
  rw [abs_mul x, abs_of_nonneg hx] at h4
  have h5 := mul_le_mul_of_nonneg_left hd hx
  have h6 := mul_le_mul_of_nonneg_left h3 (mul_nonneg hu hx)
  have h7 : 0 ≤ u * x * D := mul_nonneg (mul_nonneg hu hx) hD.le
  calc _ ≤ _ := h4
    _ ≤ 2 * u * (D * x) + x * (7 / 2 * u * D) := by linarith
    _ = 11 / 2 * (u * x * D) := by ring
    _ ≤ 6 * (u * x * (193 / 200 * D)) := by linarith
    _ ≤ 6 * (u * x * den) := by linarith
    _ = _ := by ring

/-- The exponent. -/
theorem exponent_near {rnd : ℝ → Option ℝ} {u η big sigma d : ℝ} (R : Rounds rnd u η big) (hs : 0 < sigma) (hu1 : 100 * u ≤ 1)
    (t : 4 * η ≤ u) (t1 : η ≤ u * sigma) (t2 : η ≤ u * sigma ^ 2) (hd : rnd d = some d) (hd2 : d = 0 ∨ 1 / 4 ≤ d ^ 2)
    (r : 4 * d ^ 2 ≤ big) (r1 : 4 * sigma ≤ big) (r2 : 4 * sigma ^ 2 ≤ big) (r4 : d ^ 2 ≤ big * sigma ^ 2) :
    ∃ num two den q, rnd (-d * d) = some num ∧ rnd (2 * sigma) = some two ∧ rnd (two * sigma) = some den ∧ den ≠ 0 ∧ rnd (num / den) = some q ∧
      |q + d ^ 2 / (2 * sigma ^ 2)| ≤ 8 * u * (d ^ 2 / (2 * sigma ^ 2)) + η := by
  have hu := R.rel
  have hη := R.abs
  have hdd : (0 : ℝ) ≤ d ^ 2 := sq_nonneg d
  have hss : (0 : ℝ) < sigma ^ 2 := by positivity
  have hnum : ∃ num, rnd (-d * d) = some num ∧ |num + d ^ 2| ≤ 2 * u * d ^ 2 := by
    rcases hd2 with h0 | h1
    · subst h0
      exact ⟨0, by rw [neg_zero, zero_mul, hd], by simp⟩
    · have habs : |-d * d| = d ^ 2 := by rw [abs_mul, abs_neg, abs_mul_abs_self, sq]
      obtain ⟨num, e, he⟩ := R.near (-d * d) (by rw [habs]; linarith)
      refine ⟨num, e, ?_⟩
      rw [habs, show num - -d * d = num + d ^ 2 by ring] at he
      have := mul_le_mul_of_nonneg_left h1 hu
      linarith
  obtain ⟨num, en, hn⟩ := hnum
  obtain ⟨two, e2, h2⟩ := R.near (2 * sigma) (by rw [abs_of_pos (by linarith)]; linarith)
  rw [abs_of_pos (by linarith : 0 < 2 * sigma)] at h2
  have h2' : |two * sigma - 2 * sigma ^ 2| ≤ 3 * u * sigma ^ 2 := by
    rw [show two * sigma - 2 * sigma ^ 2 = (two - 2 * sigma) * sigma by ring, abs_mul, abs_of_pos hs]
    have : |two - 2 * sigma| * sigma ≤ (3 * u * sigma) * sigma := mul_le_mul_of_nonneg_right (by linarith) hs.le
    calc _ ≤ _ := this
      _ = _ := by ring
  obtain ⟨den, e3, h3⟩ := R.step (x := 2 * sigma ^ 2) (A := 2 * sigma ^ 2) (by rw [abs_of_pos (by linarith)]) h2' (by
    have := mul_le_mul_of_nonneg_right (show 3 * u ≤ 2 by linarith) hss.le
    linarith)
  have hus : u * (u * sigma ^ 2) ≤ 1 / 100 * (u * sigma ^ 2) := mul_le_mul_of_nonneg_right (by linarith) (mul_nonneg hu hss.le)
  have h3' : |den - 2 * sigma ^ 2| ≤ 7 / 2 * u * (2 * sigma ^ 2) := by
    have : u * (2 * sigma ^ 2 + 3 * u * sigma ^ 2) = 2 * (u * sigma ^ 2) + 3 * (u * (u * sigma ^ 2)) := by ring
    have h6 := mul_nonneg hu hss.le
    linarith
  have hS : (0 : ℝ) < 2 * sigma ^ 2 := by linarith
  have hx : 2 * sigma ^ 2 * (d ^ 2 / (2 * sigma ^ 2)) = d ^ 2 := by field_simp
  have hx0 : 0 ≤ d ^ 2 / (2 * sigma ^ 2) := div_nonneg hdd hS.le
  have hbx : 2 * (d ^ 2 / (2 * sigma ^ 2)) ≤ big := by
    rw [show 2 * (d ^ 2 / (2 * sigma ^ 2)) = d ^ 2 / sigma ^ 2 by field_simp, div_le_iff₀ hss]
    exact r4
  obtain ⟨hden, h4⟩ := ratio_near hS hx0 hu hu1 (by rw [hx]; exact hn) h3'
  obtain ⟨q, eq, h5⟩ := R.step (x := -(d ^ 2 / (2 * sigma ^ 2))) (y := num / den) (d := 6 * u * (d ^ 2 / (2 * sigma ^ 2)))
    (A := d ^ 2 / (2 * sigma ^ 2)) (by rw [abs_neg, abs_of_nonneg hx0])
    (by rw [sub_neg_eq_add]; exact h4) (by
      have := mul_le_mul_of_nonneg_right (show 6 * u ≤ 1 by linarith) hx0
      linarith)
  refine ⟨num, two, den, q, en, e2, e3, ne_of_gt hden, eq, ?_⟩
  rw [sub_neg_eq_add] at h5
  generalize d ^ 2 / (2 * sigma ^ 2) = x at *
  have h6 : u * (u * x) ≤ 1 / 100 * (u * x) := mul_le_mul_of_nonneg_right (by linarith) (mul_nonneg hu hx0)
  have h7 := mul_nonneg hu hx0
  calc _ ≤ _ := h5
    _ = 7 * (u * x) + 6 * (u * (u * x)) + η := by ring
    _ ≤ _ := by linarith

/-- A quotient whose parts are inexact. -/
theorem over_near {a b D e u : ℝ} (hD : 0 < D) (hu : 0 ≤ u) (hu1 : 100 * u ≤ 1) (he : 0 ≤ e) (he1 : e ≤ 1) (ha : |a - e| ≤ 10 * u)
    (hb : |b - D| ≤ 2 * u * D) : 0 < b ∧ |a / b - e / D| ≤ 49 / 4 * u / D := by
  have h1 := mul_le_mul_of_nonneg_right hu1 hD.le
  have h2 := (abs_le.mp hb).1
  have h3 : 98 / 100 * D ≤ b := by linarith
  have hb0 : 0 < b := by linarith
  refine ⟨hb0, ?_⟩
  have eq : a / b - e / D = ((a - e) * D + e * (D - b)) / (b * D) := by field_simp; ring
  rw [eq, abs_div, abs_of_pos (mul_pos hb0 hD), div_le_div_iff₀ (mul_pos hb0 hD) hD]
  have h4 := abs_add_le ((a - e) * D) (e * (D - b))
  rw [abs_mul, abs_mul, abs_of_pos hD, abs_of_nonneg he, abs_sub_comm D b] at h4
  have h5 := mul_le_mul_of_nonneg_right ha hD.le
  have h6 : e * |b - D| ≤ 1 * (2 * u * D) := mul_le_mul he1 hb (abs_nonneg _) (by linarith)
  have h7 := mul_le_mul_of_nonneg_left h3 (mul_nonneg hu hD.le)
  have h8 : 0 ≤ u * D * D := mul_nonneg (mul_nonneg hu hD.le) hD.le
  have h9 : |(a - e) * D + e * (D - b)| ≤ 12 * (u * D) := by linarith
  calc _ ≤ 12 * (u * D) * D := mul_le_mul_of_nonneg_right h9 hD.le
    _ = 12 * (u * D * D) := by ring
    _ ≤ 49 / 4 * (u * D * (98 / 100 * D)) := by linarith
    _ ≤ 49 / 4 * (u * D * b) := by linarith
    _ = _ := by ring

/-- One sample. -/
theorem sample_near {rnd rndE : ℝ → Option ℝ} {ex : ℝ → ℝ} {u η big c sigma d : ℝ} (R : Rounds rnd u η big) (RE : Rounds rndE u η big)
    (hex : ∀ x, x ≤ 1 → |ex x - Real.exp x| ≤ 2 * u * Real.exp x + η) (hs : 0 < sigma) (hc : 0 < c) (hu1 : 100 * u ≤ 1)
    (t : 4 * η ≤ u) (t1 : η ≤ u * sigma) (t2 : η ≤ u * sigma ^ 2) (t3 : η ≤ u * (sigma * c)) (t4 : 4 * (η * (sigma * c)) ≤ u)
    (hd : rnd d = some d) (hd2 : d = 0 ∨ 1 / 4 ≤ d ^ 2)
    (r : 4 * d ^ 2 ≤ big) (r1 : 4 * sigma ≤ big) (r2 : 4 * sigma ^ 2 ≤ big) (r3 : 2 * (sigma * c) ≤ big) (r4 : d ^ 2 ≤ big * sigma ^ 2)
    (r5 : 4 ≤ big * (sigma * c)) :
    ∃ f p, pdfO rnd ex c 0 sigma d = some f ∧ rndE f = some p ∧ |p - Real.exp (-(d ^ 2 / (2 * sigma ^ 2))) / (sigma * c)| ≤ 16 * u / (sigma * c) := by
  have hu := R.rel
  have hη := R.abs
  obtain ⟨num, two, den, q, e1, e2, e3, hden, e4, hq⟩ := exponent_near R hs hu1 t t1 t2 hd hd2 r r1 r2 r4
  have hD : 0 < sigma * c := mul_pos hs hc
  obtain ⟨dd, e5, hdd⟩ := R.near (sigma * c) (by rw [abs_of_pos hD]; linarith)
  rw [abs_of_pos hD] at hdd
  have hx0 : 0 ≤ d ^ 2 / (2 * sigma ^ 2) := by positivity
  unfold pdfO
  rw [sub_zero, hd, Option.bind_some, e1, Option.bind_some, e2, Option.bind_some, e3, Option.bind_some, if_neg hden, e4, Option.bind_some, e5,
    Option.bind_some]
  clear e1 e2 e3 e4 e5 r r1 r2 r3 r4 hd2 hd t1 t2
  generalize d ^ 2 / (2 * sigma ^ 2) = x at *
  generalize sigma * c = D at *
  have h1 := exp_near (δ := q + x) hx0 hu hu1 hη (by linarith) hq
  rw [show -x + (q + x) = q by ring] at h1
  have hE : Real.exp (-x) ≤ 1 := Real.exp_le_one_iff.mpr (by linarith)
  have hE0 := (Real.exp_pos (-x)).le
  have h2 : q ≤ 1 := by
    have h3 := (abs_le.mp hq).2
    have h4 := mul_le_mul_of_nonneg_right (show 8 * u ≤ 1 by linarith) hx0
    linarith
  have h3 := hex q h2
  generalize Real.exp (-x) = e at *
  generalize Real.exp q = e' at *
  have h4 : e' ≤ 1 + 6 * u := by linarith [(abs_le.mp h1).2]
  have huu : u * u ≤ 1 / 100 * u := mul_le_mul_of_nonneg_right (by linarith) hu
  have h5 : |ex q - e| ≤ 10 * u := by
    have h6 := abs_add_le (ex q - e') (e' - e)
    rw [sub_add_sub_cancel] at h6
    have h7 : 2 * u * e' ≤ 2 * u * (1 + 6 * u) := mul_le_mul_of_nonneg_left h4 (by linarith)
    linarith
  obtain ⟨hdd0, h6⟩ := over_near hD hu hu1 hE0 hE h5 (by linarith : |dd - D| ≤ 2 * u * D)
  rw [if_neg (ne_of_gt hdd0)]
  have hi : 0 < 1 / D := by positivity
  have hηD : 4 * η ≤ u * (1 / D) := by
    rw [mul_one_div, le_div_iff₀ hD]; linarith
  have hbig : 4 * (1 / D) ≤ big := by
    rw [mul_one_div, div_le_iff₀ hD]; exact r5
  have he : |e / D| ≤ 1 / D := by
    rw [abs_of_nonneg (by positivity)]
    exact div_le_div_of_nonneg_right hE hD.le
  have hui : 0 ≤ u * (1 / D) := mul_nonneg hu hi.le
  have huui : u * (u * (1 / D)) ≤ 1 / 100 * (u * (1 / D)) := mul_le_mul_of_nonneg_right (by linarith) hui
  have hui1 : 100 * (u * (1 / D)) ≤ 1 / D := by
    have := mul_le_mul_of_nonneg_right hu1 hi.le
    linarith
  rw [show 49 / 4 * u / D = 49 / 4 * (u * (1 / D)) by ring] at h6
  obtain ⟨f, ef, hf⟩ := R.step he h6 (by linarith)
  have hf' : |f - e / D| ≤ 14 * (u * (1 / D)) := by
    have : u * (1 / D + 49 / 4 * (u * (1 / D))) = u * (1 / D) + 49 / 4 * (u * (u * (1 / D))) := by ring
    linarith
  obtain ⟨p, ep, hp⟩ := RE.step he hf' (by linarith)
  refine ⟨f, p, ef, ep, ?_⟩
  rw [show 16 * u / D = 16 * (u * (1 / D)) by ring]
  have : u * (1 / D + 14 * (u * (1 / D))) = u * (1 / D) + 14 * (u * (u * (1 / D))) := by ring
  linarith

/-- One coefficient: a sample divided by the sum. -/
theorem coef_near {p S g P D u W : ℝ} (hD : 0 < D) (hu : 0 ≤ u) (hW : 0 ≤ W) (hu1 : 100 * (W + 1) * u ≤ 1) (hP : 1 ≤ P) (hg0 : 0 ≤ g)
    (hp : |p - g / D| ≤ 16 * u / D) (hS : |S - P / D| ≤ 19 * W * u * P / D) :
    0 < S ∧ |p / S - g / P| ≤ (20 + 24 * W * (g / P)) * u := by
  have hP0 : 0 < P := by linarith
  have scale : ∀ a b : ℝ, (a - b / D) = (a * D - b) / D := fun a b => by field_simp
  rw [scale, abs_div, abs_of_pos hD, div_le_div_iff_of_pos_right hD] at hp hS
  have hq : p / S = p * D / (S * D) := by rw [mul_div_mul_right _ _ (ne_of_gt hD)]
  rw [hq]
  have hSS : 0 < S * D → 0 < S := fun h => pos_of_mul_pos_left h hD.le
  generalize p * D = p at *
  generalize hT : S * D = T at *
  have hWu : 0 ≤ W * u := mul_nonneg hW hu
  have h1 : W * u * P ≤ 1 / 100 * P := mul_le_mul_of_nonneg_right (by linarith) hP0.le
  have h2 : 81 / 100 * P ≤ T := by
    have := (abs_le.mp hS).1
    linarith
  have hT0 : 0 < T := by linarith
  refine ⟨hSS hT0, ?_⟩
  have e : p / T - g / P = ((p - g) * P - g * (T - P)) / (T * P) := by field_simp; ring
  rw [e, abs_div, abs_of_pos (mul_pos hT0 hP0), div_le_iff₀ (mul_pos hT0 hP0)]
  have h4 := abs_sub ((p - g) * P) (g * (T - P))
  rw [abs_mul, abs_mul, abs_of_pos hP0, abs_of_nonneg hg0] at h4
  have h5 := mul_le_mul_of_nonneg_right hp hP0.le
  have h6 := mul_le_mul_of_nonneg_left hS hg0
  have h7 : (20 + 24 * W * (g / P)) * u * (T * P) = (20 * u * P + 24 * (W * u * g)) * T := by field_simp
  rw [h7]
  have h8 : 0 ≤ W * u * g := mul_nonneg hWu hg0
  have h9 : 0 ≤ u * P := mul_nonneg hu hP0.le
  have h10 : (20 * u * P + 24 * (W * u * g)) * (81 / 100 * P) ≤ (20 * u * P + 24 * (W * u * g)) * T :=
    mul_le_mul_of_nonneg_left h2 (by linarith)
  refine le_trans (le_trans h4 (add_le_add h5 h6)) (le_trans ?_ h10)
  have h11 : 0 ≤ W * u * g * P := mul_nonneg h8 hP0.le
  have h12 : u * P * 1 ≤ u * P * P := mul_le_mul_of_nonneg_left hP h9
  calc 16 * u * P + g * (19 * W * u * P) = 16 * (u * P * 1) + 19 * (W * u * g * P) := by ring
    _ ≤ 81 / 5 * (u * P * P) + 24 * (81 / 100) * (W * u * g * P) := by linarith
    _ = _ := by ring

theorem bell_pos (sigma : ℝ) (w i : Nat) : 0 < bell sigma w i := Real.exp_pos _

theorem bell_le_one (sigma : ℝ) (w i : Nat) : bell sigma w i ≤ 1 := Real.exp_le_one_iff.mpr (neg_nonpos.mpr (by positivity))

/-- The samples of the bell curve add up to at least one, unless the curve is narrow and has no sample in its middle. -/
theorem bell_sum {sigma : ℝ} (hs : 0 < sigma) {w : Nat} (hw : 0 < w) (h : w % 2 = 1 ∨ 1 / 2 ≤ sigma) : 1 ≤ sumF w (bell sigma w) := by
  rw [sumF_eq]
  rcases Nat.mod_two_eq_zero_or_one w with e | e
  · have hs2 : 1 / 2 ≤ sigma := by rcases h with h | h; omega; exact h
    have hsub : ({w / 2, w / 2 - 1} : Finset Nat) ⊆ Finset.range w := by
      intro i hi
      rw [Finset.mem_insert, Finset.mem_singleton] at hi
      rw [Finset.mem_range]; omega
    have h1 := Finset.sum_le_sum_of_subset_of_nonneg hsub (f := bell sigma w) (fun i _ _ => (bell_pos sigma w i).le)
    rw [Finset.sum_pair (by omega)] at h1
    have hw2 : (w : ℝ) = 2 * ((w / 2 : Nat) : ℝ) := by exact_mod_cast (by omega : w = 2 * (w / 2))
    have key : ∀ i : Nat, ((i : ℝ) - ((w : ℝ) - 1) / 2) ^ 2 = 1 / 4 → 1 / 2 ≤ bell sigma w i := by
      intro i hi
      unfold bell
      rw [hi]
      have h2 := Real.add_one_le_exp (-((1 / 4 : ℝ) / (2 * sigma ^ 2)))
      have h3 : (1 / 4 : ℝ) / (2 * sigma ^ 2) ≤ 1 / 2 := by
        rw [div_le_iff₀ (by positivity)]
        nlinarith
      linarith
    have k1 := key (w / 2) (by rw [hw2]; ring)
    have k2 := key (w / 2 - 1) (by
      rw [Nat.cast_sub (by omega), hw2]; push_cast; ring)
    linarith
  · have hm : bell sigma w (w / 2) = 1 := by
      unfold bell
      have hw2 : (w : ℝ) = 2 * ((w / 2 : Nat) : ℝ) + 1 := by exact_mod_cast (by omega : w = 2 * (w / 2) + 1)
      rw [hw2, show ((w / 2 : Nat) : ℝ) - (2 * ((w / 2 : Nat) : ℝ) + 1 - 1) / 2 = 0 by ring]
      simp
    rw [← hm]
    exact Finset.single_le_sum (f := bell sigma w) (fun i _ => (bell_pos sigma w i).le) (Finset.mem_range.mpr (by omega))

theorem dist_cases {w i : Nat} : ((i : ℝ) - ((w : ℝ) - 1) / 2) = 0 ∨ 1 / 4 ≤ ((i : ℝ) - ((w : ℝ) - 1) / 2) ^ 2 := by
  have e : ((i : ℝ) - ((w : ℝ) - 1) / 2) = ((2 * (i : Int) - w + 1 : Int) : ℝ) / 2 := by push_cast; ring
  rw [e]
  by_cases h0 : (2 * (i : Int) - w + 1 : Int) = 0
  · left; rw [h0]; simp
  · right
    have h1 : (1 : Int) ≤ |2 * (i : Int) - w + 1| := Int.one_le_abs h0
    generalize 2 * (i : Int) - w + 1 = z at *
    have h2 : (1 : ℝ) ≤ |(z : ℝ)| := by rw [← Int.cast_abs]; exact_mod_cast h1
    have h3 := mul_self_le_mul_self (by norm_num) h2
    rw [abs_mul_abs_self] at h3
    linarith [show ((z : ℝ) / 2) ^ 2 = (z : ℝ) * z / 4 by ring]

theorem dist_le {w i : Nat} (hi : i < w) : 4 * ((i : ℝ) - ((w : ℝ) - 1) / 2) ^ 2 ≤ (w : ℝ) ^ 2 := by
  have h1 : (i : ℝ) + 1 ≤ w := by exact_mod_cast hi
  have h0 : (0 : ℝ) ≤ i := Nat.cast_nonneg i
  nlinarith

/-- The whole kernel. -/
theorem gauss_near {rnd rndE : ℝ → Option ℝ} {ex : ℝ → ℝ} {u η big c sigma : ℝ} {w : Nat} (F : GaussFits rnd rndE ex u η big c sigma w)
    (hs : 0 < sigma) (hc : 0 < c) (hw : 0 < w) (hP : w % 2 = 1 ∨ 1 / 2 ≤ sigma) :
    ∃ (p : Nat → ℝ) (S : ℝ) (k : Nat → ℝ), (∀ i, i < w → sampleO rnd rndE ex c sigma w i = some (p i)) ∧
      foldO w (0 : ℝ) (fun i t => rndE (t + p i)) = some S ∧ S ≠ 0 ∧ (∀ i, i < w → rndE (p i / S) = some (k i)) ∧
      ∀ i, i < w → |k i - gaussCoef sigma w i| ≤ 24 * (1 + w * gaussCoef sigma w i) * u := by
  have R := F.rounds
  have RE := F.roundsE
  have hu := R.rel
  have hη := R.abs
  have hw1 : (1 : ℝ) ≤ w := by exact_mod_cast hw
  have fine := F.fine
  have hwu : 0 ≤ (w : ℝ) * u := mul_nonneg (by linarith) hu
  have hu1 : 100 * u ≤ 1 := by linarith
  have hD : 0 < sigma * c := mul_pos hs hc
  have h1 : ∀ i, ∃ p, i < w → sampleO rnd rndE ex c sigma w i = some p ∧ |p - bell sigma w i / (sigma * c)| ≤ 16 * u / (sigma * c) := by
    intro i
    by_cases hi : i < w
    · have hd := dist_le hi
      have hbs : (w : ℝ) ^ 2 ≤ big * sigma ^ 2 := F.range4
      have hsq : (0 : ℝ) ≤ (w : ℝ) ^ 2 := sq_nonneg _
      have hr5 := F.range5
      obtain ⟨f, p, e1, e2, h⟩ := sample_near R RE F.exp hs hc hu1 F.tiny F.tiny1 F.tiny2 F.tiny3 F.tiny4 (F.distances i hi) dist_cases
        (by linarith [F.range]) F.range1 F.range2 F.range3 (by linarith [sq_nonneg ((i : ℝ) - ((w : ℝ) - 1) / 2)]) (by linarith)
      refine ⟨p, fun _ => ⟨?_, h⟩⟩
      unfold sampleO
      rw [show fromMiddle ℝ w i = (i : ℝ) - ((w : ℝ) - 1) / 2 from rfl, F.distances i hi, Option.bind_some, e1, Option.bind_some, e2]
    · exact ⟨0, fun q => absurd q hi⟩
  choose p hp using h1
  have hPs := bell_sum hs hw hP
  have hi : 0 < 1 / (sigma * c) := by positivity
  have hr5 : 4 * (w : ℝ) * (1 / (sigma * c)) ≤ big := by
    rw [mul_one_div, div_le_iff₀ hD]; exact F.range5
  have hηD : 4 * η ≤ u * (1 / (sigma * c)) := by
    rw [mul_one_div, le_div_iff₀ hD]; linarith [F.tiny4]
  have hsum : ∀ k, k ≤ w → |sumF k p - sumF k (bell sigma w) * (1 / (sigma * c))| ≤ k * (16 * (u * (1 / (sigma * c)))) := by
    intro k
    induction k with
    | zero => intro _; simp [sumF]
    | succ k ih =>
      intro hk
      have h2 := ih (by omega)
      have h3 := (hp k (by omega)).2
      have h4 := abs_add_le (sumF k p - sumF k (bell sigma w) * (1 / (sigma * c))) (p k - bell sigma w k / (sigma * c))
      show |sumF k p + p k - (sumF k (bell sigma w) + bell sigma w k) * (1 / (sigma * c))| ≤ _
      rw [show sumF k p + p k - (sumF k (bell sigma w) + bell sigma w k) * (1 / (sigma * c)) =
        (sumF k p - sumF k (bell sigma w) * (1 / (sigma * c))) + (p k - bell sigma w k / (sigma * c)) by ring]
      rw [show 16 * u / (sigma * c) = 16 * (u * (1 / (sigma * c))) by ring] at h3
      push_cast
      linarith
  have hbs : ∀ k, k ≤ w → 0 ≤ sumF k (bell sigma w) ∧ sumF k (bell sigma w) ≤ sumF w (bell sigma w) := by
    intro k hk
    rw [sumF_eq, sumF_eq]
    exact ⟨Finset.sum_nonneg (fun i _ => (bell_pos sigma w i).le),
      Finset.sum_le_sum_of_subset_of_nonneg (Finset.range_mono hk) (fun i _ _ => (bell_pos sigma w i).le)⟩
  have hPw : sumF w (bell sigma w) ≤ w := by
    rw [sumF_eq]
    have := Finset.sum_le_card_nsmul (Finset.range w) (bell sigma w) 1 (fun i _ => bell_le_one sigma w i)
    simpa using this
  have hI0 : 0 ≤ u * (1 / (sigma * c)) := mul_nonneg hu hi.le
  have hA : ∀ k, k ≤ w → |sumF k p| ≤ 29 / 25 * (sumF w (bell sigma w) * (1 / (sigma * c))) := by
    intro k hk
    have h2 := hsum k hk
    obtain ⟨h3, h4⟩ := hbs k hk
    have hkw : (k : ℝ) ≤ w := by exact_mod_cast hk
    have h5 : (k : ℝ) * (16 * (u * (1 / (sigma * c)))) ≤ 4 / 25 * (1 / (sigma * c)) := by
      have h6 : (k : ℝ) * (16 * (u * (1 / (sigma * c)))) ≤ w * (16 * (u * (1 / (sigma * c)))) := mul_le_mul_of_nonneg_right hkw (by linarith)
      have h7 : (w * u) * (1 / (sigma * c)) ≤ 1 / 100 * (1 / (sigma * c)) := mul_le_mul_of_nonneg_right (by linarith) hi.le
      linarith
    have h8 : 1 * (1 / (sigma * c)) ≤ sumF w (bell sigma w) * (1 / (sigma * c)) := mul_le_mul_of_nonneg_right hPs hi.le
    have h9 := mul_le_mul_of_nonneg_right h4 hi.le
    have h10 := mul_nonneg h3 hi.le
    have h11 := abs_le.mp h2
    rw [abs_le]
    constructor <;> linarith
  have hA0 : 0 ≤ 29 / 25 * (sumF w (bell sigma w) * (1 / (sigma * c))) := le_trans (abs_nonneg _) (hA 0 (by omega))
  obtain ⟨he0, he⟩ := C84_simple (n := w) (m := w) hu hη hA0 (by linarith)
  have hPI : 1 / (sigma * c) ≤ sumF w (bell sigma w) * (1 / (sigma * c)) := by
    have := mul_le_mul_of_nonneg_right hPs hi.le
    linarith
  have hPI2 : sumF w (bell sigma w) * (1 / (sigma * c)) ≤ w * (1 / (sigma * c)) := mul_le_mul_of_nonneg_right hPw hi.le
  have hwη : (w : ℝ) * (4 * η) ≤ w * (u * (1 / (sigma * c))) := mul_le_mul_of_nonneg_left hηD (by linarith)
  have hwuI : (w * u) * (1 / (sigma * c)) ≤ (w * u) * (sumF w (bell sigma w) * (1 / (sigma * c))) := mul_le_mul_of_nonneg_left hPI hwu
  have hwuP : (w * u) * (sumF w (bell sigma w) * (1 / (sigma * c))) ≤ 1 / 100 * (sumF w (bell sigma w) * (1 / (sigma * c))) :=
    mul_le_mul_of_nonneg_right (by linarith) (le_trans hi.le hPI)
  have he' : roundError u η w w (29 / 25 * (sumF w (bell sigma w) * (1 / (sigma * c)))) ≤ 3 * ((w * u) * (sumF w (bell sigma w) * (1 / (sigma * c)))) := by
    linarith
  have hgr : grown u η w w (29 / 25 * (sumF w (bell sigma w) * (1 / (sigma * c)))) ≤ big := by
    have e : grown u η w w (29 / 25 * (sumF w (bell sigma w) * (1 / (sigma * c)))) =
      roundError u η w w (29 / 25 * (sumF w (bell sigma w) * (1 / (sigma * c)))) + 29 / 25 * (sumF w (bell sigma w) * (1 / (sigma * c))) := by
      unfold roundError; ring
    rw [e]
    linarith
  obtain ⟨S, eS, hS⟩ := foldO_sums RE hA hgr
  have hS2 := Within.error hS
  have hS3 : |S - sumF w (bell sigma w) / (sigma * c)| ≤ 19 * w * u * sumF w (bell sigma w) / (sigma * c) := by
    have h2 := hsum w (le_refl _)
    have h4 := abs_add_le (S - sumF w p) (sumF w p - sumF w (bell sigma w) * (1 / (sigma * c)))
    rw [sub_add_sub_cancel] at h4
    rw [show 19 * w * u * sumF w (bell sigma w) / (sigma * c) = 19 * ((w * u) * (sumF w (bell sigma w) * (1 / (sigma * c)))) by ring,
      show sumF w (bell sigma w) / (sigma * c) = sumF w (bell sigma w) * (1 / (sigma * c)) by ring]
    linarith
  have hco : ∀ i, i < w → 0 < S ∧ |p i / S - gaussCoef sigma w i| ≤ (20 + 24 * w * gaussCoef sigma w i) * u := fun i hi' =>
    coef_near hD hu (by linarith) fine hPs (bell_pos sigma w i).le (hp i hi').2 hS3
  have hG0 : ∀ i, 0 ≤ gaussCoef sigma w i := fun i => div_nonneg (bell_pos sigma w i).le (by linarith)
  have hG1 : ∀ i, i < w → gaussCoef sigma w i ≤ 1 := by
    intro i hi'
    unfold gaussCoef
    rw [div_le_one (by linarith), sumF_eq]
    exact Finset.single_le_sum (f := bell sigma w) (fun i _ => (bell_pos sigma w i).le) (Finset.mem_range.mpr hi')
  have h2 : ∀ i, ∃ k, i < w → rndE (p i / S) = some k ∧ |k - gaussCoef sigma w i| ≤ 24 * (1 + w * gaussCoef sigma w i) * u := by
    intro i
    by_cases hi' : i < w
    · have h3 := (hco i hi').2
      have g0 := hG0 i
      have g1 := hG1 i hi'
      generalize gaussCoef sigma w i = g at *
      have hwg : w * u * g ≤ w * u * 1 := mul_le_mul_of_nonneg_left g1 hwu
      have hE : (20 + 24 * w * g) * u ≤ 11 / 25 := by linarith
      have hbig : 4 * (w : ℝ) ^ 2 ≤ big := F.range
      have hw2 : (1 : ℝ) ≤ (w : ℝ) ^ 2 := one_le_pow₀ hw1
      obtain ⟨k, e, h⟩ := RE.step (x := g) (A := g) (by rw [abs_of_nonneg g0]) h3 (by linarith)
      refine ⟨k, fun _ => ⟨e, le_trans h ?_⟩⟩
      have : u * (g + (20 + 24 * w * g) * u) ≤ u * (1 + 11 / 25) := mul_le_mul_of_nonneg_left (by linarith) hu
      have h10 := F.tiny
      linarith
    · exact ⟨0, fun q => absurd q hi'⟩
  choose k hk using h2
  exact ⟨p, S, k, fun i hi' => (hp i hi').1, eS, ne_of_gt (hco 0 hw).1, fun i hi' => (hk i hi').1, fun i hi' => (hk i hi').2⟩

end Boof
