import Verif.Proofs.GaussError
/-
C106: Gaussian kernels with rounded floating point arithmetic.
-/
namespace Boof
open M
variable {V : Type}

section
variable {K : Type} [Field K] [LinearOrder K] [IsStrictOrderedRing K] [FloorRing K]

/-- Whatever the format and however inaccurate the exponential function, as long as it is not negative and does not decrease below zero: a kernel
returned by `gaussian1D` with rounding is exactly symmetric, its coefficients are between 0 and 1 and do not increase away from the
middle. -/
theorem C106_shape {rnd rndE : K → Option K} (F : Format rnd) (FE : Format rndE) {E : GrowArray.Elem K} (hz : E.ms E.zero = E.zero) {ex : K → K}
    (hex : ∀ x, 0 ≤ ex x) (hmono : ∀ x y, x ≤ y → y ≤ 0 → ex x ≤ ex y) {c0 sigma : K} (hc0 : 0 < c0) (hs : 0 < sigma) {w : Nat} (hw : 0 < w)
    (hw2 : w < 2147483648) {h h' : Heap V} {k : Kernel K} (e : FactoryKernel.gaussian1DR rnd rndE E ex c0 sigma w h = .ok k h') :
    h' = h ∧ ∃ c, k.Is1D w (w / 2) c ∧ (∀ i, i < w → 0 ≤ c i ∧ c i ≤ 1) ∧ (∀ i, i < w → c (w - 1 - i) = c i) ∧
      ∀ i j, i < w → j < w → |2 * (i : Int) + 1 - w| ≤ |2 * (j : Int) + 1 - w| → c j ≤ c i := by
  rw [gaussCore_both rnd rndE E ex c0 hs hw h] at e
  obtain ⟨p, S, c, hp, eS, hS, hc, eh, hk⟩ := gaussCore_inv hz hw hw2 e
  have hp0 : ∀ i, i < w → 0 ≤ p i := fun i hi => sampleO_nonneg F FE hc0 hs hex (hp i hi)
  have hfix : ∀ i, i < w → rndE (p i) = some (p i) := by
    intro i hi
    have := hp i hi
    unfold sampleO at this
    obtain ⟨s, -, this⟩ := Option.bind_eq_some_iff.mp this
    obtain ⟨v, -, this⟩ := Option.bind_eq_some_iff.mp this
    exact FE.fixed _ _ this
  obtain ⟨hS0, -, hSp⟩ := foldO_ge FE hp0 hfix eS
  have hSpos : 0 < S := lt_of_le_of_ne hS0 (Ne.symm hS)
  have hmid : ∀ i, fromMiddle K w i = ((2 * (i : Int) + 1 - w : Int) : K) / 2 := by
    intro i; unfold fromMiddle; push_cast; ring
  refine ⟨eh, c, hk, fun i hi => ⟨FE.nonneg (div_nonneg (hp0 i hi) hS0) (hc i hi), FE.le_one ?_ (hc i hi)⟩, fun i hi => ?_, fun i j hi hj hij => ?_⟩
  · rw [div_le_one hSpos]; exact hSp i hi
  · have h1 := hp (w - 1 - i) (by omega)
    rw [sampleO_symm F hi, hp i hi] at h1
    have h2 := hc (w - 1 - i) (by omega)
    rw [← Option.some.inj h1, hc i hi] at h2
    exact (Option.some.inj h2).symm
  · refine FE.mono _ _ _ _ (div_le_div_of_nonneg_right ?_ hS0) (hc j hj) (hc i hi)
    refine sampleO_anti F FE hc0 hs hmono ?_ (hp i hi) (hp j hj)
    rw [hmid, hmid, abs_div, abs_div]
    refine div_le_div_of_nonneg_right ?_ (abs_nonneg _)
    rw [← Int.cast_abs, ← Int.cast_abs]
    exact_mod_cast hij

/-- If no width is given it is `2*r+1`, where `r` is the radius chosen for sigma (C105). -/
theorem C106_width (rnd rndE : K → Option K) (E : GrowArray.Elem K) (ex : K → K) (c0 : K) {sigma : K} (hs : 0 < sigma) {width : Int} (hw : width ≤ 0)
    {h : Heap V} {r : Int} (er : FactoryKernel.radiusForSigmaR rnd sigma 0 h = .ok r h) (hr0 : 0 ≤ r) (hr : 2 * r + 1 < 2147483648) :
    FactoryKernel.gaussian1DR rnd rndE E ex c0 sigma width h = FactoryKernel.gaussian1DR rnd rndE E ex c0 sigma (2 * r + 1) h := by
  obtain ⟨m, rfl⟩ := Int.eq_ofNat_of_zero_le hr0
  have e2 : (do
      let r ← FactoryKernel.radiusForSigmaR rnd sigma 0
      let w2 ← S32.arith (r * 2)
      let w ← S32.arith (w2 + 1)
      pure (sigma, w) : M V (K × Int)) h = .ok (sigma, 2 * (m : Int) + 1) h := by
    refine (M.bind_ok er).trans ?_
    refine (M.bind_ok (show (S32.arith ((m : Int) * 2) : M V Int) h = .ok ((m : Int) * 2) h from ?_)).trans ?_
    · exact IntTy.arith_run (by decide) ⟨by show -2147483648 ≤ (m : Int) * 2; omega, by show (m : Int) * 2 ≤ 2147483647; omega⟩ h
    refine (M.bind_ok (show (S32.arith ((m : Int) * 2 + 1) : M V Int) h = .ok ((m : Int) * 2 + 1) h from ?_)).trans ?_
    · exact IntTy.arith_run (by decide) ⟨by show -2147483648 ≤ (m : Int) * 2 + 1; omega, by show (m : Int) * 2 + 1 ≤ 2147483647; omega⟩ h
    show Res.ok (sigma, (m : Int) * 2 + 1) h = _
    congr 2
    omega
  have := gaussCore_both (V := V) rnd rndE E ex c0 hs (w := 2 * m + 1) (by omega) h
  push_cast at this
  rw [this]
  unfold FactoryKernel.gaussian1DR
  rw [if_pos hw, M.bind_ok e2]
  unfold gaussCore
  push_cast
  rfl

/-- If no sigma is given it is the one chosen for the radius `width/2` (C105). -/
theorem C106_sigma (rnd rndE : K → Option K) (E : GrowArray.Elem K) (ex : K → K) (c0 : K) {sigma s : K} (hs : sigma ≤ 0) (hs' : 0 < s) {w : Nat}
    (hw : 0 < w) {h : Heap V} (er : FactoryKernel.sigmaForRadiusR rnd (((w / 2 : Nat) : Int) : K) 0 h = .ok s h) :
    FactoryKernel.gaussian1DR rnd rndE E ex c0 sigma w h = FactoryKernel.gaussian1DR rnd rndE E ex c0 s w h := by
  rw [gaussCore_both (V := V) rnd rndE E ex c0 hs' hw h]
  unfold FactoryKernel.gaussian1DR
  have e1 : (w : Int).tdiv 2 = ((w / 2 : Nat) : Int) := by
    rw [Int.tdiv_eq_ediv_of_nonneg (by omega)]; rfl
  have e2 : (do
      let s ← FactoryKernel.sigmaForRadiusR rnd ((((w : Int).tdiv 2 : Int)) : K) 0
      pure (s, (w : Int)) : M V (K × Int)) h = .ok (s, (w : Int)) h := by
    rw [e1]
    exact (M.bind_ok er).trans rfl
  rw [if_neg (by omega), if_pos hs, M.bind_ok e2]
  rfl

/-- In `double`, the sigma chosen for radius `r` with the width left open gives a kernel of width `2*r+1`. -/
theorem C106_radius (E : GrowArray.Elem K) (ex : K → K) (c0 : K) {r : Int} (hr : 0 < r) (hr2 : 2 * r + 1 < 2147483648) (h : Heap V) :
    ∃ s : K, 0 < s ∧ FactoryKernel.sigmaForRadiusR float64 (r : K) 0 h = .ok s h ∧
      FactoryKernel.gaussian1DR float64 float64 E ex c0 s 0 h = FactoryKernel.gaussian1DR float64 float64 E ex c0 s (2 * r + 1) h := by
  have e := C105_inverse (K := K) hr (by omega) h
  obtain ⟨s, h1, e1, e2⟩ := bindInv e
  have hs : 0 < s := by
    by_contra hs
    rw [(C105_throws float64 (not_lt.mp hs) 0 h1).2] at e2
    cases e2
  have hh : h1 = h := by
    have hrK : (0 : K) < (r : K) := by exact_mod_cast hr
    have hr1 : (r : K) ≤ 2 ^ 31 := by exact_mod_cast (by omega : r ≤ 2147483648)
    have hbig : (2 : K) ^ 40 ≤ 2 ^ 1023 := pow_le_pow_right₀ (by norm_num) (by norm_num)
    obtain ⟨s', e', -⟩ := C105_sigma (float64_rounds (K := K)) (by norm_num) (one_div_le_one_div_of_le (by positivity) (pow_le_pow_right₀ (by norm_num) (by norm_num)))
      hrK (order := 0) (le_refl 0) (by
        have h1 : (1 : K) / 2 ^ 1075 ≤ 1 / 2 ^ 56 := one_div_le_one_div_of_le (by positivity) (pow_le_pow_right₀ (by norm_num) (by norm_num))
        have h2 : (1 : K) / 2 ^ 56 * 5 ≤ 1 / 2 ^ 53 := by norm_num
        refine le_trans (le_of_eq_of_le ?_ (mul_le_mul_of_nonneg_right h1 (by norm_num : (0 : K) ≤ 5))) h2
        push_cast; ring) (le_trans (by push_cast; norm_num) hbig) (le_trans (by linarith) hbig) h
    rw [e1] at e'
    injection e'
  subst hh
  exact ⟨s, hs, e1, C106_width _ _ E ex c0 hs (le_refl 0) e2 hr.le hr2⟩

end

/-- `gaussian1D` with rounding returns a kernel each of whose coefficients is that of the Gaussian, up to `24*(1+w*G)` roundings where `G` is
the coefficient itself. -/
theorem C106_accuracy {rnd rndE : ℝ → Option ℝ} {E : GrowArray.Elem ℝ} (hz : E.ms E.zero = E.zero) {ex : ℝ → ℝ} {u η big c0 sigma : ℝ} {w : Nat}
    (F : GaussFits rnd rndE ex u η big c0 sigma w) (hc0 : 0 < c0) (hs : 0 < sigma) (hw : 0 < w) (hw2 : w < 2147483648)
    (hP : w % 2 = 1 ∨ 1 / 2 ≤ sigma) (h : Heap V) :
    ∃ k c, FactoryKernel.gaussian1DR rnd rndE E ex c0 sigma w h = .ok k h ∧ k.Is1D w (w / 2) c ∧
      ∀ i, i < w → |c i - gaussCoef sigma w i| ≤ 24 * (1 + w * gaussCoef sigma w i) * u := by
  obtain ⟨p, S, c, hp, eS, hS, hc, hcl⟩ := gauss_near F hs hc0 hw hP
  obtain ⟨k, e, hk⟩ := gaussCore_run (V := V) (E := E) hz hw hw2 h hp eS hS hc
  exact ⟨k, c, (gaussCore_both rnd rndE E ex c0 hs hw h).trans e, hk, hcl⟩

/-- The Gaussian kernel of the specification is the one `gaussian1D` returns with exact arithmetic (C45). -/
theorem C106_exact {sigma : ℝ} {w : Nat} (hw : 0 < w) {c : Nat → ℝ} (hg : IsGaussian Real.exp sigma w c) :
    ∀ i, i < w → c i = gaussCoef sigma w i := by
  have hb : ∀ i, Real.exp (-(fromMiddle ℝ w i * fromMiddle ℝ w i) / (2 * sigma * sigma)) = bell sigma w i := by
    intro i
    unfold bell fromMiddle
    congr 1
    ring
  intro i hi
  have h1 : ∀ j, j < w → c i * bell sigma w j = bell sigma w i * c j := by
    intro j hj
    have := hg.ratio i j hi hj
    rw [hb, hb] at this
    rw [this, mul_comm]
  have h2 : c i * sumF w (bell sigma w) = bell sigma w i := by
    rw [← sumF_mul, sumF_congr h1, sumF_mul, hg.sum, mul_one]
  unfold gaussCoef
  rw [eq_div_iff (ne_of_gt (sumF_pos hw (fun j _ => bell_pos sigma w j)))]
  exact h2

/-- The coefficients of the specification sum to one. -/
theorem gaussCoef_sum {sigma : ℝ} {w : Nat} (hw : 0 < w) : sumF w (gaussCoef sigma w) = 1 := by
  have : sumF w (gaussCoef sigma w) = sumF w (bell sigma w) / sumF w (bell sigma w) := sumF_div w (bell sigma w) _
  rw [this, div_self (ne_of_gt (sumF_pos hw (fun j _ => bell_pos sigma w j)))]

/-- Hence the coefficients sum to one up to `48*w` roundings. -/
theorem C106_sum {sigma u : ℝ} {w : Nat} (hw : 0 < w) {c : Nat → ℝ}
    (hc : ∀ i, i < w → |c i - gaussCoef sigma w i| ≤ 24 * (1 + w * gaussCoef sigma w i) * u) : |sumF w c - 1| ≤ 48 * w * u := by
  have key : ∀ k, k ≤ w → |sumF k c - sumF k (gaussCoef sigma w)| ≤ 24 * (k + w * sumF k (gaussCoef sigma w)) * u := by
    intro k
    induction k with
    | zero => intro _; simp [sumF]
    | succ k ih =>
      intro hk
      have h1 := ih (by omega)
      have h2 := hc k (by omega)
      have h3 := abs_add_le (sumF k c - sumF k (gaussCoef sigma w)) (c k - gaussCoef sigma w k)
      show |sumF k c + c k - (sumF k (gaussCoef sigma w) + gaussCoef sigma w k)| ≤ 24 * (((k + 1 : Nat) : ℝ) + w * (sumF k (gaussCoef sigma w) + gaussCoef sigma w k)) * u
      rw [add_sub_add_comm]
      push_cast
      linarith
  have := key w (le_refl _)
  rw [gaussCoef_sum hw] at this
  linarith

/-! ### float and double -/

/-- Numbers of the format `double` are not changed. -/
theorem float64_same {m e : Int} (hm : |m| < 2 ^ 53) (he : -1074 ≤ e) (he2 : e ≤ 970) : float64 ((m : ℝ) * (2 : ℝ) ^ e) = some ((m : ℝ) * (2 : ℝ) ^ e) := by
  have hmr : |(m : ℝ)| ≤ 2 ^ 53 := by
    rw [← Int.cast_abs]; exact_mod_cast hm.le
  obtain ⟨y, ey, -⟩ := (float64_rounds (K := ℝ)).near ((m : ℝ) * (2 : ℝ) ^ e) (by
    rw [abs_mul, abs_of_pos (by positivity : (0 : ℝ) < 2 ^ e)]
    refine le_trans (mul_le_mul hmr (zpow_le_zpow_right₀ (by norm_num : (1 : ℝ) ≤ 2) he2) (by positivity) (by positivity)) (le_of_eq ?_)
    rw [show (970 : Int) = ((970 : Nat) : Int) from rfl, zpow_natCast, ← pow_add])
  have h := (C84_float64.1 _ y ey).2 _ ⟨m, e, hm, he, rfl⟩
  rw [sub_self, abs_zero] at h
  rw [ey, sub_eq_zero.mp (abs_eq_zero.mp (le_antisymm h (abs_nonneg _)))]

/-- Half integers below `2^52` are numbers of the format `double`. -/
theorem float64_half {z : Int} (hz : |z| < 2 ^ 53) : float64 ((z : ℝ) / 2) = some ((z : ℝ) / 2) := by
  have := float64_same hz (e := -1) (by norm_num) (by norm_num)
  rwa [zpow_neg_one, ← div_eq_mul_inv] at this

theorem float64_distance {w i : Nat} (hi : i < w) (hw : w < 2 ^ 53) :
    float64 ((i : ℝ) - ((w : ℝ) - 1) / 2) = some ((i : ℝ) - ((w : ℝ) - 1) / 2) := by
  rw [show (i : ℝ) - ((w : ℝ) - 1) / 2 = ((2 * (i : Int) + 1 - w : Int) : ℝ) / 2 by push_cast; ring]
  exact float64_half (abs_lt.mpr ⟨by omega, by omega⟩)

/-- A rounding may be described more coarsely. -/
theorem Rounds.coarser {K : Type} [Field K] [LinearOrder K] [IsStrictOrderedRing K] {rnd : K → Option K} {u η big u' η' big' : K} (R : Rounds rnd u η big) (hu : u ≤ u') (hη : η ≤ η') (hb : big' ≤ big) : Rounds rnd u' η' big' := by
  refine ⟨le_trans R.rel hu, le_trans R.abs hη, fun x hx => ?_⟩
  obtain ⟨y, e, h⟩ := R.near x (le_trans hx hb)
  have := mul_le_mul_of_nonneg_right hu (abs_nonneg x)
  exact ⟨y, e, by linarith⟩

/-- `float` kernels: the formats are fine enough for every width up to 100000 and every sigma between 1/1000 and 1000000, if the exponential
function is accurate to `float`. -/
theorem C106_float {ex : ℝ → ℝ} (hex : ∀ x, x ≤ 1 → |ex x - Real.exp x| ≤ 2 * (1 / 2 ^ 24) * Real.exp x + 1 / 2 ^ 150) {c0 sigma : ℝ} (hc : 2 ≤ c0)
    (hc3 : c0 ≤ 3) (hs : 1 / 1000 ≤ sigma) (hs2 : sigma ≤ 1000000) {w : Nat} (hw : w ≤ 100000) :
    GaussFits float64 float32 ex (1 / 2 ^ 24) (1 / 2 ^ 150) (2 ^ 127) c0 sigma w := by
  have hwr : (w : ℝ) ≤ 100000 := by exact_mod_cast hw
  have hw0 : (0 : ℝ) ≤ w := Nat.cast_nonneg w
  have hww : (w : ℝ) ^ 2 ≤ 100000 ^ 2 := pow_le_pow_left₀ hw0 hwr 2
  have hss : (1 / 1000 : ℝ) ^ 2 ≤ sigma ^ 2 := pow_le_pow_left₀ (by norm_num) hs 2
  have hss2 : sigma ^ 2 ≤ 1000000 ^ 2 := pow_le_pow_left₀ (by linarith) hs2 2
  have hsc : (1 / 1000 : ℝ) * 2 ≤ sigma * c0 := mul_le_mul hs hc (by norm_num) (by linarith)
  have hsc2 : sigma * c0 ≤ 1000000 * 3 := mul_le_mul hs2 hc3 (by linarith) (by norm_num)
  refine ⟨float64_rounds.coarser (by norm_num) (one_div_le_one_div_of_le (by positivity) (pow_le_pow_right₀ (by norm_num) (by norm_num)))
    (pow_le_pow_right₀ (by norm_num) (by norm_num)), float32_rounds, hex, fun i hi => float64_distance hi (by omega), ?_, ?_, ?_, ?_, ?_, ?_, ?_, ?_, ?_, ?_, ?_, ?_⟩
  · linarith
  · norm_num
  · linarith
  · linarith
  · linarith
  · linarith
  · linarith
  · linarith
  · linarith
  · linarith
  · linarith
  · linarith

/-- `double` kernels, likewise. -/
theorem C106_double {ex : ℝ → ℝ} (hex : ∀ x, x ≤ 1 → |ex x - Real.exp x| ≤ 2 * (1 / 2 ^ 53) * Real.exp x + 1 / 2 ^ 1075) {c0 sigma : ℝ} (hc : 2 ≤ c0)
    (hc3 : c0 ≤ 3) (hs : 1 / 1000 ≤ sigma) (hs2 : sigma ≤ 1000000) {w : Nat} (hw : w ≤ 100000) :
    GaussFits float64 float64 ex (1 / 2 ^ 53) (1 / 2 ^ 1075) (2 ^ 1023) c0 sigma w := by
  have hwr : (w : ℝ) ≤ 100000 := by exact_mod_cast hw
  have hw0 : (0 : ℝ) ≤ w := Nat.cast_nonneg w
  have hww : (w : ℝ) ^ 2 ≤ 100000 ^ 2 := pow_le_pow_left₀ hw0 hwr 2
  have hss : (1 / 1000 : ℝ) ^ 2 ≤ sigma ^ 2 := pow_le_pow_left₀ (by norm_num) hs 2
  have hss2 : sigma ^ 2 ≤ 1000000 ^ 2 := pow_le_pow_left₀ (by linarith) hs2 2
  have hsc : (1 / 1000 : ℝ) * 2 ≤ sigma * c0 := mul_le_mul hs hc (by norm_num) (by linarith)
  have hsc2 : sigma * c0 ≤ 1000000 * 3 := mul_le_mul hs2 hc3 (by linarith) (by norm_num)
  have hη : (1 : ℝ) / 2 ^ 1075 ≤ 1 / 2 ^ 150 := one_div_le_one_div_of_le (by positivity) (pow_le_pow_right₀ (by norm_num) (by norm_num))
  have hη0 : (0 : ℝ) ≤ 1 / 2 ^ 1075 := by positivity
  have hb : (2 : ℝ) ^ 127 ≤ 2 ^ 1023 := pow_le_pow_right₀ (by norm_num) (by norm_num)
  refine ⟨float64_rounds, float64_rounds, hex, fun i hi => float64_distance hi (by omega), ?_, ?_, ?_, ?_, ?_, ?_, ?_, ?_, ?_, ?_, ?_, ?_⟩
  all_goals generalize (1 : ℝ) / 2 ^ 1075 = η at hη hη0 ⊢
  all_goals generalize (2 : ℝ) ^ 1023 = big at hb ⊢
  · linarith
  · linarith
  · linarith
  · linarith
  · linarith
  · have := mul_le_mul hη hsc2 (by linarith) (by norm_num)
    linarith
  · linarith
  · linarith
  · linarith
  · linarith
  · have := mul_le_mul hb hss (by norm_num) (by linarith)
    linarith
  · have := mul_le_mul hb hsc (by norm_num) (by linarith)
    linarith

/-- An exponential function as good as `double` allows: the exact value, rounded. -/
noncomputable def expRounded (x : ℝ) : ℝ := (float64 (Real.exp x)).getD 0

theorem expRounded_near {x : ℝ} (hx : x ≤ 1) : |expRounded x - Real.exp x| ≤ 2 * (1 / 2 ^ 53) * Real.exp x + 1 / 2 ^ 1075 := by
  have h0 := (Real.exp_pos x).le
  have h3 : Real.exp x ≤ 2 ^ 1023 := by
    have h1 : Real.exp x ≤ Real.exp 1 := Real.exp_le_exp.mpr hx
    have h2 := Real.exp_one_lt_d9
    have hb : (2 : ℝ) ^ 2 ≤ 2 ^ 1023 := pow_le_pow_right₀ (by norm_num) (by norm_num)
    exact le_trans (by linarith) hb
  obtain ⟨y, e, h⟩ := (float64_rounds (K := ℝ)).near (Real.exp x) (by rw [abs_of_nonneg h0]; exact h3)
  unfold expRounded
  rw [e, Option.getD_some]
  rw [abs_of_nonneg h0] at h
  refine le_trans h ?_
  generalize (1 : ℝ) / 2 ^ 1075 = η
  have := mul_nonneg (show (0 : ℝ) ≤ 1 / 2 ^ 53 by positivity) h0
  linarith

/-- A kernel of width 5 and sigma 3/2 in `double`: each coefficient has an error of at most `144/2^53`. -/
example (h : Heap V) : ∃ k c, FactoryKernel.gaussian1DR float64 float64 (⟨id, 8, 0, fun _ => 7⟩ : GrowArray.Elem ℝ) expRounded 2.5066282746310 (3/2) (5 : Nat) h = .ok k h ∧
    k.Is1D 5 2 c ∧ ∀ i, i < 5 → |c i - gaussCoef (3/2) 5 i| ≤ 24 * (1 + (5 : Nat) * gaussCoef (3/2) 5 i) * (1 / 2 ^ 53) :=
  C106_accuracy rfl (C106_double (fun _ hx => expRounded_near hx) (by norm_num) (by norm_num) (by norm_num) (by norm_num) (by decide)) (by norm_num) (by norm_num)
    (by decide) (by decide) (Or.inl (by decide)) h

theorem expRounded_nonneg (x : ℝ) : 0 ≤ expRounded x := by
  unfold expRounded
  rcases e : float64 (Real.exp x) with _ | y
  · exact le_refl _
  · exact float64_format.nonneg (Real.exp_pos x).le e

theorem expRounded_mono {x y : ℝ} (hxy : x ≤ y) (hy : y ≤ 0) : expRounded x ≤ expRounded y := by
  have key : ∀ z : ℝ, z ≤ 0 → ∃ a, float64 (Real.exp z) = some a := by
    intro z hz
    obtain ⟨a, e, -⟩ := (float64_rounds (K := ℝ)).near (Real.exp z) (by
      rw [abs_of_pos (Real.exp_pos z)]
      exact le_trans (Real.exp_le_one_iff.mpr hz) (one_le_pow₀ (by norm_num)))
    exact ⟨a, e⟩
  obtain ⟨a, ea⟩ := key x (by linarith)
  obtain ⟨b, eb⟩ := key y hy
  unfold expRounded
  rw [ea, eb]
  exact float64_format.mono _ _ _ _ (Real.exp_le_exp.mpr hxy) ea eb

/-- The same kernel is symmetric, largest in its middle, and so on. -/
example (h : Heap V) : ∃ k c, FactoryKernel.gaussian1DR float64 float64 (⟨id, 8, 0, fun _ => 7⟩ : GrowArray.Elem ℝ) expRounded 2.5066282746310 (3/2) (5 : Nat) h = .ok k h ∧
    k.Is1D 5 2 c ∧ c 0 = c 4 ∧ c 0 ≤ c 1 ∧ c 1 ≤ c 2 := by
  obtain ⟨k, -, e, -⟩ := C106_accuracy (V := V) (E := (⟨id, 8, 0, fun _ => 7⟩ : GrowArray.Elem ℝ)) rfl (C106_double (fun _ hx => expRounded_near hx)
    (c0 := 2.5066282746310) (sigma := 3/2) (w := 5) (by norm_num) (by norm_num) (by norm_num) (by norm_num) (by decide)) (by norm_num) (by norm_num)
    (by decide) (by decide) (Or.inl (by decide)) h
  obtain ⟨-, c, hk, -, hsym, hord⟩ := C106_shape float64_format float64_format rfl expRounded_nonneg (fun _ _ => expRounded_mono) (by norm_num) (by norm_num)
    (by decide) (by decide) e
  exact ⟨k, c, e, hk, (hsym 0 (by decide)).symm, hord 1 0 (by decide) (by decide) (by decide), hord 2 1 (by decide) (by decide) (by decide)⟩

/-- Numbers below half the smallest positive number are rounded to zero. -/
theorem ieee_underflow {K : Type} [Field K] [LinearOrder K] [IsStrictOrderedRing K] [FloorRing K] {p q w : Nat} {x : K} (hx : 0 < x)
    (hx2 : x < 1 / 2 ^ (q + 1)) : ieee p q w x = some 0 := by
  unfold ieee
  simp only
  have he : max (Int.log 2 |x| - (p - 1 : Nat)) (-(q : Int)) = -(q : Int) := by
    refine max_eq_right ?_
    rw [abs_of_pos hx]
    have h1 : Int.log 2 x < -(q : Int) := by
      rw [← Int.lt_zpow_iff_log_lt (by norm_num) hx]
      push_cast
      rw [zpow_neg, zpow_natCast, ← one_div]
      exact lt_of_lt_of_le hx2 (one_div_le_one_div_of_le (by positivity) (pow_le_pow_right₀ (by norm_num) (by omega)))
    omega
  rw [he]
  have h2 : x / (2 : K) ^ (-(q : Int)) < 1 / 2 := by
    rw [zpow_neg, zpow_natCast, div_inv_eq_mul]
    rw [lt_div_iff₀ (by positivity), pow_succ] at hx2
    linarith
  have h3 : 0 ≤ x / (2 : K) ^ (-(q : Int)) := by positivity
  have hf : ⌊x / (2 : K) ^ (-(q : Int))⌋ = 0 := by
    rw [Int.floor_eq_iff]; push_cast; constructor <;> linarith
  have hr : roundEven (x / (2 : K) ^ (-(q : Int))) = 0 := by
    unfold roundEven
    rw [hf, if_pos (by push_cast; linarith)]
  rw [hr, Int.cast_zero, zero_mul, abs_zero, if_pos (by positivity)]

theorem expRounded_far : expRounded (-2048) = 0 := by
  unfold expRounded
  have h1 : Real.exp (-2048) < 1 / 2 ^ (1074 + 1) := by
    have h2 : Real.exp (-2048) = Real.exp (-1) ^ 2048 := by
      rw [← Real.exp_nat_mul]; norm_num
    have h3 : Real.exp (-1) < 1 / 2 := by
      have := Real.exp_neg_one_lt_d9
      linarith
    have h4 : Real.exp (-1) ^ 2048 < (1 / 2) ^ 2048 := pow_lt_pow_left₀ h3 (Real.exp_pos _).le (by norm_num)
    rw [h2]
    refine lt_of_lt_of_le h4 ?_
    rw [one_div_pow]
    exact one_div_le_one_div_of_le (by positivity) (pow_le_pow_right₀ (by norm_num) (by norm_num))
  have : float64 (Real.exp (-2048)) = some 0 := ieee_underflow (Real.exp_pos _) h1
  rw [this]; rfl

/-- An even kernel has no coefficient in its middle.  If sigma is small all of its samples underflow, even with the best exponential function,
and the sum they are divided by is zero; C++ returns a kernel of NaN.  With exact arithmetic the kernel is `1/2, 1/2` (C45). -/
theorem C106_even_refuted (E : GrowArray.Elem ℝ) (hz : E.ms E.zero = E.zero) (h : Heap V) :
    FactoryKernel.gaussian1DR float64 float64 E expRounded 2.5066282746310 (1/128) (2 : Nat) h = .ub ∧
    ∃ k c, FactoryKernel.gaussian1D E Real.exp 2.5066282746310 (1/128) (2 : Nat) h = .ok k h ∧ k.Is1D 2 1 c ∧ c 0 = 1/2 ∧ c 1 = 1/2 := by
  constructor
  · rw [gaussCore_both float64 float64 E expRounded _ (by norm_num) (by decide) h]
    have e1 : float64 (1 / 2 : ℝ) = some (1 / 2) := by
      have := float64_half (z := 1) (by norm_num)
      rwa [Int.cast_one] at this
    have e2 : float64 (-(1 / 2) : ℝ) = some (-(1 / 2)) := float64_format.neg _ _ e1
    have e3 : float64 (-(1 / 4) : ℝ) = some (-(1 / 4)) := by
      have := float64_same (m := -1) (e := -2) (by norm_num) (by norm_num) (by norm_num)
      norm_num at this ⊢
      exact this
    have e4 : float64 (1 / 64 : ℝ) = some (1 / 64) := by
      have := float64_same (m := 1) (e := -6) (by norm_num) (by norm_num) (by norm_num)
      norm_num at this ⊢
      exact this
    have e5 : float64 (1 / 8192 : ℝ) = some (1 / 8192) := by
      have := float64_same (m := 1) (e := -13) (by norm_num) (by norm_num) (by norm_num)
      norm_num at this ⊢
      exact this
    have e6 : float64 (-2048 : ℝ) = some (-2048) := by
      have := float64_same (m := -2048) (e := 0) (by norm_num) (by norm_num) (by norm_num)
      norm_num at this ⊢
      exact this
    have e0 : float64 (0 : ℝ) = some 0 := float64_format.zero
    obtain ⟨d, e7, hd⟩ := (float64_rounds (K := ℝ)).near (1 / 128 * 2.5066282746310) (by
      have hb : (2 : ℝ) ^ 1 ≤ 2 ^ 1023 := pow_le_pow_right₀ (by norm_num) (by norm_num)
      exact le_trans (by norm_num) hb)
    have hd0 : d ≠ 0 := by
      rintro rfl
      have hη : (1 : ℝ) / 2 ^ 1075 ≤ 1 / 2 ^ 150 := one_div_le_one_div_of_le (by positivity) (pow_le_pow_right₀ (by norm_num) (by norm_num))
      generalize (1 : ℝ) / 2 ^ 1075 = η at *
      rw [zero_sub, abs_neg, abs_of_pos (by norm_num)] at hd
      norm_num at hd hη
      linarith
    have hpdf : ∀ s : ℝ, s = 1/2 ∨ s = -(1/2) → float64 s = some s → pdfO float64 expRounded 2.5066282746310 0 (1/128) s = some 0 := by
      intro s hs es
      have hsq : -s * s = -(1 / 4) := by rcases hs with rfl | rfl <;> norm_num
      unfold pdfO
      rw [sub_zero, es, Option.bind_some, hsq, e3, Option.bind_some, show (2 : ℝ) * (1 / 128) = 1 / 64 by norm_num, e4, Option.bind_some,
        show (1 : ℝ) / 64 * (1 / 128) = 1 / 8192 by norm_num, e5, Option.bind_some, if_neg (by norm_num),
        show (-(1 / 4) : ℝ) / (1 / 8192) = -2048 by norm_num, e6, Option.bind_some, e7, Option.bind_some, if_neg hd0, expRounded_far, zero_div, e0]
    have hsample : ∀ i, i < 2 → sampleO float64 float64 expRounded 2.5066282746310 (1/128) 2 i = some 0 := by
      intro i hi
      unfold sampleO
      have hcase : fromMiddle ℝ 2 i = 1/2 ∨ fromMiddle ℝ 2 i = -(1/2) := by
        unfold fromMiddle
        rcases (by omega : i = 0 ∨ i = 1) with rfl | rfl
        · right; norm_num
        · left; norm_num
      have es : float64 (fromMiddle ℝ 2 i) = some (fromMiddle ℝ 2 i) := by
        rcases hcase with e | e <;> rw [e] <;> assumption
      rw [es, Option.bind_some, hpdf _ hcase es, Option.bind_some, e0]
    unfold gaussCore
    rw [toU32_of_nonneg (by omega) (by decide), Int.toNat_natCast]
    obtain ⟨k0, e0', hk0⟩ := (C42_new1D_middle E hz 2 h).2 (by decide)
    obtain ⟨k1, e1', hk1⟩ := fill1D hk0 (v := fun _ => (0 : ℝ)) (h := h) (fun i k1 hi _ _ =>
      (sample_body float64 float64 expRounded 2.5066282746310 (1/128) (w := 2) i k1 h).trans (optBind (hsample i hi) _ h))
    rw [M.bind_ok e0', M.bind_ok e1']
    unfold FactoryKernel.normalizeR
    have eS : foldO 2 (0 : ℝ) (fun i t => float64 (t + (fun _ => (0 : ℝ)) i)) = some 0 := by
      show ((some (0 : ℝ)).bind _).bind _ = _
      simp only [Option.bind_some, add_zero, e0]
    rw [M.bind_ok (kernelSumO_run k1 (c := fun _ => (0 : ℝ)) hk1.size hk1.coef eS h), hk1.width]
    refine loopS_ub' (r := 0) (s' := k1) (h' := h) (by decide) rfl ?_
    refine (M.bind_ok (a := (0 : ℝ)) (h' := h) ?_).trans ?_
    · unfold Kernel.get
      rw [hk1.coef 0 (by decide)]; rfl
    · rw [if_pos rfl]; rfl
  · obtain ⟨k, c, e, hk, hg, -⟩ := C45_gaussian1D_real E hz (sigma := 1/128) (by norm_num) (w := 2) (by decide) (by decide) h
    have h1 := hg.symm 0 (by decide)
    have h2 := hg.sum
    simp only [sumF, zero_add] at h2
    refine ⟨k, c, e, hk, ?_, ?_⟩
    · change c 1 = c 0 at h1; linarith
    · change c 1 = c 0 at h1; linarith

end Boof
