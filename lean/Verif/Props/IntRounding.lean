import Verif.Proofs.IntRounding
import Verif.Proofs.Order
import Verif.Props.GaussRounding
/-
C107: integer kernels with rounded floating point arithmetic.
-/
namespace Boof
open M
variable {V : Type}

section
variable {K : Type} [Field K] [LinearOrder K] [IsStrictOrderedRing K] [FloorRing K]

/-- `float_to_int` with rounding, `minFrac` the rounded 1/100, for any kernel with a coefficient that is not tiny: as without rounding the
integers keep signs, order and symmetry, are at most 100, and a largest one is not lost; each is the quotient of C46 with an error of at most
610 roundings, without its fraction. -/
theorem C107_convert {rnd : K → Option K} {u η big : K} (R : Rounds rnd u η big) (F : Format rnd) (hu : 1000 * u ≤ 1) (hη : 100 * η ≤ u)
    (hb : 1000 ≤ big) (t : IntTy) (junk : Nat → Int) {k : Kernel K} {w o : Nat} {c : Nat → K} (hk : k.Is1D w o c) (ho : o < w)
    {i0 : Nat} (hi0 : i0 < w) (h0 : 100 * η ≤ u * |c i0|) (h00 : c i0 ≠ 0) (hbc : ∀ i, i < w → |c i| ≤ big)
    (hhi : (100 : Int) ≤ t.hi) (hlo0 : t.lo ≤ 0) (hlo : t.lo ≤ -100 ∨ ∀ i, i < w → 0 ≤ c i) (h : Heap V) :
    ∃ f k' d, rnd (1 / 100) = some f ∧ FactoryKernel.floatToInt1DR rnd (intElem t junk) t k f h = .ok k' h ∧ k'.Is1D w o d ∧
      NearIntKernel w c d (610 * u) :=
  convert1DR R F hu hη hb t junk hk ho hi0 h0 h00 hbc hhi hlo0 hlo h

/-- A largest coefficient becomes 100 or 99 if the smallest is less than a hundredth of it. -/
theorem C107_largest {n : Nat} {c : Nat → K} {d : Nat → Int} {E : K} (hd : NearIntKernel n c d E) (hE : E < 1) {i : Nat} (hi : i < n)
    (hbig : ∀ j, j < n → |c j| ≤ |c i|) (h0 : c i ≠ 0) {j : Nat} (hj : j < n) (hsmall : 100 * |c j| ≤ |c i|) : |d i| = 99 ∨ |d i| = 100 := by
  obtain ⟨q, mx, mn, hmx, hmn, rfl, hq⟩ := hd.quotient
  have e : mx = |c i| := by
    obtain ⟨i1, hi1, e⟩ := hmx.1
    refine le_antisymm ?_ (hmx.2 i hi)
    rw [← e]; exact hbig i1 hi1
  have hp : 0 < |c i| := abs_pos.mpr h0
  have hm : max mn (mx / 100) = |c i| / 100 := by
    rw [e, max_eq_right]
    have := hmn.2 j hj
    linarith
  obtain ⟨r, h1, h2, h3⟩ := hq i hi
  rw [hm] at h1
  have h4 : |c i / (|c i| / 100)| = 100 := by
    rw [abs_div, abs_of_pos (by linarith : 0 < |c i| / 100)]
    field_simp
  have h5 := abs_sub_abs_le_abs_sub (c i / (|c i| / 100)) r
  rw [h4, abs_sub_comm] at h5
  have h6 : (98 : K) < |(d i : K)| := by linarith
  rw [← Int.cast_abs] at h6
  have h7 : 98 < |d i| := by exact_mod_cast h6
  have h8 := hd.bound i hi
  omega

/-- Where the quotient is not within the error of an integer, the integer is that of C46. -/
theorem C107_same {n : Nat} {c : Nat → K} {d d' : Nat → Int} {E : K} (hd : NearIntKernel n c d E) (hd' : IsIntKernel n c d' 100) {i : Nat} (hi : i < n)
    (hfar : ∀ q mx mn, IsAbsMax n c mx → IsAbsMin n c mn → q = max mn (mx / 100) → ∀ m : Int, E < |c i / q - m|) : d i = d' i := by
  obtain ⟨q, mx, mn, hmx, hmn, eq, hq⟩ := hd.quotient
  obtain ⟨q', mx', mn', hmx', hmn', eq', hq'⟩ := hd'.quotient
  have e1 : mx' = mx := by
    obtain ⟨i1, hi1, e⟩ := hmx.1
    obtain ⟨i2, hi2, e'⟩ := hmx'.1
    exact le_antisymm (by rw [← e']; exact hmx.2 i2 hi2) (by rw [← e]; exact hmx'.2 i1 hi1)
  have e2 : mn' = mn := by
    obtain ⟨i1, hi1, e⟩ := hmn.1
    obtain ⟨i2, hi2, e'⟩ := hmn'.1
    exact le_antisymm (by rw [← e]; exact hmn'.2 i1 hi1) (by rw [← e']; exact hmn.2 i2 hi2)
  have hqq : q' = q := by
    rw [eq', eq, e1, e2]; norm_num
  rw [hqq] at hq'
  obtain ⟨h1, h2⟩ := hq' i hi
  obtain ⟨r, h3, h4, h5⟩ := hq i hi
  have hf := hfar q mx mn hmx hmn eq
  -- the quotient is not zero
  have hq0 : q ≠ 0 := by
    rintro rfl
    rw [mul_zero] at h2
    exact absurd (abs_nonneg (c i)) (not_le.mpr h2)
  have hqpos : 0 < q := by
    rcases lt_or_gt_of_ne hq0 with g | g
    · have : (|(d' i : K)| + 1) * q < 0 := mul_neg_of_pos_of_neg (by positivity) g
      exact absurd (abs_nonneg (c i)) (not_le.mpr (by linarith))
    · exact g
  -- distances of magnitudes
  have habs : ∀ m : Int, E < |(|c i / q|) - (m : K)| := by
    intro m
    rcases le_total 0 (c i / q) with g | g
    · rw [abs_of_nonneg g]; exact hf m
    · have := hf (-m)
      rw [abs_of_nonpos g]
      rw [show c i / q - ((-m : Int) : K) = -(-(c i / q) - m) by push_cast; ring, abs_neg] at this
      exact this
  have hr : |(|r| - |c i / q|)| ≤ E := le_trans (abs_abs_sub_abs_le r (c i / q)) h3
  have h1' : |(d' i : K)| ≤ |c i / q| := by rw [abs_div, abs_of_pos hqpos, le_div_iff₀ hqpos]; exact h1
  have h2' : |c i / q| < |(d' i : K)| + 1 := by rw [abs_div, abs_of_pos hqpos, div_lt_iff₀ hqpos]; exact h2
  have hmag : |d i| = |d' i| := by
    rcases lt_trichotomy |d i| |d' i| with g | g | g
    · exfalso
      have g1 : |(d i : K)| + 1 ≤ |(d' i : K)| := by
        rw [← Int.cast_abs, ← Int.cast_abs]; exact_mod_cast g
      have g2 := habs |d' i|
      rw [Int.cast_abs, abs_of_nonneg (by linarith)] at g2
      have := (abs_le.mp hr).1
      linarith
    · exact g
    · exfalso
      have g1 : |(d' i : K)| + 1 ≤ |(d i : K)| := by
        rw [← Int.cast_abs, ← Int.cast_abs]; exact_mod_cast g
      have g2 := habs (|d' i| + 1)
      rw [Int.cast_add, Int.cast_abs, Int.cast_one, abs_of_nonpos (by linarith)] at g2
      have := (abs_le.mp hr).2
      linarith
  rcases le_total 0 (c i) with g | g
  · rw [abs_of_nonneg (hd.nonneg i hi g), abs_of_nonneg (hd'.nonneg i hi g)] at hmag
    exact hmag
  · rw [abs_of_nonpos (hd.nonpos i hi g), abs_of_nonpos (hd'.nonpos i hi g)] at hmag
    omega

end

/-- The integer Gaussian kernel with rounding has all the properties of C46: coefficients between 0 and 100, symmetric, not increasing away from
the middle, and the middle is not zero. -/
theorem C107_gaussian {rnd : ℝ → Option ℝ} (F : Format rnd) {E : GrowArray.Elem ℝ} (hz : E.ms E.zero = E.zero) {ex : ℝ → ℝ} (hex : ∀ x, 0 ≤ ex x)
    (hmono : ∀ x y, x ≤ y → y ≤ 0 → ex x ≤ ex y) {u η big c0 sigma : ℝ} {w : Nat} (G : GaussFits rnd rnd ex u η big c0 sigma w) (hc0 : 0 < c0)
    (hs : 0 < sigma) (hw : 0 < w) (hw2 : w < 2147483648) (hP : w % 2 = 1 ∨ 1 / 2 ≤ sigma) (hu : 1000 * u ≤ 1) (hη : 400 * w * η ≤ u)
    (hb : 1000 ≤ big) (t : IntTy) (ht : t ∈ [U8, U16, S16, U32, S32, S64]) (junk : Nat → Int) (h : Heap V) :
    ∃ k d, FactoryKernel.gaussian1DIntR rnd E (intElem t junk) t ex c0 sigma w h = .ok k h ∧ k.Is1D w (w / 2) d ∧
      (∀ i, i < w → 0 ≤ d i ∧ d i ≤ 100) ∧ (∀ i, i < w → d (w - 1 - i) = d i) ∧
      (∀ i j, i < w → j < w → |2 * (i : Int) + 1 - w| ≤ |2 * (j : Int) + 1 - w| → d j ≤ d i) ∧ 0 < d (w / 2) := by
  obtain ⟨kf, c, e, hk, hcl⟩ := C106_accuracy (V := V) hz G hc0 hs hw hw2 hP h
  obtain ⟨-, c', hk', hc01, hsym, hord⟩ := C106_shape F F hz hex hmono hc0 hs hw hw2 e
  have hcc : ∀ i, i < w → c' i = c i := fun i hi => by
    have h1 := hk.coef i hi
    rw [hk'.coef i hi] at h1
    exact Option.some.inj h1
  have hu0 := G.rounds.rel
  have hη0 := G.rounds.abs
  have hw1 : (1 : ℝ) ≤ w := by exact_mod_cast hw
  have hmax : ∀ i, i < w → c i ≤ c (w / 2) := by
    intro i hi
    have := hord (w / 2) i (by omega) hi (by
      rcases abs_cases (2 * ((w / 2 : Nat) : Int) + 1 - w) with ⟨e1, _⟩ | ⟨e1, _⟩ <;> rcases abs_cases (2 * (i : Int) + 1 - w) with ⟨e2, _⟩ | ⟨e2, _⟩ <;>
        rw [e1, e2] <;> omega)
    rwa [hcc i hi, hcc _ (by omega)] at this
  have hmid : 1 / 2 ≤ w * c (w / 2) := by
    have h1 := C106_sum hw hcl
    have h2 : sumF w c ≤ w * c (w / 2) := by
      rw [← sumF_const]
      exact sumF_mono hmax
    have h3 := (abs_le.mp h1).1
    have h4 := G.fine
    linarith
  have hpos : 0 < c (w / 2) := by
    by_contra hn
    have := mul_nonpos_of_nonneg_of_nonpos (by linarith : (0 : ℝ) ≤ w) (not_lt.mp hn)
    linarith
  have hη1 : 100 * η ≤ u * |c (w / 2)| := by
    rw [abs_of_pos hpos]
    have h1 : (400 * w * η) * (w * c (w / 2)) ≤ u * (w * c (w / 2)) := mul_le_mul_of_nonneg_right hη (by linarith)
    have h2 : 400 * w * η * (1 / 2) ≤ 400 * w * η * (w * c (w / 2)) := mul_le_mul_of_nonneg_left hmid (by positivity)
    have h3 : (w : ℝ) * (200 * η) ≤ w * (u * c (w / 2)) := by linarith
    have h4 := le_of_mul_le_mul_left h3 (by linarith)
    linarith
  obtain ⟨t1, t2, -⟩ := C46_types t ht
  obtain ⟨f, k, d, ef, e2, hk2, hd⟩ := C107_convert G.rounds F hu (by
    have := mul_le_mul_of_nonneg_right hw1 hη0
    linarith) hb t junk hk (by omega) (i0 := w / 2) (by omega) hη1 (ne_of_gt hpos) (fun i hi => by
      rw [← hcc i hi, abs_of_nonneg (hc01 i hi).1]
      linarith [(hc01 i hi).2]) t1 t2 (Or.inr (fun i hi => by rw [← hcc i hi]; exact (hc01 i hi).1)) h
  refine ⟨k, d, ?_, hk2, fun i hi => ?_, fun i hi => ?_, fun i j hi hj hij => ?_, ?_⟩
  · unfold FactoryKernel.gaussian1DIntR
    rw [M.bind_ok e, optBind ef, e2]
  · exact ⟨hd.nonneg i hi (by rw [← hcc i hi]; exact (hc01 i hi).1), (abs_le.mp (hd.bound i hi)).2⟩
  · have := hsym i hi
    rw [hcc i hi, hcc _ (by omega)] at this
    exact le_antisymm (hd.order _ _ (by omega) hi (le_of_eq this)) (hd.order _ _ hi (by omega) (ge_of_eq this))
  · have := hord i j hi hj hij
    rw [hcc i hi, hcc j hj] at this
    exact hd.order j i hj hi this
  · have h1 := hd.largest (w / 2) (by omega) (fun j hj => by
      rw [abs_of_pos hpos, ← hcc j hj, abs_of_nonneg (hc01 j hj).1, hcc j hj]
      exact hmax j hj)
    have h2 := hd.nonneg (w / 2) (by omega) hpos.le
    omega

/-- In `double`, all widths up to 100000 and all sigmas between 1/1000 and 1000000. -/
theorem C107_double {E : GrowArray.Elem ℝ} (hz : E.ms E.zero = E.zero) {sigma : ℝ} (hs : 1 / 1000 ≤ sigma) (hs2 : sigma ≤ 1000000) {w : Nat} (hw : 0 < w)
    (hw2 : w ≤ 100000) (hP : w % 2 = 1 ∨ 1 / 2 ≤ sigma) (t : IntTy) (ht : t ∈ [U8, U16, S16, U32, S32, S64]) (junk : Nat → Int) (h : Heap V) :
    ∃ k d, FactoryKernel.gaussian1DIntR float64 E (intElem t junk) t expRounded 2.5066282746310 sigma w h = .ok k h ∧ k.Is1D w (w / 2) d ∧
      (∀ i, i < w → 0 ≤ d i ∧ d i ≤ 100) ∧ (∀ i, i < w → d (w - 1 - i) = d i) ∧
      (∀ i j, i < w → j < w → |2 * (i : Int) + 1 - w| ≤ |2 * (j : Int) + 1 - w| → d j ≤ d i) ∧ 0 < d (w / 2) := by
  refine C107_gaussian float64_format hz expRounded_nonneg (fun _ _ => expRounded_mono)
    (C106_double (fun _ hx => expRounded_near hx) (by norm_num) (by norm_num) hs hs2 hw2) (by norm_num) (by linarith) hw (by omega) hP
    (by norm_num) ?_ ?_ t ht junk h
  · have h1 : (1 : ℝ) / 2 ^ 1075 ≤ 1 / 2 ^ 100 := one_div_le_one_div_of_le (by positivity) (pow_le_pow_right₀ (by norm_num) (by norm_num))
    have h0 : (0 : ℝ) ≤ 1 / 2 ^ 1075 := by positivity
    generalize (1 : ℝ) / 2 ^ 1075 = η at *
    have h2 : (w : ℝ) ≤ 100000 := by exact_mod_cast hw2
    have h3 : 400 * (w : ℝ) * η ≤ 400 * 100000 * η := mul_le_mul_of_nonneg_right (by linarith) h0
    linarith
  · have hb : (2 : ℝ) ^ 10 ≤ 2 ^ 1023 := pow_le_pow_right₀ (by norm_num) (by norm_num)
    exact le_trans (by norm_num) hb

/-- In `double` the largest coefficient can become 99 although the smallest is less than a hundredth of it: 7/64 divided by the rounded hundredth of
7/64 is less than 100.  With exact arithmetic it becomes 100. -/
theorem C107_largest_refuted (junk : Nat → Int) {k : Kernel ℚ} {c : Nat → ℚ} (hk : k.Is1D 2 1 c) (hc0 : c 0 = 7 / 64) (hc1 : c 1 = 1 / 1024) (h : Heap V) :
    (∃ f k' d, float64 (1 / 100 : ℚ) = some f ∧ FactoryKernel.floatToInt1DR float64 (intElem S32 junk) S32 k f h = .ok k' h ∧ k'.Is1D 2 1 d ∧ d 0 = 99) ∧
    (∃ k' d, FactoryKernel.floatToInt1D (intElem S32 junk) S32 k (1 / 100) h = .ok k' h ∧ k'.Is1D 2 1 d ∧ d 0 = 100) := by
  have two : ∀ i, i < 2 → i = 0 ∨ i = 1 := fun i hi => by omega
  have hmaxv : ∀ mx, IsAbsMax 2 c mx → mx = 7 / 64 := by
    intro mx hmx
    obtain ⟨i, hi, e⟩ := hmx.1
    have h0 := hmx.2 0 (by decide)
    rw [hc0, abs_of_pos (by norm_num)] at h0
    rcases two i hi with rfl | rfl
    · rw [hc0, abs_of_pos (by norm_num)] at e; exact e.symm
    · rw [hc1, abs_of_pos (by norm_num)] at e; linarith
  have hminv : ∀ mn, IsAbsMin 2 c mn → mn = 1 / 1024 := by
    intro mn hmn
    obtain ⟨i, hi, e⟩ := hmn.1
    have h0 := hmn.2 1 (by decide)
    rw [hc1, abs_of_pos (by norm_num)] at h0
    rcases two i hi with rfl | rfl
    · rw [hc0, abs_of_pos (by norm_num)] at e; linarith
    · rw [hc1, abs_of_pos (by norm_num)] at e; exact e.symm
  constructor
  · have e1 : float64 (1 / 100 : ℚ) = some (5764607523034235 / 576460752303423488) := by decide +kernel
    have e2 : float64 (7 / 64 * (5764607523034235 / 576460752303423488) : ℚ) = some (1261007895663739 / 1152921504606846976) := by decide +kernel
    have e3 : float64 (7 / 64 / (1261007895663739 / 1152921504606846976) : ℚ) = some (7036874417766399 / 70368744177664) := by decide +kernel
    obtain ⟨z, e4, h4⟩ : ∃ z, float64 (1 / 1024 / (1261007895663739 / 1152921504606846976) : ℚ) = some z ∧ truncK z = 0 := by
      refine ⟨2010535547933257 / 2251799813685248, ?_, ?_⟩ <;> decide +kernel
    obtain ⟨mx, em, hmx⟩ := absMax_run hk.size (by decide) hk.coef h
    obtain ⟨mn, en, hmn⟩ := absMin_run hk.size (by decide) hk.coef h
    obtain rfl := hmaxv mx hmx
    obtain rfl := hminv mn hmn
    have eq : FactoryKernel.quantumR float64 k (5764607523034235 / 576460752303423488) h = .ok (1261007895663739 / 1152921504606846976) h := by
      unfold FactoryKernel.quantumR
      rw [M.bind_ok em, M.bind_ok en, optBind e2, max_eq_right (by norm_num)]
      rfl
    obtain ⟨k0, e0, hk0⟩ := new1D_run (intElem S32 junk) (memsetInt_zero S32) (o := 1) (w := 2) (by decide) h
    obtain ⟨k1, e5, hk1⟩ := fill1D hk0 (v := fun i => if i = 0 then 99 else 0) (h := h) (body := fun i k1 => do
      let v ← k.get i
      if (1261007895663739 / 1152921504606846976 : ℚ) = 0 then M.ub else do
        let p ← opt (float64 (v / (1261007895663739 / 1152921504606846976)))
        let n ← M.toInt S32 p
        k1.put i n) (fun i k1 hi _ _ => by
        rw [M.bind_ok (get1D hk hi h), if_neg (by norm_num)]
        rcases two i hi with rfl | rfl
        · rw [hc0, optBind e3]
          refine (M.bind_ok (a := 99) (h' := h) ?_).trans rfl
          have : truncK (7036874417766399 / 70368744177664 : ℚ) = 99 := by decide +kernel
          unfold M.toInt
          rw [this]; rfl
        · rw [hc1, optBind e4]
          refine (M.bind_ok (a := 0) (h' := h) ?_).trans rfl
          unfold M.toInt
          rw [h4]; rfl)
    refine ⟨_, k1, _, e1, ?_, hk1, rfl⟩
    unfold FactoryKernel.floatToInt1DR
    rw [hk.width, hk.offset]
    exact (M.bind_ok e0).trans ((M.bind_ok eq).trans e5)
  · obtain ⟨k', d, e, hk', hd⟩ := C46_convert1D S32 junk hk (by decide) (N := 100) (by decide) (i0 := 0) (by decide) (by rw [hc0]; norm_num) (by decide)
      (by decide) (Or.inl (by decide)) h
    have hN : ((100 : Nat) : ℚ) = 100 := by norm_num
    rw [hN] at e
    refine ⟨k', d, e, hk', ?_⟩
    obtain ⟨q, mx, mn, hmx, hmn, hq, hall⟩ := hd.quotient
    rw [hmaxv mx hmx, hminv mn hmn, hN, max_eq_right (by norm_num)] at hq
    obtain ⟨h1, h2⟩ := hall 0 (by decide)
    have h3 := hd.bound 0 (by decide)
    have h4 := hd.nonneg 0 (by decide) (by rw [hc0]; norm_num)
    rw [hc0, hq, abs_of_pos (by norm_num : (0 : ℚ) < 7 / 64)] at h2
    rw [← Int.cast_abs, abs_of_nonneg h4] at h2
    have h5 : (99 : ℚ) < (d 0 : ℚ) := by linarith
    have h6 : 99 < d 0 := by exact_mod_cast h5
    rw [abs_of_nonneg h4] at h3
    push_cast at h3
    omega

/-- There is such a kernel. -/
example (h : Heap V) : ∃ (k : Kernel ℚ) (c : Nat → ℚ), k.Is1D 2 1 c ∧ c 0 = 7 / 64 ∧ c 1 = 1 / 1024 := by
  obtain ⟨k0, e0, hk0⟩ := (C42_new1D_middle (V := V) (⟨id, 8, 0, fun _ => 7⟩ : GrowArray.Elem ℚ) rfl 2 h).2 (by decide)
  obtain ⟨k1, e1, hk1⟩ := fill1D hk0 (v := fun i => if i = 0 then (7 / 64 : ℚ) else 1 / 1024) (h := h) (body := fun i k => k.put i (if i = 0 then (7 / 64 : ℚ) else 1 / 1024))
    (fun _ _ _ _ _ => rfl)
  exact ⟨k1, _, hk1, rfl, rfl⟩

/-- A kernel of width 5 and sigma 3/2. -/
example (h : Heap V) : ∃ k d, FactoryKernel.gaussian1DIntR float64 (⟨id, 8, 0, fun _ => 7⟩ : GrowArray.Elem ℝ) (intElem S32 (fun _ => 3)) S32 expRounded
    2.5066282746310 (3/2) (5 : Nat) h = .ok k h ∧ k.Is1D 5 2 d ∧ d 0 ≤ d 1 ∧ d 1 = d 3 ∧ 0 < d 2 := by
  obtain ⟨k, d, e, hk, -, hs, ho, hp⟩ := C107_double (V := V) (E := (⟨id, 8, 0, fun _ => 7⟩ : GrowArray.Elem ℝ)) rfl (sigma := 3/2) (by norm_num) (by norm_num)
    (w := 5) (by decide) (by decide) (Or.inl (by decide)) S32 (by decide) (fun _ => 3) h
  exact ⟨k, d, e, hk, ho 1 0 (by decide) (by decide) (by decide), (hs 1 (by decide)).symm, hp⟩

end Boof
