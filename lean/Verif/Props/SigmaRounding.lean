import Verif.Proofs.SigmaRounding
import Verif.Props.KernelChange
import Verif.Props.Rounding
/-
C105: choosing sigma and radius with rounded arithmetic.  C78 is about exact arithmetic.
-/
namespace Boof
open M
variable {V K : Type} [Field K] [LinearOrder K] [IsStrictOrderedRing K] [FloorRing K]

theorem opt_some {α : Type} (a : α) (h : Heap V) : (opt (some a) : M V α) h = .ok a h := rfl

theorem opt_bind {α β : Type} {o : Option α} {a : α} (e : o = some a) (f : α → M V β) (h : Heap V) : (opt o >>= f) h = f a h := by
  subst e; rfl

theorem opt_run {α : Type} {o : Option α} {a : α} (e : o = some a) (h : Heap V) : (opt o : M V α) h = .ok a h := by
  subst e; rfl

/-- One rounding of a number which is already wrong by at most `d`. -/
theorem Rounds.step {rnd : K → Option K} {u η big : K} (R : Rounds rnd u η big) {x y d A : K} (hA : |x| ≤ A) (hd : |y - x| ≤ d) (hb : A + d ≤ big) :
    ∃ z, rnd y = some z ∧ |z - x| ≤ d + u * (A + d) + η := by
  have hy : |y| ≤ A + d := by
    have := abs_add_le (y - x) x
    rw [sub_add_cancel] at this
    linarith
  obtain ⟨z, e, hz⟩ := R.near y (le_trans hy hb)
  refine ⟨z, e, ?_⟩
  have h1 := abs_add_le (z - y) (y - x)
  rw [sub_add_sub_cancel] at h1
  have h2 := mul_le_mul_of_nonneg_left hy R.rel
  linarith

section
variable {rnd : K → Option K} {u η big : K}

theorem spread_near (R : Rounds rnd u η big) (hu : 100 * u ≤ 1) (hη : η ≤ u) {order : Int} (ho : 0 ≤ order)
    (hb : 2 * (5 + 4 / 5 * (order : K)) ≤ big) (h : Heap V) :
    ∃ s, FactoryKernel.spreadR rnd order h = .ok s h ∧ |s - (5 + 4 / 5 * (order : K))| ≤ 6 * u * (5 + 4 / 5 * (order : K)) := by
  have hu0 := R.rel
  have hη0 := R.abs
  have hoK : (0 : K) ≤ (order : K) := by exact_mod_cast ho
  obtain ⟨f, ef, hf⟩ := R.step (x := 4 / 5) (y := 4 / 5) (d := 0) (A := 4 / 5) (by rw [abs_of_pos (by norm_num)]) (by simp) (by linarith)
  have hf2 : |f - 4 / 5| ≤ 2 * u := by linarith
  have hp0 : |f * (order : K) - 4 / 5 * (order : K)| ≤ 2 * u * (order : K) := by
    rw [← sub_mul, abs_mul, abs_of_nonneg hoK]
    exact mul_le_mul_of_nonneg_right hf2 hoK
  have huo : 0 ≤ u * (order : K) := mul_nonneg hu0 hoK
  have huo2 : 100 * (u * (order : K)) ≤ (order : K) := by nlinarith
  obtain ⟨p, ep, hp⟩ := R.step (x := 4 / 5 * (order : K)) (A := 4 / 5 * (order : K)) (le_of_eq (abs_of_nonneg (by linarith))) hp0
    (by linarith)
  have h1 : u * (4 / 5 * (order : K) + 2 * u * (order : K)) ≤ u * (order : K) := by
    have : 4 / 5 * (order : K) + 2 * u * (order : K) ≤ (order : K) := by linarith
    exact mul_le_mul_of_nonneg_left this hu0
  have hq0 : |5 + p - (5 + 4 / 5 * (order : K))| ≤ 3 * u * (order : K) + u := by
    rw [add_sub_add_left_eq_sub]; linarith
  obtain ⟨s, es, hs⟩ := R.step (x := 5 + 4 / 5 * (order : K)) (A := 5 + 4 / 5 * (order : K)) (le_of_eq (abs_of_nonneg (by linarith))) hq0
    (by linarith)
  have h2 : u * (5 + 4 / 5 * (order : K) + (3 * u * (order : K) + u)) ≤ u * (6 + (order : K)) := by
    refine mul_le_mul_of_nonneg_left ?_ hu0
    linarith
  refine ⟨s, ?_, by linarith⟩
  unfold FactoryKernel.spreadR
  rw [opt_bind ef, opt_bind ep]
  exact opt_run es h

/-- `sigmaForRadius` with rounding: the sigma of C78, up to a relative error of 15 roundings. -/
theorem C105_sigma (R : Rounds rnd u η big) (hu : 100 * u ≤ 1) (hη : η ≤ u) {radius : K} (hr : 0 < radius) {order : Int} (ho : 0 ≤ order)
    (hη2 : η * (5 + 4 / 5 * (order : K)) ≤ u) (hb : 2 * (5 + 4 / 5 * (order : K)) ≤ big) (hb2 : 2 * (2 * radius + 1) ≤ big) (h : Heap V) :
    ∃ s, FactoryKernel.sigmaForRadiusR rnd radius order h = .ok s h ∧
      |s - (2 * radius + 1) / (5 + 4 / 5 * (order : K))| ≤ 15 * u * ((2 * radius + 1) / (5 + 4 / 5 * (order : K))) := by
  have hu0 := R.rel
  have hη0 := R.abs
  have hoK : (0 : K) ≤ (order : K) := by exact_mod_cast ho
  have hur : 0 ≤ u * radius := mul_nonneg hu0 hr.le
  have hur2 : 100 * (u * radius) ≤ radius := by nlinarith
  obtain ⟨a, ea, ha⟩ := R.step (x := radius * 2) (y := radius * 2) (d := 0) (A := radius * 2) (le_of_eq (abs_of_pos (by linarith))) (by simp)
    (by linarith)
  have ha2 : |a + 1 - (2 * radius + 1)| ≤ 2 * u * radius + u := by
    rw [show a + 1 - (2 * radius + 1) = a - radius * 2 by ring]; linarith
  obtain ⟨n, en, hn⟩ := R.step (x := 2 * radius + 1) (A := 2 * radius + 1) (le_of_eq (abs_of_pos (by linarith))) ha2 (by linarith)
  obtain ⟨S, eS, hS⟩ := spread_near R hu hη ho hb h
  have hn2 : |n - (2 * radius + 1)| ≤ 4 * u * (2 * radius + 1) := by
    have : u * (2 * radius + 1 + (2 * u * radius + u)) ≤ u * (3 * radius + 2) := by
      refine mul_le_mul_of_nonneg_left ?_ hu0; linarith
    linarith
  generalize hD : 5 + 4 / 5 * (order : K) = D at *
  have hD5 : 5 ≤ D := by linarith
  generalize hN : 2 * radius + 1 = N at *
  have hN1 : 1 < N := by linarith
  clear hn ha2 ha
  have huD : 0 ≤ u * D := mul_nonneg hu0 (by linarith)
  have huD2 : 100 * (u * D) ≤ D := by nlinarith
  have huN : 0 ≤ u * N := mul_nonneg hu0 (by linarith)
  have huN2 : 100 * (u * N) ≤ N := by nlinarith
  have hS' := abs_le.mp hS
  have hS0 : 47 / 50 * D ≤ S := by linarith
  have hSpos : 0 < S := by linarith
  have hDpos : 0 < D := by linarith
  have hn' := abs_le.mp hn2
  have hq : |n / S - N / D| ≤ 11 * u * (N / D) := by
    have e1 : n / S - N / D = ((n - N) * D - N * (S - D)) / (S * D) := by field_simp; ring
    rw [e1, abs_div, abs_of_pos (mul_pos hSpos hDpos), div_le_iff₀ (mul_pos hSpos hDpos)]
    have e2 : 11 * u * (N / D) * (S * D) = 11 * u * N * S := by field_simp
    rw [e2]
    have h1 := abs_sub ((n - N) * D) (N * (S - D))
    rw [abs_mul (n - N), abs_mul N, abs_of_pos hDpos, abs_of_pos (show 0 < N by linarith)] at h1
    have h2 := mul_le_mul_of_nonneg_right hn2 hDpos.le
    have h3 := mul_le_mul_of_nonneg_left hS (show 0 ≤ N by linarith)
    have h4 := mul_le_mul_of_nonneg_left hS0 huN
    nlinarith
  have hND : 0 < N / D := by positivity
  have hNDN : N / D ≤ N := div_le_self (by linarith) (by linarith)
  have huq : 0 ≤ u * (N / D) := mul_nonneg hu0 hND.le
  have huq2 : 100 * (u * (N / D)) ≤ N / D := by nlinarith
  obtain ⟨s, es, hs⟩ := R.step (le_of_eq (abs_of_pos hND)) hq (by linarith)
  refine ⟨s, ?_, ?_⟩
  · unfold FactoryKernel.sigmaForRadiusR
    rw [if_neg (not_le.mpr hr), opt_bind ea, opt_bind en]
    refine (M.bind_ok eS).trans ?_
    rw [if_neg hSpos.ne']
    exact opt_run es h
  · have h1 : u * (N / D + 11 * u * (N / D)) ≤ u * (2 * (N / D)) := mul_le_mul_of_nonneg_left (by linarith) hu0
    have h2 : η ≤ u * (N / D) := by
      rw [← mul_div_assoc, le_div_iff₀ hDpos]
      nlinarith
    linarith

/-- `radiusForSigma` with rounding: the kernel of this radius, `2*radius+1` pixels, is at least `5 + 0.8*order` sigmas wide and a kernel
of a smaller radius is not, up to the roundings. -/
theorem C105_radius (R : Rounds rnd u η big) (hu : 100 * u ≤ 1) (hη : η ≤ u) {sigma : K} (hs : 0 < sigma) {order : Int} (ho : 0 ≤ order)
    (hb : 2 * (5 + 4 / 5 * (order : K)) ≤ big) (hb2 : 2 * ((5 + 4 / 5 * (order : K)) * sigma + 1) ≤ big)
    (hr : (5 + 4 / 5 * (order : K)) * sigma * (1 + 26 * u) ≤ 4294967293) (h : Heap V) :
    ∃ r : Int, FactoryKernel.radiusForSigmaR rnd sigma order h = .ok r h ∧ 0 ≤ r ∧
      (5 + 4 / 5 * (order : K)) * sigma - 26 * u * ((5 + 4 / 5 * (order : K)) * sigma + 1) ≤ 2 * r + 1 ∧
      ∀ r' : Int, r' < r → 2 * (r' : K) + 1 < (5 + 4 / 5 * (order : K)) * sigma + 26 * u * ((5 + 4 / 5 * (order : K)) * sigma + 1) := by
  have hu0 := R.rel
  have hη0 := R.abs
  have hoK : (0 : K) ≤ (order : K) := by exact_mod_cast ho
  obtain ⟨S, eS, hS⟩ := spread_near R hu hη ho hb h
  generalize hD : 5 + 4 / 5 * (order : K) = D at *
  have hD5 : 5 ≤ D := by linarith
  have hA : 0 < D * sigma := mul_pos (by linarith) hs
  have hp0 : |S * sigma - D * sigma| ≤ 6 * u * (D * sigma) := by
    rw [← sub_mul, abs_mul, abs_of_pos hs]
    have := mul_le_mul_of_nonneg_right hS hs.le
    linarith
  generalize hAd : D * sigma = A at *
  have huA : 0 ≤ u * A := mul_nonneg hu0 hA.le
  have huA2 : 100 * (u * A) ≤ A := by nlinarith
  obtain ⟨p, ep, hp⟩ := R.step (le_of_eq (abs_of_pos hA)) hp0 (by linarith)
  have h1 : u * (A + 6 * u * A) ≤ u * (2 * A) := mul_le_mul_of_nonneg_left (by linarith) hu0
  have hm0 : |p - 1 - (A - 1)| ≤ 8 * u * A + u := by
    rw [sub_sub_sub_cancel_right]; linarith
  obtain ⟨m, em, hm⟩ := R.step (x := A - 1) (A := A + 1) (by rw [abs_le]; constructor <;> linarith) hm0 (by linarith)
  have h2 : u * (A + 1 + (8 * u * A + u)) ≤ u * (2 * A + 2) := mul_le_mul_of_nonneg_left (by linarith) hu0
  have hr0 : |m / 2 - (A - 1) / 2| ≤ 10 * u * A / 2 + 4 * u / 2 := by
    rw [← sub_div, abs_div, abs_of_pos (by norm_num : (0 : K) < 2), ← add_div]
    refine div_le_div_of_nonneg_right ?_ (by norm_num)
    linarith
  obtain ⟨r, er, hr1⟩ := R.step (x := (A - 1) / 2) (A := (A + 1) / 2) (by rw [abs_le]; constructor <;> linarith) hr0 (by linarith)
  have h3 : u * ((A + 1) / 2 + (10 * u * A / 2 + 4 * u / 2)) ≤ u * (A + 1) := mul_le_mul_of_nonneg_left (by linarith) hu0
  have hr2 := abs_le.mp (show |r - (A - 1) / 2| ≤ 6 * u * A + 4 * u by linarith)
  have hc0 : (0 : Int) ≤ ⌈r⌉ := by
    have : (-1 : Int) < ⌈r⌉ := by rw [Int.lt_ceil]; push_cast; linarith
    omega
  have hc1 : ⌈r⌉ ≤ (2147483647 : Int) := by rw [Int.ceil_le]; push_cast; linarith
  refine ⟨⌈r⌉, ?_, hc0, ?_, fun r' hr' => ?_⟩
  · unfold FactoryKernel.radiusForSigmaR
    rw [if_neg (not_le.mpr hs)]
    refine (M.bind_ok eS).trans ?_
    rw [opt_bind ep, opt_bind em, opt_bind er]
    unfold M.toInt
    have ht : truncK ((⌈r⌉ : Int) : K) = ⌈r⌉ := by rw [truncK_nonneg (by exact_mod_cast hc0), Int.floor_intCast]
    rw [ht, if_pos ⟨by show -2147483648 ≤ _; omega, by show _ ≤ 2147483647; omega⟩]
    rfl
  · have := Int.le_ceil r
    linarith
  · have h4 : (r' : K) < r := by
      rw [← Int.lt_ceil]; exact hr'
    linarith

/-- As in C78, numbers which are not positive are rejected. -/
theorem C105_throws (rnd : K → Option K) {x : K} (hx : x ≤ 0) (order : Int) (h : Heap V) :
    FactoryKernel.sigmaForRadiusR rnd x order h = .throw h ∧ FactoryKernel.radiusForSigmaR rnd x order h = .throw h := by
  unfold FactoryKernel.sigmaForRadiusR FactoryKernel.radiusForSigmaR
  rw [if_pos hx, if_pos hx]
  exact ⟨rfl, rfl⟩

end

/-- In `double` the two choices are inverse for order 0, as they are with exact arithmetic, whatever the radius: the rounded fifth of
`2*radius+1`, times five, is rounded to `2*radius+1`. -/
theorem C105_inverse {r : Int} (hr : 0 < r) (hr2 : r < 2147483648) (h : Heap V) :
    (do let s ← FactoryKernel.sigmaForRadiusR float64 (r : K) 0
        FactoryKernel.radiusForSigmaR float64 s 0 : M V Int) h = .ok r h := by
  obtain ⟨m, rfl⟩ := Int.eq_ofNat_of_zero_le hr.le
  have hmK : (0 : K) < (m : K) := by exact_mod_cast (by omega : 0 < m)
  have ex : ∀ i : Nat, i ≤ 2 ^ 53 → float64 (i : K) = some (i : K) := float64_exact
  obtain ⟨f, ef, -⟩ := (float64_rounds (K := K)).near (4 / 5) (by
    rw [abs_of_pos (by norm_num)]
    refine le_trans ?_ (one_le_pow₀ (by norm_num : (1 : K) ≤ 2))
    norm_num)
  have eS : (FactoryKernel.spreadR float64 0 : M V K) h = .ok 5 h := by
    unfold FactoryKernel.spreadR
    rw [opt_bind ef, opt_bind (a := (0 : K)) (by rw [Int.cast_zero, mul_zero]; simpa using ex 0 (by omega))]
    exact opt_run (by rw [add_zero]; exact_mod_cast ex 5 (by norm_num)) h
  obtain ⟨s, es, hs, e5⟩ := ieee_fifth (K := K) (p := 53) (q := 1074) (w := 1024) (m := 2 * m + 1) (by omega) (by omega) (by omega) (by omega)
    (by norm_num; omega)
  have e1 : (FactoryKernel.sigmaForRadiusR float64 (((m : Nat) : Int) : K) 0 : M V K) h = .ok s h := by
    unfold FactoryKernel.sigmaForRadiusR
    rw [if_neg (by rw [Int.cast_natCast]; exact not_le.mpr hmK), opt_bind (a := ((m * 2 : Nat) : K)) (by
      rw [Int.cast_natCast, ← ex (m * 2) (by norm_num; omega)]; congr 1; push_cast; rfl)]
    rw [opt_bind (a := ((2 * m + 1 : Nat) : K)) (by
      rw [← ex (2 * m + 1) (by norm_num; omega)]; congr 1; push_cast; ring)]
    refine (M.bind_ok eS).trans ?_
    rw [if_neg (by norm_num)]
    exact opt_run es h
  refine (M.bind_ok e1).trans ?_
  unfold FactoryKernel.radiusForSigmaR
  rw [if_neg (not_le.mpr hs)]
  refine (M.bind_ok eS).trans ?_
  have e5' : float64 (5 * s) = some ((2 * m + 1 : Nat) : K) := e5
  rw [opt_bind e5', opt_bind (a := ((2 * m : Nat) : K)) (by
    rw [← ex (2 * m) (by norm_num; omega)]; congr 1; push_cast; ring)]
  rw [opt_bind (a := (m : K)) (by
    rw [← ex m (by norm_num; omega)]; congr 1; push_cast; rw [mul_div_cancel_left₀ _ two_ne_zero])]
  have ec : ⌈(m : K)⌉ = (m : Int) := Int.ceil_natCast m
  unfold M.toInt
  have ht : truncK (((m : Int) : Int) : K) = (m : Int) := by rw [truncK_nonneg (by exact_mod_cast hr.le), Int.floor_intCast]
  rw [ec, ht, if_pos ⟨by show -2147483648 ≤ _; omega, by show _ ≤ 2147483647; omega⟩]
  rfl

example (h : Heap V) : (FactoryKernel.sigmaForRadiusR float64 ((3 : Int) : ℚ) 0 >>= fun s => FactoryKernel.radiusForSigmaR float64 s 0 : M V Int) h =
    .ok 3 h := C105_inverse (by decide) (by decide) h

/-- For derivatives they are not: the radius chosen in `double` for the sigma of radius 6 and order 1 is 7.  (With exact arithmetic
it is 6 by C78.) -/
theorem C105_inverse_refuted (h : Heap V) :
    (do let s ← FactoryKernel.sigmaForRadiusR float64 ((6 : Int) : ℚ) 1
        FactoryKernel.radiusForSigmaR float64 s 1 : M V Int) h = .ok 7 h := by
  have e1 : float64 (4 / 5 : ℚ) = some (3602879701896397 / 4503599627370496 : ℚ) := by decide +kernel
  have e2 : float64 ((3602879701896397 / 4503599627370496 : ℚ) * ((1 : Int) : ℚ)) = some (3602879701896397 / 4503599627370496 : ℚ) := by decide +kernel
  have e3 : float64 (5 + (3602879701896397 / 4503599627370496 : ℚ)) = some (6530219459687219 / 1125899906842624 : ℚ) := by decide +kernel
  have e4 : float64 (((6 : Int) : ℚ) * 2) = some 12 := by decide +kernel
  have e5 : float64 ((12 : ℚ) + 1) = some 13 := by decide +kernel
  have e6 : float64 (13 / (6530219459687219 / 1125899906842624 : ℚ)) = some (5047137513432453 / 2251799813685248 : ℚ) := by decide +kernel
  have e7 : float64 ((6530219459687219 / 1125899906842624 : ℚ) * (5047137513432453 / 2251799813685248 : ℚ)) = some (7318349394477057 / 562949953421312 : ℚ) := by decide +kernel
  have e8 : float64 ((7318349394477057 / 562949953421312 : ℚ) - 1) = some (6755399441055745 / 562949953421312 : ℚ) := by decide +kernel
  have e9 : float64 ((6755399441055745 / 562949953421312 : ℚ) / 2) = some (6755399441055745 / 1125899906842624 : ℚ) := by decide +kernel
  have eS : (FactoryKernel.spreadR float64 1 : M V ℚ) h = .ok (6530219459687219 / 1125899906842624 : ℚ) h := by
    unfold FactoryKernel.spreadR
    rw [opt_bind e1, opt_bind e2]
    exact opt_run e3 h
  have eG : (FactoryKernel.sigmaForRadiusR float64 ((6 : Int) : ℚ) 1 : M V ℚ) h = .ok (5047137513432453 / 2251799813685248 : ℚ) h := by
    unfold FactoryKernel.sigmaForRadiusR
    rw [if_neg (by decide), opt_bind e4, opt_bind e5]
    refine (M.bind_ok eS).trans ?_
    rw [if_neg (by norm_num)]
    exact opt_run e6 h
  refine (M.bind_ok eG).trans ?_
  unfold FactoryKernel.radiusForSigmaR
  rw [if_neg (by norm_num)]
  refine (M.bind_ok eS).trans ?_
  rw [opt_bind e7, opt_bind e8, opt_bind e9]
  have ec : ⌈(6755399441055745 / 1125899906842624 : ℚ)⌉ = 7 := by decide +kernel
  rw [ec]
  unfold M.toInt
  rw [show truncK (((7 : Int) : ℚ)) = 7 by decide +kernel, if_pos (by decide)]
  rfl

/-- The errors are small in `double`. -/
example (h : Heap V) : ∃ s, FactoryKernel.sigmaForRadiusR float64 (6 : ℚ) 1 h = .ok s h ∧
    |s - (2 * 6 + 1) / (5 + 4 / 5 * ((1 : Int) : ℚ))| ≤ 15 * (1 / 2 ^ 53) * ((2 * 6 + 1) / (5 + 4 / 5 * ((1 : Int) : ℚ))) :=
  C105_sigma float64_rounds (by norm_num) (by decide +kernel) (by norm_num) (by decide) (by decide +kernel) (by decide +kernel) (by decide +kernel) h

example (h : Heap V) : ∃ r : Int, FactoryKernel.radiusForSigmaR float64 (2 : ℚ) 1 h = .ok r h ∧ 0 ≤ r ∧
    (5 + 4 / 5 * ((1 : Int) : ℚ)) * 2 - 26 * (1 / 2 ^ 53) * ((5 + 4 / 5 * ((1 : Int) : ℚ)) * 2 + 1) ≤ 2 * r + 1 ∧
    ∀ r' : Int, r' < r → 2 * (r' : ℚ) + 1 < (5 + 4 / 5 * ((1 : Int) : ℚ)) * 2 + 26 * (1 / 2 ^ 53) * ((5 + 4 / 5 * ((1 : Int) : ℚ)) * 2 + 1) :=
  C105_radius float64_rounds (by norm_num) (by decide +kernel) (by norm_num) (by decide) (by decide +kernel) (by decide +kernel) (by norm_num) h

end Boof
