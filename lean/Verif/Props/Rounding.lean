import Verif.Proofs.RoundingRun
import Verif.Proofs.Ieee
import Verif.Props.Blur
import Verif.Props.Convolve
import Verif.Props.Normalized
/-
C84: rounding errors of the floating point filters.  C47-C49, C51 and C54 state what the filters compute with exact numbers;
here every operation is rounded.  Specification: `Verif/Spec/Rounding.lean`.
-/
namespace Boof
open M
variable {V K : Type} [Field K] [LinearOrder K] [IsStrictOrderedRing K] [FloorRing K]
variable {rnd : K → Option K} {u η big : K}

/-! ## The formats -/

/-- `float`: a number of the format, none is nearer; relative error `2^-24`, absolute error `2^-150` near zero, no overflow up
to `2^127`; natural numbers up to `2^24` are exact. -/
theorem C84_float32 : (∀ x y : K, float32 x = some y → Representable 24 149 y ∧ ∀ z, Representable 24 149 z → |y - x| ≤ |z - x|) ∧
    Rounds (float32 : K → Option K) (1 / 2 ^ 24) (1 / 2 ^ 150) (2 ^ 127) ∧ ExactTo (float32 : K → Option K) (2 ^ 24) :=
  ⟨fun _ _ h => ieee_nearest (by omega) h, float32_rounds, float32_exact⟩

/-- `double`. -/
theorem C84_float64 : (∀ x y : K, float64 x = some y → Representable 53 1074 y ∧ ∀ z, Representable 53 1074 z → |y - x| ≤ |z - x|) ∧
    Rounds (float64 : K → Option K) (1 / 2 ^ 53) (1 / 2 ^ 1075) (2 ^ 1023) ∧ ExactTo (float64 : K → Option K) (2 ^ 53) :=
  ⟨fun _ _ h => ieee_nearest (by omega) h, float64_rounds, float64_exact⟩

/-- Numbers of the format are not changed. -/
theorem C84_representable {x : K} (hx : Representable 24 149 x) (hb : |x| ≤ 2 ^ 127) : float32 x = some x := by
  obtain ⟨y, e, -⟩ := float32_rounds.near x hb
  have h := (C84_float32.1 x y e).2 x hx
  rw [sub_self, abs_zero] at h
  rw [e, sub_eq_zero.mp (abs_eq_zero.mp (le_antisymm h (abs_nonneg _)))]

example : float32 (1 / 10 : ℚ) = some (13421773 / 134217728) ∧ float32 (16777217 : ℚ) = some 16777216 ∧
    float32 (16777219 : ℚ) = some 16777220 ∧ float32 (1 / 2 ^ 150 : ℚ) = some 0 ∧ float32 (3 / 2 ^ 150 : ℚ) = some (1 / 2 ^ 148) ∧
    float32 (2 ^ 128 : ℚ) = none ∧ float64 (1 / 10 : ℚ) = some (3602879701896397 / 36028797018963968) := by decide +kernel

/-- The error bounds in this file, roughly. -/
theorem C84_simple {n m : Nat} {A : K} (hu : 0 ≤ u) (hη : 0 ≤ η) (hA : 0 ≤ A) (hn : 2 * (n : K) * u ≤ 1) :
    0 ≤ roundError u η n m A ∧ roundError u η n m A ≤ 2 * n * u * A + 2 * m * η := by
  have hpow : ∀ k : Nat, k ≤ n → (1 + u) ^ k ≤ 1 + 2 * (k : K) * u := by
    intro k
    induction k with
    | zero => intro _; simp
    | succ k ih =>
      intro hk
      have hk1 : (k : K) + 1 ≤ n := by exact_mod_cast hk
      have h1 := ih (by omega)
      have h2 : (1 + u) ^ (k + 1) ≤ (1 + 2 * (k : K) * u) * (1 + u) := by
        rw [pow_succ]; exact mul_le_mul_of_nonneg_right h1 (by linarith)
      have h3 : 2 * (k : K) * u ≤ 1 := by nlinarith
      have h4 : 2 * (k : K) * u * u ≤ u := by nlinarith
      push_cast
      nlinarith
  have h1 := hpow n (le_refl _)
  have h2 : (1 : K) ≤ (1 + u) ^ n := one_le_pow₀ (by linarith)
  have hm : 0 ≤ (m : K) * η := mul_nonneg (Nat.cast_nonneg _) hη
  unfold roundError grown
  refine ⟨by nlinarith, ?_⟩
  have h3 : (1 + u) ^ n * (A + m * η) ≤ (1 + 2 * (n : K) * u) * A + 2 * (m * η) := by
    rw [mul_add]
    refine add_le_add (mul_le_mul_of_nonneg_right h1 hA) (mul_le_mul_of_nonneg_right (by linarith) hm)
  linarith

example : (roundError (1 / 2 ^ 24) (1 / 2 ^ 150) 12 21 2550 : ℚ) ≤ 2 * (12 : Nat) * (1 / 2 ^ 24) * 2550 + 2 * (21 : Nat) * (1 / 2 ^ 150) :=
  (C84_simple (by norm_num) (by norm_num) (by norm_num) (by norm_num)).2

/-! ## Convolution -/

/-- `ConvolveImage::horizontal`. -/
theorem C84_horizontal (z : K) (R : Rounds rnd u η big) {k : Kernel K} {kw o : Nat} {c : Nat → K} (b : Border K)
    {h : Heap K} {input output : Gray} {f : Nat → Nat → K}
    (hi : input.Valid h) (ho : output.Valid h) (hf : input.Shows h f)
    (hc : output.CanBe input.width input.height) (hs : input.Sep output input.width input.height)
    (hk : k.Is1D kw o c) (hok : o < kw) (hw : input.width + kw ≤ 2147483648) (hh : input.height < 2147483648)
    (hr : b.Reach input.width o (kw - 1 - o))
    (hb : ∀ x y : Nat, x < input.width → y < input.height → grown u η (kw + 1) (2 * kw)
      (sumF kw (fun k => |c k * b.ext input.width input.height f ((x : Int) + k - o) y|)) ≤ big) :
    ∃ (F : Nat → Nat → K) (out : Gray) (h' : Heap K), ConvolveImage.horizontal z (roundArith rnd) k b input output h = .ok out h' ∧
      Produced h h' output out input.width input.height F ∧ input.Valid h' ∧ input.Shows h' f ∧
      ∀ x y, x < input.width → y < input.height →
        |F x y - sumF kw (fun k => c k * b.ext input.width input.height f ((x : Int) + k - o) y)| ≤
          roundError u η (kw + 2) (2 * kw + 1) (sumF kw (fun k => |c k * b.ext input.width input.height f ((x : Int) + k - o) y|)) := by
  have hex : ∀ x y, ∃ v, x < input.width → y < input.height →
      (rowAt (roundArith rnd) kw o c (b.ext input.width input.height f) x y).bind (roundArith rnd).out = some v ∧
      |v - sumF kw (fun k => c k * b.ext input.width input.height f ((x : Int) + k - o) y)| ≤
          roundError u η (kw + 2) (2 * kw + 1) (sumF kw (fun k => |c k * b.ext input.width input.height f ((x : Int) + k - o) y|)) := by
    intro x y
    by_cases hxy : x < input.width ∧ y < input.height
    · obtain ⟨t, e, w⟩ := foldO_round R (hb x y hxy.1 hxy.2)
      obtain ⟨v, ev, wv⟩ := w.round R (hb x y hxy.1 hxy.2)
      refine ⟨v, fun _ _ => ⟨?_, wv.error⟩⟩
      unfold rowAt
      rw [e]; exact ev
    · exact ⟨0, fun h1 h2 => absurd ⟨h1, h2⟩ hxy⟩
  choose F hF using hex
  obtain ⟨out, h', e, p, v, s⟩ := C47_horizontal_partial z (roundArith rnd) b hi ho hf hc hs hk hok hw hh hr
    (fun x y hx hy => (hF x y hx hy).1)
  exact ⟨F, out, h', e, p, v, s, fun x y hx hy => (hF x y hx hy).2⟩

/-- `ConvolveImage::vertical`. -/
theorem C84_vertical (z : K) (R : Rounds rnd u η big) {k : Kernel K} {kw o : Nat} {c : Nat → K} (b : Border K)
    {h : Heap K} {input output : Gray} {f : Nat → Nat → K}
    (hi : input.Valid h) (ho : output.Valid h) (hf : input.Shows h f)
    (hc : output.CanBe input.width input.height) (hs : input.Sep output input.width input.height)
    (hk : k.Is1D kw o c) (hok : o < kw) (hh : input.height + kw ≤ 2147483648) (hw : input.width < 2147483648)
    (hr : b.Reach input.height o (kw - 1 - o))
    (hb : ∀ x y : Nat, x < input.width → y < input.height → grown u η (kw + 1) (2 * kw)
      (sumF kw (fun k => |c k * b.ext input.width input.height f x ((y : Int) + k - o)|)) ≤ big) :
    ∃ (F : Nat → Nat → K) (out : Gray) (h' : Heap K), ConvolveImage.vertical z (roundArith rnd) k b input output h = .ok out h' ∧
      Produced h h' output out input.width input.height F ∧ input.Valid h' ∧ input.Shows h' f ∧
      ∀ x y, x < input.width → y < input.height →
        |F x y - sumF kw (fun k => c k * b.ext input.width input.height f x ((y : Int) + k - o))| ≤
          roundError u η (kw + 2) (2 * kw + 1) (sumF kw (fun k => |c k * b.ext input.width input.height f x ((y : Int) + k - o)|)) := by
  have hex : ∀ x y, ∃ v, x < input.width → y < input.height →
      (colAt (roundArith rnd) kw o c (b.ext input.width input.height f) x y).bind (roundArith rnd).out = some v ∧
      |v - sumF kw (fun k => c k * b.ext input.width input.height f x ((y : Int) + k - o))| ≤
          roundError u η (kw + 2) (2 * kw + 1) (sumF kw (fun k => |c k * b.ext input.width input.height f x ((y : Int) + k - o)|)) := by
    intro x y
    by_cases hxy : x < input.width ∧ y < input.height
    · obtain ⟨t, e, w⟩ := foldO_round R (hb x y hxy.1 hxy.2)
      obtain ⟨v, ev, wv⟩ := w.round R (hb x y hxy.1 hxy.2)
      refine ⟨v, fun _ _ => ⟨?_, wv.error⟩⟩
      unfold colAt
      rw [e]; exact ev
    · exact ⟨0, fun h1 h2 => absurd ⟨h1, h2⟩ hxy⟩
  choose F hF using hex
  obtain ⟨out, h', e, p, v, s⟩ := C48_vertical_partial z (roundArith rnd) b hi ho hf hc hs hk hok hh hw hr
    (fun x y hx hy => (hF x y hx hy).1)
  exact ⟨F, out, h', e, p, v, s, fun x y hx hy => (hF x y hx hy).2⟩

/-- `ConvolveImage::convolve`. -/
theorem C84_convolve (z : K) (R : Rounds rnd u η big) {k : Kernel K} {kw o : Nat} {c : Nat → Nat → K} (b : Border K)
    {h : Heap K} {input output : Gray} {f : Nat → Nat → K}
    (hi : input.Valid h) (ho : output.Valid h) (hf : input.Shows h f)
    (hc : output.CanBe input.width input.height) (hs : input.Sep output input.width input.height)
    (hk : k.Is2D kw o c) (hok : o < kw) (hkw : kw < 65536)
    (hw : input.width + kw ≤ 2147483648) (hh : input.height + kw ≤ 2147483648)
    (hrx : b.Reach input.width o (kw - 1 - o)) (hry : b.Reach input.height o (kw - 1 - o))
    (hb : ∀ x y : Nat, x < input.width → y < input.height → grown u η (1 + kw * kw) (2 * (kw * kw))
      (sumF kw (fun j => sumF kw (fun i =>
        |c i j * b.ext input.width input.height f ((x : Int) + i - o) ((y : Int) + j - o)|))) ≤ big) :
    ∃ (F : Nat → Nat → K) (out : Gray) (h' : Heap K), ConvolveImage.convolve z (roundArith rnd) k b input output h = .ok out h' ∧
      Produced h h' output out input.width input.height F ∧ input.Valid h' ∧ input.Shows h' f ∧
      ∀ x y, x < input.width → y < input.height →
        |F x y - sumF kw (fun j => sumF kw (fun i =>
          c i j * b.ext input.width input.height f ((x : Int) + i - o) ((y : Int) + j - o)))| ≤
          roundError u η (kw * kw + 2) (2 * (kw * kw) + 1) (sumF kw (fun j => sumF kw (fun i =>
            |c i j * b.ext input.width input.height f ((x : Int) + i - o) ((y : Int) + j - o)|))) := by
  have hex : ∀ x y, ∃ v, x < input.width → y < input.height →
      (boxAt (roundArith rnd) kw o c (b.ext input.width input.height f) x y).bind (roundArith rnd).out = some v ∧
      |v - sumF kw (fun j => sumF kw (fun i =>
          c i j * b.ext input.width input.height f ((x : Int) + i - o) ((y : Int) + j - o)))| ≤
          roundError u η (kw * kw + 2) (2 * (kw * kw) + 1) (sumF kw (fun j => sumF kw (fun i =>
            |c i j * b.ext input.width input.height f ((x : Int) + i - o) ((y : Int) + j - o)|))) := by
    intro x y
    by_cases hxy : x < input.width ∧ y < input.height
    · obtain ⟨t, e, w⟩ := foldO_roundBox R (hb x y hxy.1 hxy.2)
      obtain ⟨v, ev, wv⟩ := w.round R (hb x y hxy.1 hxy.2)
      rw [show 1 + kw * kw + 1 = kw * kw + 2 by omega] at wv
      refine ⟨v, fun _ _ => ⟨?_, wv.error⟩⟩
      unfold boxAt
      rw [e]; exact ev
    · exact ⟨0, fun h1 h2 => absurd ⟨h1, h2⟩ hxy⟩
  choose F hF using hex
  obtain ⟨out, h', e, p, v, s⟩ := C49_convolve_partial z (roundArith rnd) b hi ho hf hc hs hk hok hkw hw hh hrx hry
    (fun x y hx hy => (hF x y hx hy).1)
  exact ⟨F, out, h', e, p, v, s, fun x y hx hy => (hF x y hx hy).2⟩

/-! ## Weighted averages -/

/-- `ConvolveNormalized::horizontal` with coefficients which are not negative. -/
theorem C84_normalized_horizontal (R : Rounds rnd u η big) {k : Kernel K} {kw o : Nat} {c : Nat → K} {Mx : K}
    {h : Heap K} {input output : Gray} {f : Nat → Nat → K}
    (hi : input.Valid h) (ho : output.Valid h) (hf : input.Shows h f) (hdis : input.Disjoint output)
    (ew : output.width = input.width) (eh : output.height = input.height)
    (hk : k.Is1D kw o c) (hok : o < kw) (hw : input.width + kw ≤ 2147483648) (hl : input.dataLength < 2147483648)
    (hc : ∀ i, i < kw → 0 ≤ c i) (hM : 0 ≤ Mx) (hpix : ∀ x y, x < input.width → y < input.height → |f x y| ≤ Mx)
    (hfit : ∀ x, x < input.width → AvgFits u η big (lastIn kw o input.width x - firstIn o x) (winWeight kw o c input.width x) Mx) :
    ∃ (F : Nat → Nat → K) (h' : Heap K), ConvolveNormalized.horizontalF (roundArith rnd) k input output h = .ok () h' ∧
      Painted h h' output (fun x y => some (F x y)) ∧ input.Valid h' ∧ input.Shows h' f ∧
      ∀ x y, x < input.width → y < input.height → |F x y - exactAvg kw o c input.width (fun i => f i y) x| ≤
        avgBound u η (lastIn kw o input.width x - firstIn o x) (winWeight kw o c input.width x) Mx := by
  have hex : ∀ x y, ∃ v, x < input.width → y < input.height →
      avgAt (roundArith rnd) kw o c input.width (fun i => f i y) x = some v ∧
      |v - exactAvg kw o c input.width (fun i => f i y) x| ≤
        avgBound u η (lastIn kw o input.width x - firstIn o x) (winWeight kw o c input.width x) Mx := by
    intro x y
    by_cases hxy : x < input.width ∧ y < input.height
    · obtain ⟨v, e⟩ := (avg_round R hok hxy.1 hc (fun i hi => hpix i y hi hxy.2) (hfit x hxy.1)).1
      exact ⟨v, fun _ _ => e⟩
    · exact ⟨0, fun h1 h2 => absurd ⟨h1, h2⟩ hxy⟩
  choose F hF using hex
  obtain ⟨h', e, p, v, s⟩ := C51_horizontal_float (roundArith rnd) (oneLaw_round rnd) hi ho hf hdis ew eh hk hok hw hl
    (fun x hx => (avg_round R hok hx hc (v := fun _ => 0) (fun _ _ => by rw [abs_zero]; exact hM) (hfit x hx)).2)
    (fun x y hx hy => (hF x y hx hy).1)
  exact ⟨F, h', e, p, v, s, fun x y hx hy => (hF x y hx hy).2⟩

/-- `ConvolveNormalized::vertical` with coefficients which are not negative. -/
theorem C84_normalized_vertical (R : Rounds rnd u η big) {k : Kernel K} {kw o : Nat} {c : Nat → K} {Mx : K}
    {h : Heap K} {input output : Gray} {f : Nat → Nat → K}
    (hi : input.Valid h) (ho : output.Valid h) (hf : input.Shows h f) (hdis : input.Disjoint output)
    (ew : output.width = input.width) (eh : output.height = input.height)
    (hk : k.Is1D kw o c) (hok : o < kw) (hh : input.height + kw ≤ 2147483648) (hl : input.dataLength < 2147483648)
    (hc : ∀ i, i < kw → 0 ≤ c i) (hM : 0 ≤ Mx) (hpix : ∀ x y, x < input.width → y < input.height → |f x y| ≤ Mx)
    (hfit : ∀ y, y < input.height → AvgFits u η big (lastIn kw o input.height y - firstIn o y) (winWeight kw o c input.height y) Mx) :
    ∃ (F : Nat → Nat → K) (h' : Heap K), ConvolveNormalized.verticalF (roundArith rnd) k input output h = .ok () h' ∧
      Painted h h' output (fun x y => some (F x y)) ∧ input.Valid h' ∧ input.Shows h' f ∧
      ∀ x y, x < input.width → y < input.height → |F x y - exactAvg kw o c input.height (fun i => f x i) y| ≤
        avgBound u η (lastIn kw o input.height y - firstIn o y) (winWeight kw o c input.height y) Mx := by
  have hex : ∀ x y, ∃ v, x < input.width → y < input.height →
      avgAt (roundArith rnd) kw o c input.height (fun i => f x i) y = some v ∧
      |v - exactAvg kw o c input.height (fun i => f x i) y| ≤
        avgBound u η (lastIn kw o input.height y - firstIn o y) (winWeight kw o c input.height y) Mx := by
    intro x y
    by_cases hxy : x < input.width ∧ y < input.height
    · obtain ⟨v, e⟩ := (avg_round R hok hxy.2 hc (fun i hi => hpix x i hxy.1 hi) (hfit y hxy.2)).1
      exact ⟨v, fun _ _ => e⟩
    · exact ⟨0, fun h1 h2 => absurd ⟨h1, h2⟩ hxy⟩
  choose F hF using hex
  obtain ⟨h', e, p, v, s⟩ := C51_vertical_float (roundArith rnd) (oneLaw_round rnd) hi ho hf hdis ew eh hk hok hh hl
    (fun _ _ _ => rfl)
    (fun y hy => (avg_round R hok hy hc (v := fun _ => 0) (fun _ _ => by rw [abs_zero]; exact hM) (hfit y hy)).2)
    (fun x y hx hy => (hF x y hx hy).1)
  exact ⟨F, h', e, p, v, s, fun x y hx hy => (hF x y hx hy).2⟩

/-! ## The mean blur -/

/-- `ConvolveImageMean::horizontal`. -/
theorem C84_mean_horizontal (R : Rounds rnd u η big) (E : GrowArray.Elem K) (hz : E.ms E.zero = E.zero) {c Mx : K}
    {h : Heap K} {input output : Gray} {f : Nat → Nat → K} {r : Nat}
    (hx : ExactTo rnd (2 * r + 1)) (hc : rnd (1 / ((2 * r + 1 : Nat) : K)) = some c) (hc0 : 0 < c)
    (hi : input.Valid h) (ho : output.Valid h) (hf : input.Shows h f) (hdis : input.Disjoint output)
    (ew : output.width = input.width) (eh : output.height = input.height)
    (hb : input.width + (2 * r + 1) ≤ 2147483648) (hl : input.dataLength < 2147483648)
    (hM : 0 ≤ Mx) (hpix : ∀ x y, x < input.width → y < input.height → |f x y| ≤ Mx)
    (hfit : MeanFits u η big c r input.width Mx) :
    ∃ (F : Nat → Nat → K) (h' : Heap K), ConvolveImageMean.horizontalR rnd E input output r h = .ok () h' ∧
      Painted h h' output (fun x y => some (F x y)) ∧ input.Valid h' ∧ input.Shows h' f ∧
      ∀ x y, x < input.width → y < input.height →
        |F x y - exactMean r input.width (fun i => f i y) x| ≤ meanBound u η c true r input.width x Mx := by
  have hex : ∀ x y, ∃ v, x < input.width → y < input.height →
      meanLineR rnd c true r input.width (fun i => f i y) x = some v ∧
      |v - exactMean r input.width (fun i => f i y) x| ≤ meanBound u η c true r input.width x Mx := by
    intro x y
    by_cases hxy : x < input.width ∧ y < input.height
    · obtain ⟨v, e⟩ := meanLine_round R (slides := true) hc0 hxy.1 (fun i hi => hpix i y hi hxy.2) (hx _ (le_refl _)) hfit
      exact ⟨v, fun _ _ => e⟩
    · exact ⟨0, fun h1 h2 => absurd ⟨h1, h2⟩ hxy⟩
  choose F hF using hex
  obtain ⟨_, h', e, p⟩ := (meanR_horizontal R E hz hx hc hc0 ho ew eh (hdis.pixels hi hf) hb hl hM hpix hfit
    (fun x y hx hy => (hF x y hx hy).1)).done (fun _ _ _ _ => trivial)
  obtain ⟨v, s⟩ := p.reads ho hi hdis hf
  exact ⟨F, h', e, p, v, s, fun x y hx hy => (hF x y hx hy).2⟩

/-- `ConvolveImageMean::vertical`.  The indexes of the array must be exact (`hidx`), see `C84_index_refuted`.  MISSING as in
C54: `hshape`. -/
theorem C84_mean_vertical_partial (R : Rounds rnd u η big) (E : GrowArray.Elem K) (hz : E.ms E.zero = E.zero) {c Mx : K}
    {h : Heap K} {input output : Gray} {f : Nat → Nat → K} {r N : Nat}
    (hx : ExactTo rnd (2 * r + 1)) (hc : rnd (1 / ((2 * r + 1 : Nat) : K)) = some c) (hc0 : 0 < c)
    (hi : input.Valid h) (ho : output.Valid h) (hf : input.Shows h f) (hdis : input.Disjoint output)
    (ew : output.width = input.width) (eh : output.height = input.height) (hr : 0 < r)
    (hb : input.height + (2 * r + 1) ≤ 2147483648) (hl : input.dataLength < 2147483648)
    (hshape : 2 * r + 1 ≤ input.height ∨ input.width < 2 * r + 1)
    (hxi : ExactTo rnd N) (hN : N < P32) (hidx : 2 * r + 1 ≤ input.width → input.dataLength + input.stride ≤ N)
    (hM : 0 ≤ Mx) (hpix : ∀ x y, x < input.width → y < input.height → |f x y| ≤ Mx)
    (hfit : MeanFits u η big c r input.height Mx) :
    ∃ (F : Nat → Nat → K) (h' : Heap K), ConvolveImageMean.verticalR rnd E input output r h = .ok () h' ∧
      Painted h h' output (fun x y => some (F x y)) ∧ input.Valid h' ∧ input.Shows h' f ∧
      ∀ x y, x < input.width → y < input.height →
        |F x y - exactMean r input.height (fun i => f x i) y| ≤
          meanBound u η c (decide (2 * r + 1 ≤ input.width)) r input.height y Mx := by
  have hex : ∀ x y, ∃ v, x < input.width → y < input.height →
      meanLineR rnd c (decide (2 * r + 1 ≤ input.width)) r input.height (fun i => f x i) y = some v ∧
      |v - exactMean r input.height (fun i => f x i) y| ≤
        meanBound u η c (decide (2 * r + 1 ≤ input.width)) r input.height y Mx := by
    intro x y
    by_cases hxy : x < input.width ∧ y < input.height
    · obtain ⟨v, e⟩ := meanLine_round R (slides := decide (2 * r + 1 ≤ input.width)) hc0 hxy.2 (fun i hi => hpix x i hxy.1 hi)
        (hx _ (le_refl _)) hfit
      exact ⟨v, fun _ _ => e⟩
    · exact ⟨0, fun h1 h2 => absurd ⟨h1, h2⟩ hxy⟩
  choose F hF using hex
  obtain ⟨_, h', e, p⟩ := (meanR_vertical R E hz hx hc hc0 ho ew eh (hdis.pixels hi hf) hb hr hl hshape hxi hN hidx hM hpix hfit
    (fun x y hx hy => (hF x y hx hy).1)).done (fun _ _ _ _ => trivial)
  obtain ⟨v, s⟩ := p.reads ho hi hdis hf
  exact ⟨F, h', e, p, v, s, fun x y hx hy => (hF x y hx hy).2⟩

theorem exactMean_close {r n x : Nat} {v w : Nat → K} {e : K} (hx : x < n) (h : ∀ i, i < n → |v i - w i| ≤ e) :
    |exactMean r n v x - exactMean r n w x| ≤ e := by
  have hc := localCount_pos (r := r) hx
  have hc' : (0 : K) < (localCount r n x : K) := by exact_mod_cast hc
  unfold exactMean
  rw [← sub_div, abs_div, abs_of_pos hc', div_le_iff₀ hc', mul_comm]
  have : localSum r n v x - localSum r n w x = sumF (localCount r n x) (fun i => v (x - r + i) - w (x - r + i)) := by
    unfold localSum
    generalize localCount r n x = m
    induction m with
    | zero => simp [sumF]
    | succ m ih => simp only [sumF]; rw [← ih]; ring
  rw [this]
  exact abs_sumF_le (fun i hi => h _ (by unfold localCount at hi; omega))

theorem exactMean_le {r n x : Nat} {v : Nat → K} {e : K} (hx : x < n) (h : ∀ i, i < n → |v i| ≤ e) : |exactMean r n v x| ≤ e := by
  have h1 := exactMean_close (r := r) (v := v) (w := fun _ => 0) hx (fun i hi => by rw [sub_zero]; exact h i hi)
  have h2 : exactMean r n (fun _ => (0 : K)) x = 0 := by
    unfold exactMean localSum
    rw [sumF_const, mul_zero, zero_div]
  rwa [h2, sub_zero] at h1

/-- The pixels of the blurred image do not depend on where the images are in memory. -/
theorem meanR_values (R : Rounds rnd u η big) (E : GrowArray.Elem K) (hz : E.ms E.zero = E.zero) {c Mx E1 : K}
    {f : Nat → Nat → K} {r N w ht : Nat}
    (hx : ExactTo rnd (2 * r + 1)) (hc : rnd (1 / ((2 * r + 1 : Nat) : K)) = some c) (hc0 : 0 < c) (hr : 0 < r)
    (hb : w + (2 * r + 1) ≤ 2147483648) (hb2 : ht + (2 * r + 1) ≤ 2147483648)
    (hshape : 2 * r + 1 ≤ ht ∨ w < 2 * r + 1)
    (hxi : ExactTo rnd N) (hN : N < P32)
    (hM : 0 ≤ Mx) (hpix : ∀ x y, x < w → y < ht → |f x y| ≤ Mx)
    (hfit : MeanFits u η big c r w Mx)
    (hE0 : 0 ≤ E1) (hE : ∀ x, x < w → meanBound u η c true r w x Mx ≤ E1)
    (hfit2 : MeanFits u η big c r ht (Mx + E1)) :
    ∃ F G : Nat → Nat → K, (∀ x y, x < w → y < ht →
        |F x y - meanImageK r w ht f x y| ≤ E1 + meanBound u η c (decide (2 * r + 1 ≤ w)) r ht y (Mx + E1)) ∧
      ∀ (h : Heap K) (input output storage : Gray), input.width = w → input.height = ht →
        input.Valid h → output.Valid h → storage.Valid h → input.Shows h f →
        output.CanBe input.width input.height → storage.CanBe input.width input.height →
        input.Sep output input.width input.height → input.Sep storage input.width input.height →
        storage.buf ≠ output.buf → input.dataLength < 2147483648 → storage.dataLength < 2147483648 →
        3 * input.dataLength ≤ 2 * N → 3 * storage.dataLength ≤ 2 * N →
        ∃ (out st : Gray) (h' : Heap K), BlurImageOps.meanR rnd E input output r storage h = .ok (out, st) h' ∧
          Produced2 h h' output out storage st input.width input.height F G ∧ input.Valid h' ∧ input.Shows h' f := by
  have hexG : ∀ x y, ∃ v, x < w → y < ht →
      meanLineR rnd c true r w (fun i => f i y) x = some v ∧
      |v - exactMean r w (fun i => f i y) x| ≤ E1 := by
    intro x y
    by_cases hxy : x < w ∧ y < ht
    · obtain ⟨v, e, b⟩ := meanLine_round R (slides := true) hc0 hxy.1 (fun i hi => hpix i y hi hxy.2) (hx _ (le_refl _)) hfit
      exact ⟨v, fun _ _ => ⟨e, le_trans b (hE x hxy.1)⟩⟩
    · exact ⟨0, fun h1 h2 => absurd ⟨h1, h2⟩ hxy⟩
  choose G hG using hexG
  have hGM : ∀ x y, x < w → y < ht → |G x y| ≤ Mx + E1 := fun x y hx hy => by
    have h1 := (hG x y hx hy).2
    have h2 := exactMean_le (r := r) (v := fun i => f i y) hx (fun i hi => hpix i y hi hy)
    have h3 := abs_add_le (G x y - exactMean r w (fun i => f i y) x) (exactMean r w (fun i => f i y) x)
    rw [sub_add_cancel] at h3
    linarith
  have hexF : ∀ x y, ∃ v, x < w → y < ht →
      meanLineR rnd c (decide (2 * r + 1 ≤ w)) r ht (fun i => G x i) y = some v ∧
      |v - exactMean r ht (fun i => G x i) y| ≤
        meanBound u η c (decide (2 * r + 1 ≤ w)) r ht y (Mx + E1) := by
    intro x y
    by_cases hxy : x < w ∧ y < ht
    · obtain ⟨v, e⟩ := meanLine_round R (slides := decide (2 * r + 1 ≤ w)) hc0 hxy.2 (fun i hi => hGM x i hxy.1 hi)
        (hx _ (le_refl _)) hfit2
      exact ⟨v, fun _ _ => e⟩
    · exact ⟨0, fun h1 h2 => absurd ⟨h1, h2⟩ hxy⟩
  choose F hF using hexF
  refine ⟨F, G, fun x y hx' hy => ?_, ?_⟩
  · have h1 := (hF x y hx' hy).2
    have h2 := exactMean_close (r := r) (v := fun i => G x i) (w := fun j => exactMean r w (fun i => f i j) x) hy
      (fun j hj => (hG x j hx' hj).2)
    have h3 := abs_add_le (F x y - exactMean r ht (fun i => G x i) y)
      (exactMean r ht (fun i => G x i) y - meanImageK r w ht f x y)
    rw [sub_add_sub_cancel] at h3
    change |_ - meanImageK r w ht f x y| ≤ E1 at h2
    linarith
  intro h input output storage ew eh hi ho hst hf hc' hcs hs hss hne hl hls hidx hidx'
  subst ew eh
  have harea := hi.area_le
  obtain ⟨⟨out, st⟩, h', e, p, v, s⟩ := two_stage (z := (0 : K)) (G := G) (F := F)
    (m1 := fun s => ConvolveImageMean.horizontalR rnd E input s r)
    (m2 := fun s o => ConvolveImageMean.verticalR rnd E s o r)
    hi ho hst hi.area_lt hi.widthLt hi.heightLt hc' hcs hs hss hne hf
    (fun h2 s' hv ew eh hp => meanR_horizontal R E hz hx hc hc0 hv ew eh hp hb hl hM hpix hfit
      (fun x y hx hy => (hG x y hx hy).1))
    (fun h2 s' o' hv ew eh ew' eh' hlen hp => by
      refine meanR_vertical R E hz hx hc hc0 (M := Mx + E1) hv (by omega) (by omega) hp (by omega) hr (by omega) (by omega) hxi hN (fun hk => ?_)
        (by linarith) (fun x y hx hy => hGM x y (by omega) (by omega)) (by rw [eh]; exact hfit2) (fun x y hx hy => ?_)
      · have hh : 2 * r + 1 ≤ input.height := by omega
        have hfits := hp.valid.fits (2 * r) (by omega)
        have hs2 : 2 * s'.stride ≤ 2 * r * s'.stride := Nat.mul_le_mul_right _ (by omega)
        omega
      · rw [eh, ew]; exact (hF x y (by omega) (by omega)).1)
  refine ⟨out, st, h', ?_, p, v, s⟩
  unfold BlurImageOps.meanR BlurImageOps.mean
  rw [if_neg (by omega)]
  exact e

/-- `BlurImageOps::mean`: `E1` bounds the error of the first pass, the error of the second pass is that of a line of samples
of magnitude at most `Mx + E1`.  MISSING as in C54: `hshape`. -/
theorem C84_mean_partial (R : Rounds rnd u η big) (E : GrowArray.Elem K) (hz : E.ms E.zero = E.zero) {c Mx E1 : K}
    {h : Heap K} {input output storage : Gray} {f : Nat → Nat → K} {r N : Nat}
    (hx : ExactTo rnd (2 * r + 1)) (hc : rnd (1 / ((2 * r + 1 : Nat) : K)) = some c) (hc0 : 0 < c)
    (hi : input.Valid h) (ho : output.Valid h) (hst : storage.Valid h) (hf : input.Shows h f)
    (hc' : output.CanBe input.width input.height) (hcs : storage.CanBe input.width input.height)
    (hs : input.Sep output input.width input.height) (hss : input.Sep storage input.width input.height)
    (hne : storage.buf ≠ output.buf) (hr : 0 < r)
    (hb : input.width + (2 * r + 1) ≤ 2147483648) (hb2 : input.height + (2 * r + 1) ≤ 2147483648)
    (hl : input.dataLength < 2147483648) (hls : storage.dataLength < 2147483648)
    (hshape : 2 * r + 1 ≤ input.height ∨ input.width < 2 * r + 1)
    (hxi : ExactTo rnd N) (hN : N < P32) (hidx : 3 * input.dataLength ≤ 2 * N) (hidx' : 3 * storage.dataLength ≤ 2 * N)
    (hM : 0 ≤ Mx) (hpix : ∀ x y, x < input.width → y < input.height → |f x y| ≤ Mx)
    (hfit : MeanFits u η big c r input.width Mx)
    (hE0 : 0 ≤ E1) (hE : ∀ x, x < input.width → meanBound u η c true r input.width x Mx ≤ E1)
    (hfit2 : MeanFits u η big c r input.height (Mx + E1)) :
    ∃ (F G : Nat → Nat → K) (out st : Gray) (h' : Heap K), BlurImageOps.meanR rnd E input output r storage h = .ok (out, st) h' ∧
      Produced2 h h' output out storage st input.width input.height F G ∧ input.Valid h' ∧ input.Shows h' f ∧
      ∀ x y, x < input.width → y < input.height →
        |F x y - meanImageK r input.width input.height f x y| ≤
          E1 + meanBound u η c (decide (2 * r + 1 ≤ input.width)) r input.height y (Mx + E1) := by
  obtain ⟨F, G, hF, hrun⟩ := meanR_values R E hz hx hc hc0 hr hb hb2 hshape hxi hN hM hpix hfit hE0 hE hfit2
  obtain ⟨out, st, h', e, p, v, s⟩ := hrun h input output storage rfl rfl hi ho hst hf hc' hcs hs hss hne hl hls hidx hidx'
  exact ⟨F, G, out, st, h', e, p, v, s, hF⟩

/-- Lines of 3 and of 4 samples up to 255 and radius 1 in `float` fit; 16 hundred-thousandths bound the error of each pass. -/
example : MeanFits (1 / 2 ^ 24 : ℚ) (1 / 2 ^ 150) (2 ^ 127) (11184811 / 33554432) 1 3 255 ∧
    (∀ x, x < 3 → meanBound (1 / 2 ^ 24 : ℚ) (1 / 2 ^ 150) (11184811 / 33554432) true 1 3 x 255 ≤ 16 / 100000) ∧
    MeanFits (1 / 2 ^ 24 : ℚ) (1 / 2 ^ 150) (2 ^ 127) (11184811 / 33554432) 1 4 (255 + 16 / 100000) ∧
    (∀ x, x < 4 → meanBound (1 / 2 ^ 24 : ℚ) (1 / 2 ^ 150) (11184811 / 33554432) true 1 4 x (255 + 16 / 100000) ≤ 16 / 100000) := by
  refine ⟨⟨fun _ => by decide +kernel, fun x hx => ?_⟩, by decide +kernel, ⟨fun _ => by decide +kernel, fun x hx => ?_⟩, by decide +kernel⟩
  · have h1 : ∀ x, x < 3 → roundError (1 / 2 ^ 24 : ℚ) (1 / 2 ^ 150) (localCount 1 3 x) (localCount 1 3 x) (11184811 / 33554432 * (localCount 1 3 x : ℚ)) < 11184811 / 33554432 * (localCount 1 3 x : ℚ) ∧
      grown (1 / 2 ^ 24 : ℚ) (1 / 2 ^ 150) (localCount 1 3 x) (localCount 1 3 x) (11184811 / 33554432 * (localCount 1 3 x : ℚ)) ≤ 2 ^ 127 ∧
      grown (1 / 2 ^ 24 : ℚ) (1 / 2 ^ 150) (localCount 1 3 x + 1) (2 * localCount 1 3 x) (11184811 / 33554432 * (localCount 1 3 x : ℚ) * 255) ≤ 2 ^ 127 ∧
      255 + avgError (1 / 2 ^ 24 : ℚ) (1 / 2 ^ 150) (localCount 1 3 x) (11184811 / 33554432 * (localCount 1 3 x : ℚ)) 255 ≤ 2 ^ 127 := by decide +kernel
    obtain ⟨a, b, c, d⟩ := h1 x hx
    exact ⟨a, b, c, d⟩
  · have h1 : ∀ x, x < 4 → roundError (1 / 2 ^ 24 : ℚ) (1 / 2 ^ 150) (localCount 1 4 x) (localCount 1 4 x) (11184811 / 33554432 * (localCount 1 4 x : ℚ)) < 11184811 / 33554432 * (localCount 1 4 x : ℚ) ∧
      grown (1 / 2 ^ 24 : ℚ) (1 / 2 ^ 150) (localCount 1 4 x) (localCount 1 4 x) (11184811 / 33554432 * (localCount 1 4 x : ℚ)) ≤ 2 ^ 127 ∧
      grown (1 / 2 ^ 24 : ℚ) (1 / 2 ^ 150) (localCount 1 4 x + 1) (2 * localCount 1 4 x) (11184811 / 33554432 * (localCount 1 4 x : ℚ) * (255 + 16 / 100000)) ≤ 2 ^ 127 ∧
      255 + 16 / 100000 + avgError (1 / 2 ^ 24 : ℚ) (1 / 2 ^ 150) (localCount 1 4 x) (11184811 / 33554432 * (localCount 1 4 x : ℚ)) (255 + 16 / 100000) ≤ 2 ^ 127 := by decide +kernel
    obtain ⟨a, b, c, d⟩ := h1 x hx
    exact ⟨a, b, c, d⟩

/-- The blur of C54's example in `float`, by running the model: the average of 20 and 30 at the end of the first row becomes
`25 + 2^-19`. -/
example : BlurImageOps.meanR float32 (⟨id, 4, 0, fun _ => 7⟩ : GrowArray.Elem ℚ) ⟨0, 12, 3, 4, 0, 3, false⟩
      ⟨1, 1, 1, 1, 0, 1, false⟩ 1 ⟨2, 1, 1, 1, 0, 1, false⟩
      ⟨[some [10, 20, 30, 40, 50, 60, 0, 90, 0, 255, 255, 255], some [0], some [0]]⟩ =
    .ok (⟨3, 12, 3, 4, 0, 3, false⟩, ⟨4, 12, 3, 4, 0, 3, false⟩)
      ⟨[some [10, 20, 30, 40, 50, 60, 0, 90, 0, 255, 255, 255], none, none,
        some [30, 35 + 1 / 2 ^ 18, 40, 35, 8738133 / 262144, 10922667 / 262144, 115, 14636373 / 131072, 15510187 / 131072, 150,
          285 / 2, 150],
        some [15, 20, 25 + 1 / 2 ^ 19, 45, 50, 55, 45, 30, 45, 255, 255, 255]]⟩ := by decide +kernel

/-! ## Indexes which are not exact -/

/-- The last row of a 3 × 3 image which starts at `2^24 + 2` in its array ends with the array.  The index one past the first
column, `2^24 + 11`, is computed as a `float` and becomes `2^24 + 12`, so that one row too many is summed: outside of the
array. -/
theorem C84_index_refuted (E : GrowArray.Elem ℚ) (hz : E.ms E.zero = E.zero) :
    let h : Heap ℚ := ⟨[some (List.replicate (2 ^ 24 + 11) 0), some (List.replicate 9 0)]⟩
    let input : Gray := ⟨0, 2 ^ 24 + 11, 3, 3, 2 ^ 24 + 2, 3, true⟩
    let output : Gray := ⟨1, 9, 3, 3, 0, 3, false⟩
    input.Valid h ∧ output.Valid h ∧ ConvolveImageMean.verticalR float32 E input output 1 h = .ub := by
  intro h input output
  have h0 : ∀ i, h.cell 0 i = if i < 2 ^ 24 + 11 then some 0 else none := fun i => List.getElem?_replicate ..
  have h1 : ∀ i, h.cell 1 i = if i < 9 then some 0 else none := fun i => List.getElem?_replicate ..
  have vi : input.Valid h := by
    refine ⟨rfl, fun i hi => ⟨0, ?_⟩, by decide, by decide, by decide, by decide, fun y hy => ?_, fun hs => by cases hs⟩
    · exact (h0 i).trans (if_pos hi)
    · have : y < 3 := hy
      show 2 ^ 24 + 2 + y * 3 + 3 ≤ 2 ^ 24 + 11
      omega
  have vo : output.Valid h := by
    refine ⟨rfl, fun i hi => ⟨0, ?_⟩, by decide, by decide, by decide, by decide, fun y hy => ?_, fun _ => ⟨rfl, rfl⟩⟩
    · exact (h1 i).trans (if_pos hi)
    · have : y < 3 := hy
      show 0 + y * 3 + 3 ≤ 9
      omega
  have hsh : input.Shows h (fun _ _ => 0) := fun x y hx hy => by
    have hx' : x < 3 := hx
    have hy' : y < 3 := hy
    refine (h0 _).trans (if_pos ?_)
    show 2 ^ 24 + 2 + y * 3 + x < _
    omega
  have hdis : input.Disjoint output := Gray.Disjoint.of_buf (by decide)
  refine ⟨vi, vo, ?_⟩
  have hc : float32 (1 / ((2 * 1 + 1 : Nat) : ℚ)) = some (11184811 / 33554432) := by decide +kernel
  have hx3 : ExactTo (float32 : ℚ → Option ℚ) (2 * 1 + 1) := fun i hi => float32_exact i (by omega)
  obtain ⟨k, ek, hk⟩ := mkMeanR (V := ℚ) (r := 1) E hz hx3 hc h
  have z0 : float32 (0 : ℚ) = some 0 := by decide +kernel
  unfold ConvolveImageMean.verticalR ConvolveImageMean.vertical
  have es : (checkSameShape2 input.width input.height output.width output.height : M ℚ Unit) h = .ok () h := rfl
  refine (M.bind_ok es).trans ?_
  have ek' : FactoryKernel.mean1DR float32 E (wrap32 (1 * 2 + 1)) h = .ok k h := ek
  refine (M.bind_ok ek').trans ?_
  rw [if_neg (by rw [hk.width]; decide)]
  have havg : ∀ y, y < 3 → avgAt (roundArith float32) 3 1 (fun _ => (11184811 / 33554432 : ℚ)) 3 (fun _ => 0) y = some 0 := by
    decide +kernel
  have hwt : ∀ y, y < 3 → weightAt (roundArith float32) 3 1 (fun _ => (11184811 / 33554432 : ℚ)) 3 y ≠ none := by
    decide +kernel
  obtain ⟨_, h', e1, p⟩ := (just_vertical (a := input) (f := fun _ _ => (0 : ℚ)) (F := fun _ _ => (0 : ℚ)) vo rfl rfl hk (by decide) (by decide) (hdis.pixels vi hsh)
    (fun y hy => hwt y hy) (fun x y _ hy _ => havg y hy)) (fun _ _ => False) h (Painted.sel_none (fun _ _ _ _ h => h))
  refine (M.bind_ok e1).trans ?_
  have h0' : ∀ i, h'.cell 0 i = if i < 2 ^ 24 + 11 then some 0 else none := fun i => by
    rw [p.frame 0 i (fun x y _ _ q => by cases q.1)]; exact h0 i
  unfold ConvolveImageMean.innerVertical
  have i1 : (roundMean (float32 : ℚ → Option ℚ)).index 0 3 3 = some 9 := by decide +kernel
  have i2 : (roundMean (float32 : ℚ → Option ℚ)).index (2 ^ 24 + 2) 3 3 = some (2 ^ 24 + 12) := by decide +kernel
  have hadd : (roundMean (float32 : ℚ → Option ℚ)).add 0 0 = some 0 := by decide +kernel
  have step : ∀ i, i ≤ 3 → loopS i (0 : ℚ) (fun i total => do
      let v ← rd input.buf (wrap32 (2 ^ 24 + 2 + i * input.stride))
      opt ((roundMean (float32 : ℚ → Option ℚ)).add total v)) h' = .ok 0 h' := by
    intro i
    induction i with
    | zero => intro _; rfl
    | succ i ih =>
      intro hi
      refine (M.bind_ok (ih (by omega))).trans ?_
      have : h'.cell input.buf (wrap32 (2 ^ 24 + 2 + i * input.stride)) = some 0 := by
        refine (h0' _).trans (if_pos ?_)
        show wrap32 (16777216 + 2 + i * 3) < 16777216 + 11
        rw [wrap32_of_lt (by show _ < (4294967296 : Nat); omega)]
        omega
      refine (M.bind_ok (M.rd_run this)).trans ?_
      rw [hadd]; rfl
  refine (M.bind_ok (a := 9) (h' := h') ?_).trans ?_
  · show opt ((roundMean (float32 : ℚ → Option ℚ)).index 0 3 3) h' = _
    rw [i1]; rfl
  refine M.bind_ub (M.bind_ub (M.bind_ub ?_))
  show (loopS 0 _ _ >>= _) h' = _
  refine (M.bind_ok (a := fun _ => none) (h' := h') rfl).trans ?_
  have e2 : wrap32 (input.offset + 0) = 2 ^ 24 + 2 := by decide +kernel
  simp only [e2]
  refine (M.bind_ok (a := 2 ^ 24 + 12) (h' := h') ?_).trans ?_
  · show opt ((roundMean (float32 : ℚ → Option ℚ)).index (2 ^ 24 + 2) 3 3) h' = _
    rw [i2]; rfl
  have e3 : ConvolveImageMean.stepCount (2 ^ 24 + 2) (2 ^ 24 + 12) input.stride = 3 + 1 := by decide +kernel
  rw [e3]
  refine M.bind_ub ?_
  refine (M.bind_ok (step 3 (by omega))).trans (M.bind_ub (M.rd_ub ?_))
  refine (h0' _).trans (if_neg ?_)
  show ¬(16777216 + 2 + 3 * 3) % 4294967296 < 16777216 + 11
  omega

end Boof
