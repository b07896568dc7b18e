import Verif.Proofs.BlurRounding
import Verif.Proofs.Order
import Verif.Proofs.Range
/-
C108: Gaussian blurs with rounded floating point arithmetic, from the standard deviation to the pixels.
-/
namespace Boof
open M

theorem exactAvg_close {K : Type} [Field K] [LinearOrder K] [IsStrictOrderedRing K] [FloorRing K] {kw o n x : Nat} {c v v' : Nat → K} {e : K} (hx : x < n)
    (hc : ∀ i, i < kw → 0 ≤ c i) (hW : 0 < winWeight kw o c n x) (h : ∀ i, i < n → |v i - v' i| ≤ e) :
    |exactAvg kw o c n v x - exactAvg kw o c n v' x| ≤ e := by
  have h1 : exactAvg kw o c n v x ≤ exactAvg kw o c n v' x + e := by
    rw [← exactAvg_shift (v := v') (v' := fun i => v' i + e) (a := e) hx hW (fun _ _ => rfl)]
    exact exactAvg_mono hx hc hW (fun i hi => by have := (abs_le.mp (h i hi.1)).2; linarith)
  have h2 : exactAvg kw o c n v' x ≤ exactAvg kw o c n v x + e := by
    rw [← exactAvg_shift (v := v) (v' := fun i => v i + e) (a := e) hx hW (fun _ _ => rfl)]
    exact exactAvg_mono hx hc hW (fun i hi => by have := (abs_le.mp (h i hi.1)).1; linarith)
  rw [abs_le]
  constructor <;> linarith

/-- `BlurImageOps::gaussian` for floating point pixels of magnitude at most `Mx`: every pixel is that of the exact blur with the exact Gaussian, up to
`240*w` roundings of `Mx`.  This covers the computation of the kernel, the sums and the divisions. -/
theorem C108_blur {rnd rndE : ℝ → Option ℝ} (F : Format rnd) (FE : Format rndE) {E : GrowArray.Elem ℝ} (hz : E.ms E.zero = E.zero) {ex : ℝ → ℝ}
    (hex : ∀ x, 0 ≤ ex x) (hmono : ∀ x y, x ≤ y → y ≤ 0 → ex x ≤ ex y) {u η big c0 sigma Mx : ℝ} {w : Nat}
    (G : GaussFits rnd rndE ex u η big c0 sigma w) (hB : BlurFits u η big w Mx) (hc0 : 0 < c0) (hs : 0 < sigma) (hw : 0 < w) (hw2 : w < 2147483648)
    (hP : w % 2 = 1 ∨ 1 / 2 ≤ sigma)
    {h : Heap ℝ} {input output storage : Gray} {f : Nat → Nat → ℝ}
    (hi : input.Valid h) (ho : output.Valid h) (hst : storage.Valid h) (hf : input.Shows h f)
    (hc : output.CanBe input.width input.height) (hcs : storage.CanBe input.width input.height)
    (hsep : input.Sep output input.width input.height) (hss : input.Sep storage input.width input.height)
    (hne : storage.buf ≠ output.buf)
    (hb : input.width + w ≤ 2147483648) (hb2 : input.height + w ≤ 2147483648)
    (hl : input.dataLength < 2147483648) (hls : storage.dataLength < 2147483648)
    (hM : 0 ≤ Mx) (hpix : ∀ x y, x < input.width → y < input.height → |f x y| ≤ Mx) :
    ∃ (I S : Nat → Nat → ℝ) (out st : Gray) (h' : Heap ℝ),
      BlurImageOps.gaussianFloatR rnd rndE E ex c0 input output sigma w storage h = .ok (out, st) h' ∧
      Produced2 h h' output out storage st input.width input.height I S ∧ input.Valid h' ∧ input.Shows h' f ∧
      ∀ x y, x < input.width → y < input.height → |I x y - gaussImage sigma w input.width input.height f x y| ≤ 240 * w * u * Mx := by
  have R := G.roundsE
  have hu := R.rel
  have hη := R.abs
  have hwr : (1 : ℝ) ≤ w := by exact_mod_cast hw
  have hwu : 0 ≤ (w : ℝ) * u := mul_nonneg (by linarith) hu
  have hwuM : 0 ≤ (w : ℝ) * u * Mx := mul_nonneg hwu hM
  obtain ⟨o', h1, e1, hr⟩ := reshape_spec (0 : ℝ) ho hi.widthLt hi.heightLt hi.area_lt hc
  obtain ⟨vs, -, -⟩ := hr.input hst (Or.inl hne : storage.Sep output input.width input.height)
  obtain ⟨s', h2, e2, -⟩ := reshape_spec (0 : ℝ) vs hi.widthLt hi.heightLt hi.area_lt hcs
  obtain ⟨k, c, e3, hk, hcl⟩ := C106_accuracy (V := ℝ) hz G hc0 hs hw hw2 hP h2
  obtain ⟨-, c', hk', hc01, -, -⟩ := C106_shape F FE hz hex hmono hc0 hs hw hw2 e3
  have hcc : ∀ i, i < w → c' i = c i := fun i hi => by
    have h1 := hk.coef i hi
    rw [hk'.coef i hi] at h1
    exact Option.some.inj h1
  have hc1 : ∀ i, i < w → 0 ≤ c i ∧ c i ≤ 1 := fun i hi => by rw [← hcc i hi]; exact hc01 i hi
  have hcn : ∀ i, i < w → 0 ≤ c i := fun i hi => (hc1 i hi).1
  have eq : BlurImageOps.gaussianFloatR rnd rndE E ex c0 input output sigma w storage h = (do
        let o ← output.reshape 0 input.width input.height
        let s ← storage.reshape 0 input.width input.height
        ConvolveNormalized.horizontalF (roundArith rndE) k input s
        ConvolveNormalized.verticalF (roundArith rndE) k s o
        pure (o, s) : M ℝ (Gray × Gray)) h := by
    unfold BlurImageOps.gaussianFloatR BlurImageOps.gaussian
    rw [M.bind_ok e1, M.bind_ok e1, M.bind_ok e2, M.bind_ok e2, M.bind_ok e3]
  have hE1 : 110 * w * u * Mx ≤ 0.11 * Mx := mul_le_mul_of_nonneg_right (by have := hB.fine; linarith) hM
  have hM2 : 0 ≤ 1.11 * Mx := by linarith
  have hW : ∀ n x, x < n → 0 < winWeight w (w / 2) (gaussCoef sigma w) n x := fun n x hx =>
    winWeight_pos hx (by omega) (fun i _ => (gaussCoef_pos hw i).le) (gaussCoef_pos hw _)
  have line1 := fun (n x : Nat) (hx : x < n) => gauss_line (big := big) (sigma := sigma) (M := Mx) hu hη hw hc1 hcl hB.fine hB.tiny hM hB.tinyM hB.range
    (by have := hB.rangeM; have : 0 ≤ (w : ℝ) * Mx := mul_nonneg (by linarith) hM; linarith) hx
  have line2 := fun (n x : Nat) (hx : x < n) => gauss_line (big := big) (sigma := sigma) (M := 1.11 * Mx) hu hη hw hc1 hcl hB.fine hB.tiny hM2
    (le_trans hB.tinyM (mul_le_mul_of_nonneg_left (by linarith) hu)) hB.range
    (by have := hB.rangeM; have : 0 ≤ (w : ℝ) * Mx := mul_nonneg (by linarith) hM; linarith) hx
  have hexS : ∀ x y, ∃ v, x < input.width → y < input.height →
      avgAt (roundArith rndE) w (w / 2) c input.width (fun i => f i y) x = some v ∧
      |v - exactAvg w (w / 2) (gaussCoef sigma w) input.width (fun i => f i y) x| ≤ 110 * w * u * Mx := by
    intro x y
    by_cases hxy : x < input.width ∧ y < input.height
    · obtain ⟨v, e, bd⟩ := (avg_round R (by omega) hxy.1 hcn (fun i hi => hpix i y hi hxy.2) (line1 _ x hxy.1).1).1
      exact ⟨v, fun _ _ => ⟨e, (line1 _ x hxy.1).2 _ (fun i hi => hpix i y hi hxy.2) v bd⟩⟩
    · exact ⟨0, fun h1 h2 => absurd ⟨h1, h2⟩ hxy⟩
  choose S hS using hexS
  have hSM : ∀ x y, x < input.width → y < input.height → |S x y| ≤ 1.11 * Mx := fun x y hx hy => by
    have h1 := (hS x y hx hy).2
    have h2 := exactAvg_between (v := fun i => f i y) (lo := -Mx) (hi := Mx) hx (show w / 2 < w by omega) (fun i _ => (gaussCoef_pos hw i).le) (hW _ _ hx)
      (fun i hi => abs_le.mp (hpix i y hi.1 hy))
    have h3 := abs_le.mp h1
    rw [abs_le]
    constructor <;> linarith
  have hexI : ∀ x y, ∃ v, x < input.width → y < input.height →
      avgAt (roundArith rndE) w (w / 2) c input.height (fun j => S x j) y = some v ∧
      |v - exactAvg w (w / 2) (gaussCoef sigma w) input.height (fun j => S x j) y| ≤ 110 * w * u * (1.11 * Mx) := by
    intro x y
    by_cases hxy : x < input.width ∧ y < input.height
    · obtain ⟨v, e, bd⟩ := (avg_round R (by omega) hxy.2 hcn (fun j hj => hSM x j hxy.1 hj) (line2 _ y hxy.2).1).1
      exact ⟨v, fun _ _ => ⟨e, (line2 _ y hxy.2).2 _ (fun j hj => hSM x j hxy.1 hj) v bd⟩⟩
    · exact ⟨0, fun h1 h2 => absurd ⟨h1, h2⟩ hxy⟩
  choose I hI using hexI
  have harea := hi.area_le
  obtain ⟨⟨out, st⟩, h', e, p, v, s⟩ := two_stage (z := (0 : ℝ)) (G := S) (F := I)
    (m1 := fun s => ConvolveNormalized.horizontalF (roundArith rndE) k input s)
    (m2 := fun s o => ConvolveNormalized.verticalF (roundArith rndE) k s o)
    hi ho hst hi.area_lt hi.widthLt hi.heightLt hc hcs hsep hss hne hf
    (fun h2 s' hv ew eh hp => normalized_horizontalF (oneLaw_round rndE) hv ew eh hk (by omega) hb hp hl
      (fun x hx => (avg_round R (by omega) hx hcn (v := fun _ => 0) (fun _ _ => by rw [abs_zero]; exact hM) (line1 _ x hx).1).2)
      (fun x y hx hy => (hS x y hx hy).1))
    (fun h2 s' o' hv ew eh ew' eh' hlen hp => normalized_verticalF (oneLaw_round rndE) hv (by omega) (by omega) hk (by omega) (by omega)
      hp (by omega) (fun _ _ _ => rfl)
      (fun y hy => (avg_round R (by omega) hy hcn (v := fun _ => 0) (fun _ _ => by rw [abs_zero]; exact hM2) (line2 _ y hy).1).2)
      (fun x y hx hy => by rw [eh]; exact (hI x y (by omega) (by omega)).1))
  refine ⟨I, S, out, st, h', eq.trans e, p, v, s, fun x y hx hy => ?_⟩
  have h3 := (hI x y hx hy).2
  have h4 := exactAvg_close (v := fun j => S x j) (v' := fun j => exactAvg w (w / 2) (gaussCoef sigma w) input.width (fun i => f i j) x) hy
    (fun i _ => (gaussCoef_pos hw i).le) (hW _ _ hy) (fun j hj => (hS x j hx hj).2)
  have h5 := abs_add_le (I x y - exactAvg w (w / 2) (gaussCoef sigma w) input.height (fun j => S x j) y)
    (exactAvg w (w / 2) (gaussCoef sigma w) input.height (fun j => S x j) y - gaussImage sigma w input.width input.height f x y)
  rw [sub_add_sub_cancel] at h5
  change |_ - gaussImage sigma w input.width input.height f x y| ≤ _ at h4
  linarith

/-- `BlurImageOps::gaussian` for integral pixels, with the kernel computed with rounding: the rounded weighted averages of the rows, then those of the
columns, with an integer kernel which is symmetric, does not increase away from the middle and is not zero there (C107). -/
theorem C108_int {rnd : ℝ → Option ℝ} (FR : Format rnd) {E : GrowArray.Elem ℝ} (hz : E.ms E.zero = E.zero) {ex : ℝ → ℝ} (hex : ∀ x, 0 ≤ ex x)
    (hmono : ∀ x y, x ≤ y → y ≤ 0 → ex x ≤ ex y) {u η big c0 sigma : ℝ} {w : Nat} (G : GaussFits rnd rnd ex u η big c0 sigma w) (hc0 : 0 < c0)
    (hsg : 0 < sigma) (hw : 0 < w) (hw2 : w < 2147483648) (hPar : w % 2 = 1 ∨ 1 / 2 ≤ sigma) (hu : 1000 * u ≤ 1) (hη : 400 * w * η ≤ u)
    (hbig : 1000 ≤ big) {t : IntTy} (ht : t ∈ [U8, U16, S16, S32, S64]) (junk : Nat → Int)
    {h : Heap Int} {input output storage : Gray} {f : Nat → Nat → Int} {P : Int}
    (hi : input.Valid h) (ho : output.Valid h) (hst : storage.Valid h) (hf : input.Shows h f)
    (hc : output.CanBe input.width input.height) (hcs : storage.CanBe input.width input.height)
    (hs : input.Sep output input.width input.height) (hss : input.Sep storage input.width input.height)
    (hne : storage.buf ≠ output.buf)
    (hb : input.width + w ≤ 2147483648) (hb2 : input.height + w ≤ 2147483648)
    (hP : 0 ≤ P) (hPh : P ≤ t.hi)
    (hpix : ∀ x y, x < input.width → y < input.height → t.InRange (f x y) ∧ |f x y| ≤ P)
    (hov : (100 * w : Nat) * (P + 1) ≤ t.signedType.hi) :
    ∃ d out st h', BlurImageOps.gaussianIntR t rnd E (intElem t.signedType junk) ex c0 input output sigma w storage h = .ok (out, st) h' ∧
      (∀ i, i < w → 0 ≤ d i ∧ d i ≤ 100) ∧ (∀ i, i < w → d (w - 1 - i) = d i) ∧
      (∀ i j, i < w → j < w → |2 * (i : Int) + 1 - w| ≤ |2 * (j : Int) + 1 - w| → d j ≤ d i) ∧ 0 < d (w / 2) ∧
      Produced2 h h' output out storage st input.width input.height
        (fun x y => roundedAvg t w (w / 2) d input.height (fun j => roundedAvg t w (w / 2) d input.width (fun i => f i j) x) y)
        (fun x y => roundedAvg t w (w / 2) d input.width (fun i => f i y) x) ∧ input.Valid h' ∧ input.Shows h' f := by
  have hts : t.signedType ∈ [U8, U16, S16, U32, S32, S64] := by
    clear hov hpix hPh
    revert t; decide
  obtain ⟨o', h1, e1, hr⟩ := reshape_spec (0 : Int) ho hi.widthLt hi.heightLt hi.area_lt hc
  obtain ⟨vs, -, -⟩ := hr.input hst (Or.inl hne : storage.Sep output input.width input.height)
  obtain ⟨s', h2, e2, -⟩ := reshape_spec (0 : Int) vs hi.widthLt hi.heightLt hi.area_lt hcs
  obtain ⟨k, d, e3, hk, hd0, hsym, hord, hdm⟩ := C107_gaussian (V := Int) FR hz hex hmono G hc0 hsg hw hw2 hPar hu hη hbig t.signedType hts junk h2
  have eq : BlurImageOps.gaussianIntR t rnd E (intElem t.signedType junk) ex c0 input output sigma w storage h = (do
        let o ← output.reshape 0 input.width input.height
        let s ← storage.reshape 0 input.width input.height
        ConvolveNormalized.horizontal (intArith t t) k input s
        ConvolveNormalized.vertical (intArith t t) k s o
        pure (o, s) : M Int (Gray × Gray)) h := by
    unfold BlurImageOps.gaussianIntR BlurImageOps.gaussian
    rw [M.bind_ok e1, M.bind_ok e1, M.bind_ok e2, M.bind_ok e2, M.bind_ok e3]
  have hW : ∀ n x, x < n → 0 < winWeight w (w / 2) d n x := fun n x hx =>
    winWeight_pos hx (by omega) (fun i hi => (hd0 i hi).1) hdm
  have hsum : sumF w d * (P + 1) ≤ t.signedType.hi := by
    have : sumF w d ≤ (100 * w : Nat) := by
      have := sumF_bound (n := w) (v := d) (P := 100) (fun i hi => abs_le.mpr ⟨by have := (hd0 i hi).1; omega, (hd0 i hi).2⟩)
      have := le_trans (le_abs_self _) this
      push_cast; omega
    exact le_trans (mul_le_mul_of_nonneg_right this (by omega)) hov
  have hd00 : ∀ i, i < w → 0 ≤ d i := fun i hi => (hd0 i hi).1
  have key := fun (n x : Nat) (v : Nat → Int) (hx : x < n) (hv : ∀ i, i < n → t.InRange (v i) ∧ |v i| ≤ P) =>
    avg_pixel ht hx (by omega) hd00 (hW n x hx) hv hsum hPh
  have hwt : ∀ n x, x < n → weightAt (intArith t t) w (w / 2) d n x ≠ none := fun n x hx => by
    refine (key n x (fun _ => 0) hx (fun i _ => ⟨?_, by rw [abs_zero]; exact hP⟩)).2.1
    obtain ⟨-, -, -, t2, t3, t4⟩ := pix_types ht
    cases hsg : t.signed with
    | true => have := t2 hsg; exact ⟨by omega, by omega⟩
    | false => have := t3 hsg; exact ⟨by omega, by omega⟩
  have hnar : ∀ i, i < w → (intArith t t).narrow (d i) = d i := fun i hi => by
    refine IntTy.cast_of_inRange (pix_types ht).1 ?_
    obtain ⟨-, -, -, t2, t3, t4⟩ := pix_types ht
    have := hd0 i hi
    cases hsg : t.signed with
    | true => have := t2 hsg; exact ⟨by omega, by omega⟩
    | false => have := t3 hsg; exact ⟨by omega, by omega⟩
  obtain ⟨⟨out, st⟩, h', e, p⟩ := two_stage (z := (0 : Int))
    (G := fun x y => roundedAvg t w (w / 2) d input.width (fun i => f i y) x)
    (F := fun x y => roundedAvg t w (w / 2) d input.height (fun j => roundedAvg t w (w / 2) d input.width (fun i => f i j) x) y)
    (m1 := fun s => ConvolveNormalized.horizontal (intArith t t) k input s)
    (m2 := fun s o => ConvolveNormalized.vertical (intArith t t) k s o)
    hi ho hst hi.area_lt hi.widthLt hi.heightLt hc hcs hs hss hne hf
    (fun h2 s' hv ew eh hp => normalized_horizontal hv ew eh hk (by omega) hb hp (fun x hx => hwt _ _ hx)
      (fun x y hx hy => (key _ _ _ hx (fun i hi => hpix i y hi hy)).1))
    (fun h2 s' o' hv ew eh ew' eh' hlen hp => normalized_vertical hv (by omega) (by omega) hk (by omega) (by omega)
      hp (fun _ => hnar) (fun x hx => hwt _ _ hx)
      (fun x y hx hy => by
        rw [ew] at hx
        rw [eh] at hy ⊢
        exact (key _ _ _ hy (fun j hj => (key _ _ _ hx (fun i hi => hpix i j hi hj)).2.2)).1))
  exact ⟨d, out, st, h', eq.trans e, hd0, hsym, hord, hdm, p.1, p.2.1, p.2.2⟩

/-- The image of the specification is what the library computes with exact arithmetic (C55). -/
theorem C108_exact {sigma : ℝ} {w : Nat} (hw : 0 < w) {c : Nat → ℝ} (hg : IsGaussian Real.exp sigma w c) {W H : Nat} (f : Nat → Nat → ℝ) (x y : Nat) :
    exactAvg w (w / 2) c H (fun j => exactAvg w (w / 2) c W (fun i => f i j) x) y = gaussImage sigma w W H f x y := by
  have h1 : ∀ n v x, exactAvg w (w / 2) c n v x = exactAvg w (w / 2) (gaussCoef sigma w) n v x := by
    intro n v x
    have h0 : lastIn w (w / 2) n x ≤ w := by unfold lastIn; omega
    unfold exactAvg winSum winWeight
    congr 1
    · exact sumF_congr (fun i hi => by rw [C106_exact hw hg _ (by omega)])
    · exact sumF_congr (fun i hi => by rw [C106_exact hw hg _ (by omega)])
  unfold gaussImage
  rw [h1]
  simp only [h1]

/-- If no width is given, it is `2*r+1` with the radius `r` chosen for sigma (C105). -/
theorem C108_width {rnd rndE : ℝ → Option ℝ} (E : GrowArray.Elem ℝ) (ex : ℝ → ℝ) (c0 : ℝ) {sigma : ℝ} (hs : 0 < sigma) {width : Int} (hw : width ≤ 0)
    {r : Int} (er : ∀ h : Heap ℝ, FactoryKernel.radiusForSigmaR rnd sigma 0 h = .ok r h) (hr0 : 0 ≤ r) (hr : 2 * r + 1 < 2147483648)
    (input output storage : Gray) :
    BlurImageOps.gaussianFloatR rnd rndE E ex c0 input output sigma width storage =
      BlurImageOps.gaussianFloatR rnd rndE E ex c0 input output sigma (2 * r + 1) storage := by
  unfold BlurImageOps.gaussianFloatR
  rw [show (FactoryKernel.gaussian1DR rnd rndE E ex c0 sigma width : M ℝ (Kernel ℝ)) = FactoryKernel.gaussian1DR rnd rndE E ex c0 sigma (2 * r + 1) from
    funext (fun h => C106_width rnd rndE E ex c0 hs hw (er h) hr0 hr)]

/-- If no sigma is given, it is the one chosen for the radius `width/2` (C105). -/
theorem C108_sigma {rnd rndE : ℝ → Option ℝ} (E : GrowArray.Elem ℝ) (ex : ℝ → ℝ) (c0 : ℝ) {sigma s : ℝ} (hs : sigma ≤ 0) (hs' : 0 < s) {w : Nat} (hw : 0 < w)
    (er : ∀ h : Heap ℝ, FactoryKernel.sigmaForRadiusR rnd (((w / 2 : Nat) : Int) : ℝ) 0 h = .ok s h) (input output storage : Gray) :
    BlurImageOps.gaussianFloatR rnd rndE E ex c0 input output sigma w storage =
      BlurImageOps.gaussianFloatR rnd rndE E ex c0 input output s w storage := by
  unfold BlurImageOps.gaussianFloatR
  rw [show (FactoryKernel.gaussian1DR rnd rndE E ex c0 sigma w : M ℝ (Kernel ℝ)) = FactoryKernel.gaussian1DR rnd rndE E ex c0 s w from
    funext (fun h => C106_sigma rnd rndE E ex c0 hs hs' hw (er h))]

/-- Format `float`: kernels up to width 16000, and pixels whose bound `M` is between 1 and `2^100`. -/
theorem C108_float {w : Nat} (hw : w ≤ 16000) {M : ℝ} (hM : 1 ≤ M) (hM2 : M ≤ 2 ^ 100) : BlurFits (1 / 2 ^ 24) (1 / 2 ^ 150) (2 ^ 127) w M := by
  have hwr : (w : ℝ) ≤ 16000 := by exact_mod_cast hw
  have hw0 : (0 : ℝ) ≤ w := Nat.cast_nonneg w
  have h1 : 4 * (w : ℝ) * (1 / 2 ^ 150) ≤ 1 / 2 ^ 24 := by linarith
  refine ⟨by linarith, h1, ?_, by linarith, ?_⟩
  · refine le_trans h1 ?_
    linarith
  · have := mul_le_mul hwr hM2 (by linarith) (by norm_num)
    linarith

/-- Format `double`, likewise. -/
theorem C108_double {w : Nat} (hw : w ≤ 100000) {M : ℝ} (hM : 1 ≤ M) (hM2 : M ≤ 2 ^ 1000) : BlurFits (1 / 2 ^ 53) (1 / 2 ^ 1075) (2 ^ 1023) w M := by
  have hwr : (w : ℝ) ≤ 100000 := by exact_mod_cast hw
  have hw0 : (0 : ℝ) ≤ w := Nat.cast_nonneg w
  have hη : (1 : ℝ) / 2 ^ 1075 ≤ 1 / 2 ^ 100 := one_div_le_one_div_of_le (by positivity) (pow_le_pow_right₀ (by norm_num) (by norm_num))
  have hη0 : (0 : ℝ) ≤ 1 / 2 ^ 1075 := by positivity
  have hb : (2 : ℝ) ^ 20 * 2 ^ 1000 ≤ 2 ^ 1023 := by rw [← pow_add]; exact pow_le_pow_right₀ (by norm_num) (by norm_num)
  have hb0 : (1 : ℝ) ≤ 2 ^ 1000 := one_le_pow₀ (by norm_num)
  generalize (1 : ℝ) / 2 ^ 1075 = η at *
  generalize (2 : ℝ) ^ 1023 = big at *
  generalize (2 : ℝ) ^ 1000 = B at *
  have h1 : 4 * (w : ℝ) * η ≤ 1 / 2 ^ 53 := by
    have := mul_le_mul hwr hη hη0 (by norm_num)
    linarith
  refine ⟨by linarith, h1, ?_, by linarith, ?_⟩
  · linarith
  · have := mul_le_mul hwr hM2 (by linarith) (by norm_num)
    linarith

/-- A picture with pixels up to 255 in `double`, blurred with sigma 3/2 and width 5: the error is less than `2^-34`. -/
example {h : Heap ℝ} {input output storage : Gray} {f : Nat → Nat → ℝ}
    (hi : input.Valid h) (ho : output.Valid h) (hst : storage.Valid h) (hf : input.Shows h f)
    (hc : output.CanBe input.width input.height) (hcs : storage.CanBe input.width input.height)
    (hsep : input.Sep output input.width input.height) (hss : input.Sep storage input.width input.height)
    (hne : storage.buf ≠ output.buf)
    (hb : input.width ≤ 100000) (hb2 : input.height ≤ 100000)
    (hl : input.dataLength < 2147483648) (hls : storage.dataLength < 2147483648)
    (hpix : ∀ x y, x < input.width → y < input.height → |f x y| ≤ 255) :
    ∃ (I S : Nat → Nat → ℝ) (out st : Gray) (h' : Heap ℝ),
      BlurImageOps.gaussianFloatR float64 float64 (⟨id, 8, 0, fun _ => 7⟩ : GrowArray.Elem ℝ) expRounded 2.5066282746310 input output (3/2) (5 : Nat) storage h =
        .ok (out, st) h' ∧
      Produced2 h h' output out storage st input.width input.height I S ∧
      ∀ x y, x < input.width → y < input.height → |I x y - gaussImage (3/2) 5 input.width input.height f x y| < 1 / 2 ^ 34 := by
  obtain ⟨I, S, out, st, h', e, p, -, -, bd⟩ := C108_blur float64_format float64_format (E := (⟨id, 8, 0, fun _ => 7⟩ : GrowArray.Elem ℝ)) rfl
    expRounded_nonneg (fun _ _ => expRounded_mono)
    (C106_double (fun _ hx => expRounded_near hx) (c0 := 2.5066282746310) (sigma := 3/2) (w := 5) (by norm_num) (by norm_num) (by norm_num) (by norm_num) (by decide))
    (C108_double (M := 255) (by decide) (by norm_num) (le_trans (by norm_num) (pow_le_pow_right₀ (by norm_num) (show 8 ≤ 1000 by decide)))) (by norm_num) (by norm_num)
    (by decide) (by decide) (Or.inl (by decide)) hi ho hst hf hc hcs hsep hss hne (by omega) (by omega) hl hls (by norm_num) hpix
  exact ⟨I, S, out, st, h', e, p, fun x y hx hy => lt_of_le_of_lt (bd x y hx hy) (by norm_num)⟩

/-- Such pictures exist: 3 × 2 pixels, an empty output and storage. -/
example : let h : Heap ℝ := ⟨[some [10, 20, 30, 40, 50, 255], some [0], some [0]]⟩
    (⟨0, 6, 3, 2, 0, 3, false⟩ : Gray).Valid h ∧ (⟨0, 6, 3, 2, 0, 3, false⟩ : Gray).Sep ⟨1, 1, 1, 1, 0, 1, false⟩ 3 2 ∧
    (⟨1, 1, 1, 1, 0, 1, false⟩ : Gray).CanBe 3 2 := by
  refine ⟨by decide, Or.inl (by decide), Or.inl rfl⟩

/-- An image of nines, 5 × 4 pixels, blurred in `double` with sigma 1 and width 7. -/
example : ∃ d out st h', BlurImageOps.gaussianIntR U8 float64 (⟨id, 8, 0, fun _ => 7⟩ : GrowArray.Elem ℝ) (intElem S32 (fun _ => 3)) expRounded
      2.5066282746310 ⟨0, 20, 5, 4, 0, 5, false⟩ ⟨1, 1, 1, 1, 0, 1, false⟩ 1 (7 : Nat) ⟨2, 1, 1, 1, 0, 1, false⟩
      (⟨[some (List.replicate 20 9), some [0], some [0]]⟩ : Heap Int) = .ok (out, st) h' ∧ d 0 = d 6 ∧ 0 < d 3 ∧
    h'.px out 4 3 = some (roundedAvg U8 7 3 d 4 (fun _ => roundedAvg U8 7 3 d 5 (fun _ => 9) 4) 3) := by
  have hη : (1 : ℝ) / 2 ^ 1075 ≤ 1 / 2 ^ 100 := one_div_le_one_div_of_le (by positivity) (pow_le_pow_right₀ (by norm_num) (by norm_num))
  obtain ⟨d, out, st, h', e, -, hsym, -, hm, p, -⟩ := C108_int float64_format (E := (⟨id, 8, 0, fun _ => 7⟩ : GrowArray.Elem ℝ)) rfl
    expRounded_nonneg (fun _ _ => expRounded_mono)
    (C106_double (fun _ hx => expRounded_near hx) (c0 := 2.5066282746310) (sigma := 1) (w := 7) (by norm_num) (by norm_num) (by norm_num) (by norm_num) (by decide))
    (by norm_num) (by norm_num) (by decide) (by decide) (Or.inl (by decide)) (by norm_num)
    (by generalize (1 : ℝ) / 2 ^ 1075 = η at *; push_cast; linarith)
    (le_trans (by norm_num) (pow_le_pow_right₀ (by norm_num) (show 10 ≤ 1023 by decide))) (t := U8) (by decide) (fun _ => 3) (input := ⟨0, 20, 5, 4, 0, 5, false⟩)
    (output := ⟨1, 1, 1, 1, 0, 1, false⟩) (storage := ⟨2, 1, 1, 1, 0, 1, false⟩)
    (h := ⟨[some (List.replicate 20 9), some [0], some [0]]⟩) (f := fun _ _ => 9) (P := 9)
    (by decide) (by decide) (by decide)
    (by intro x y hx hy
        have : ∀ x, x < 5 → ∀ y, y < 4 → Heap.px ⟨[some (List.replicate 20 (9:Int)), some [0], some [0]]⟩
          ⟨0, 20, 5, 4, 0, 5, false⟩ x y = some 9 := by decide
        exact this x hx y hy)
    (Or.inl rfl) (Or.inl rfl) (Or.inl (by decide)) (Or.inl (by decide)) (by decide) (by decide) (by decide) (by decide) (by decide)
    (fun _ _ _ _ => by decide) (by decide)
  exact ⟨d, out, st, h', e, (hsym 0 (by decide)).symm, hm, p.pix 4 3 (by decide) (by decide)⟩

end Boof
