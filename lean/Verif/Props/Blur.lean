import Verif.Proofs.LocalMean
/-
C36, C54, C55: blurring, and thresholding by a local mean.

`roundedMean t r n v x` and `exactMean r n v x` (Spec/Blur.lean) are the average of the samples of the line `v 0 .. v (n-1)` at
distance at most `r` from `x`.  For integral pixels `P` bounds the magnitude of the pixels, and `(2r+1)*(P+1)` must fit the
signed type in which the sums of the border are computed; 8 bit pixels (`P = 255`) meet this up to radius 4194303.
-/
namespace Boof
open M
variable {V S : Type}

/-! ## C54 -/

/-- `ConvolveImageMean::horizontal` for integral pixels. -/
theorem C54_horizontal {t : IntTy} (ht : t ∈ [U8, U16, S16, S32, S64]) (junk : Nat → Int)
    {h : Heap Int} {input output : Gray} {f : Nat → Nat → Int} {r : Nat} {P : Int}
    (hi : input.Valid h) (ho : output.Valid h) (hf : input.Shows h f) (hdis : input.Disjoint output)
    (ew : output.width = input.width) (eh : output.height = input.height)
    (hb : input.width + (2 * r + 1) ≤ 2147483648) (hP : 0 ≤ P)
    (hpix : ∀ x y, x < input.width → y < input.height → t.InRange (f x y) ∧ |f x y| ≤ P)
    (hov : (2 * r + 1 : Nat) * (P + 1) ≤ t.signedType.hi) :
    ∃ h', ConvolveImageMean.horizontalInt t (intElem t junk) input output r h = .ok () h' ∧
      Painted h h' output (fun x y => some (roundedMean t r input.width (fun i => f i y) x)) ∧
      input.Valid h' ∧ input.Shows h' f := by
  obtain ⟨_, h', e, p⟩ := (meanInt_horizontal (F := fun x y => roundedMean t r input.width (fun i => f i y) x) ht junk ho ew eh
    (hdis.pixels hi hf) hb hpix hov hP (fun _ _ => rfl)).done (fun _ _ _ _ => trivial)
  exact ⟨h', e, p, p.reads ho hi hdis hf⟩

/-- `ConvolveImageMean::vertical` for integral pixels.  MISSING for the full property: an image which is at least as wide as
the window and not as tall (`hshape`), see `C54_vertical_refuted`. -/
theorem C54_vertical_partial {t : IntTy} (ht : t ∈ [U8, U16, S16, S32, S64]) (junk : Nat → Int)
    {h : Heap Int} {input output : Gray} {f : Nat → Nat → Int} {r : Nat} {P : Int}
    (hi : input.Valid h) (ho : output.Valid h) (hf : input.Shows h f) (hdis : input.Disjoint output)
    (ew : output.width = input.width) (eh : output.height = input.height) (hr : 0 < r)
    (hb : input.height + (2 * r + 1) ≤ 2147483648) (hl : input.dataLength < 2147483648)
    (hshape : 2 * r + 1 ≤ input.height ∨ input.width < 2 * r + 1) (hP : 0 ≤ P)
    (hpix : ∀ x y, x < input.width → y < input.height → t.InRange (f x y) ∧ |f x y| ≤ P)
    (hov : (2 * r + 1 : Nat) * (P + 1) ≤ t.signedType.hi) :
    ∃ h', ConvolveImageMean.verticalInt t (intElem t junk) input output r h = .ok () h' ∧
      Painted h h' output (fun x y => some (roundedMean t r input.height (fun i => f x i) y)) ∧
      input.Valid h' ∧ input.Shows h' f := by
  obtain ⟨_, h', e, p⟩ := (meanInt_vertical (F := fun x y => roundedMean t r input.height (fun i => f x i) y) ht junk ho ew eh
    (hdis.pixels hi hf) hb hr hl hshape hpix hov hP (fun _ _ => rfl)).done (fun _ _ _ _ => trivial)
  exact ⟨h', e, p, p.reads ho hi hdis hf⟩

/-- `BlurImageOps::mean` for integral pixels: the average of every row, then the average of every column.  MISSING for the
full property: `hshape` as above. -/
theorem C54_mean_partial {t : IntTy} (ht : t ∈ [U8, U16, S16, S32, S64]) (junk : Nat → Int)
    {h : Heap Int} {input output storage : Gray} {f : Nat → Nat → Int} {r : Nat} {P : Int}
    (hi : input.Valid h) (ho : output.Valid h) (hst : storage.Valid h) (hf : input.Shows h f)
    (hc : output.CanBe input.width input.height) (hcs : storage.CanBe input.width input.height)
    (hs : input.Sep output input.width input.height) (hss : input.Sep storage input.width input.height)
    (hne : storage.buf ≠ output.buf) (hr : 0 < r)
    (hb : input.width + (2 * r + 1) ≤ 2147483648) (hb2 : input.height + (2 * r + 1) ≤ 2147483648)
    (hl : input.dataLength < 2147483648) (hls : storage.dataLength < 2147483648)
    (hshape : 2 * r + 1 ≤ input.height ∨ input.width < 2 * r + 1) (hP : 0 ≤ P) (hPh : P ≤ t.hi)
    (hpix : ∀ x y, x < input.width → y < input.height → t.InRange (f x y) ∧ |f x y| ≤ P)
    (hov : (2 * r + 1 : Nat) * (P + 1) ≤ t.signedType.hi) :
    ∃ out st h', BlurImageOps.meanInt t (intElem t junk) input output r storage h = .ok (out, st) h' ∧
      Produced2 h h' output out storage st input.width input.height (meanImage t r input.width input.height f)
        (fun x y => roundedMean t r input.width (fun i => f i y) x) ∧ input.Valid h' ∧ input.Shows h' f := by
  obtain ⟨⟨out, st⟩, h', e, p⟩ := two_stage (z := (0 : Int))
    (G := fun x y => roundedMean t r input.width (fun i => f i y) x) (F := meanImage t r input.width input.height f)
    (m1 := fun s => ConvolveImageMean.horizontalInt t (intElem t junk) input s r)
    (m2 := fun s o => ConvolveImageMean.verticalInt t (intElem t junk) s o r)
    hi ho hst hi.area_lt hi.widthLt hi.heightLt hc hcs hs hss hne hf
    (fun h2 s' hv ew eh hp => meanInt_horizontal ht junk hv ew eh hp hb hpix hov hP (fun _ _ => rfl))
    (fun h2 s' o' hv ew eh ew' eh' hlen hp => by
      refine meanInt_vertical ht junk hv (by omega) (by omega) hp (by omega) hr (by have := hi.area_le; omega) (by omega) (P := P)
        (fun x y hx hy => ?_) hov hP (fun x y => by rw [eh]; rfl)
      exact mean_pixel ht (by omega) (fun i hi => hpix i y hi (by omega)) hov hPh)
  refine ⟨out, st, h', ?_, p⟩
  unfold BlurImageOps.meanInt BlurImageOps.mean
  rw [if_neg (by omega)]
  exact e

/-- Radius 0 is refused and nothing changes. -/
theorem C54_throws (z : V) (hor ver : Gray → Gray → Nat → M V Unit) (input output storage : Gray) (h : Heap V) :
    BlurImageOps.mean z hor ver input output 0 storage h = .throw h := rfl

/-- Images of different shape are refused by the one dimensional passes. -/
theorem C54_throws_shape {T : Type} (A : Arith V S) (B : MeanArith V T) (mk : Nat → M V (Kernel S))
    (conv : Kernel S → Gray → Gray → M V Unit) (h : Heap V) (input output : Gray) (r : Nat)
    (hs : input.width ≠ output.width ∨ input.height ≠ output.height) :
    ConvolveImageMean.horizontal A B mk conv input output r h = .throw h ∧
    ConvolveImageMean.vertical A B mk conv input output r h = .throw h := by
  have : (checkSameShape2 input.width input.height output.width output.height : M V Unit) h = .throw h := by
    unfold checkSameShape2; rw [if_pos hs]; rfl
  exact ⟨M.bind_throw this, M.bind_throw this⟩

section
variable {K : Type} [Field K] [LinearOrder K] [IsStrictOrderedRing K] [FloorRing K]

/-- `ConvolveImageMean::horizontal` for floating point pixels, exact arithmetic. -/
theorem C54_horizontal_float (E : GrowArray.Elem K) (hz : E.ms E.zero = E.zero)
    {h : Heap K} {input output : Gray} {f : Nat → Nat → K} {r : Nat}
    (hi : input.Valid h) (ho : output.Valid h) (hf : input.Shows h f) (hdis : input.Disjoint output)
    (ew : output.width = input.width) (eh : output.height = input.height)
    (hb : input.width + (2 * r + 1) ≤ 2147483648) (hl : input.dataLength < 2147483648) :
    ∃ h', ConvolveImageMean.horizontalFloat E input output r h = .ok () h' ∧
      Painted h h' output (fun x y => some (exactMean r input.width (fun i => f i y) x)) ∧
      input.Valid h' ∧ input.Shows h' f := by
  obtain ⟨_, h', e, p⟩ := (meanK_horizontal (F := fun x y => exactMean r input.width (fun i => f i y) x) E hz ho ew eh
    (hdis.pixels hi hf) hb hl (fun _ _ => rfl)).done (fun _ _ _ _ => trivial)
  exact ⟨h', e, p, p.reads ho hi hdis hf⟩

/-- `ConvolveImageMean::vertical` for floating point pixels, exact arithmetic.  MISSING: `hshape`. -/
theorem C54_vertical_float_partial (E : GrowArray.Elem K) (hz : E.ms E.zero = E.zero)
    {h : Heap K} {input output : Gray} {f : Nat → Nat → K} {r : Nat}
    (hi : input.Valid h) (ho : output.Valid h) (hf : input.Shows h f) (hdis : input.Disjoint output)
    (ew : output.width = input.width) (eh : output.height = input.height) (hr : 0 < r)
    (hb : input.height + (2 * r + 1) ≤ 2147483648) (hl : input.dataLength < 2147483648)
    (hshape : 2 * r + 1 ≤ input.height ∨ input.width < 2 * r + 1) :
    ∃ h', ConvolveImageMean.verticalFloat E input output r h = .ok () h' ∧
      Painted h h' output (fun x y => some (exactMean r input.height (fun i => f x i) y)) ∧
      input.Valid h' ∧ input.Shows h' f := by
  obtain ⟨_, h', e, p⟩ := (meanK_vertical (F := fun x y => exactMean r input.height (fun i => f x i) y) E hz ho ew eh
    (hdis.pixels hi hf) hb hr hl hshape (fun _ _ => rfl)).done (fun _ _ _ _ => trivial)
  exact ⟨h', e, p, p.reads ho hi hdis hf⟩

/-- `BlurImageOps::mean` for floating point pixels, exact arithmetic.  MISSING: `hshape`. -/
theorem C54_mean_float_partial (E : GrowArray.Elem K) (hz : E.ms E.zero = E.zero)
    {h : Heap K} {input output storage : Gray} {f : Nat → Nat → K} {r : Nat}
    (hi : input.Valid h) (ho : output.Valid h) (hst : storage.Valid h) (hf : input.Shows h f)
    (hc : output.CanBe input.width input.height) (hcs : storage.CanBe input.width input.height)
    (hs : input.Sep output input.width input.height) (hss : input.Sep storage input.width input.height)
    (hne : storage.buf ≠ output.buf) (hr : 0 < r)
    (hb : input.width + (2 * r + 1) ≤ 2147483648) (hb2 : input.height + (2 * r + 1) ≤ 2147483648)
    (hl : input.dataLength < 2147483648) (hls : storage.dataLength < 2147483648)
    (hshape : 2 * r + 1 ≤ input.height ∨ input.width < 2 * r + 1) :
    ∃ out st h', BlurImageOps.meanFloat E input output r storage h = .ok (out, st) h' ∧
      Produced2 h h' output out storage st input.width input.height (meanImageK r input.width input.height f)
        (fun x y => exactMean r input.width (fun i => f i y) x) ∧ input.Valid h' ∧ input.Shows h' f := by
  obtain ⟨⟨out, st⟩, h', e, p⟩ := two_stage (z := (0 : K))
    (G := fun x y => exactMean r input.width (fun i => f i y) x) (F := meanImageK r input.width input.height f)
    (m1 := fun s => ConvolveImageMean.horizontalFloat E input s r)
    (m2 := fun s o => ConvolveImageMean.verticalFloat E s o r)
    hi ho hst hi.area_lt hi.widthLt hi.heightLt hc hcs hs hss hne hf
    (fun h2 s' hv ew eh hp => meanK_horizontal E hz hv ew eh hp hb hl (fun _ _ => rfl))
    (fun h2 s' o' hv ew eh ew' eh' hlen hp =>
      meanK_vertical E hz hv (by omega) (by omega) hp (by omega) hr (by have := hi.area_le; omega) (by omega)
        (fun x y => by rw [eh]; rfl))
  refine ⟨out, st, h', ?_, p⟩
  unfold BlurImageOps.meanFloat BlurImageOps.mean
  rw [if_neg (by omega)]
  exact e

end

/-- A 3 × 2 image and radius 1: the window is as wide as the image but taller than it, and `vertical` reads outside the
array.  The horizontal pass on the same image is fine. -/
theorem C54_vertical_refuted :
    ConvolveImageMean.verticalInt U8 (intElem U8 (fun _ => 7)) ⟨0, 6, 3, 2, 0, 3, false⟩ ⟨1, 6, 3, 2, 0, 3, false⟩ 1
      ⟨[some [1, 2, 3, 4, 5, 6], some [0, 0, 0, 0, 0, 0]]⟩ = .ub ∧
    BlurImageOps.meanInt U8 (intElem U8 (fun _ => 7)) ⟨0, 6, 3, 2, 0, 3, false⟩ ⟨1, 6, 3, 2, 0, 3, false⟩ 1
      ⟨2, 6, 3, 2, 0, 3, false⟩ ⟨[some [1, 2, 3, 4, 5, 6], some [0, 0, 0, 0, 0, 0], some [0, 0, 0, 0, 0, 0]]⟩ = .ub ∧
    (∃ h', ConvolveImageMean.horizontalInt U8 (intElem U8 (fun _ => 7)) ⟨0, 6, 3, 2, 0, 3, false⟩ ⟨1, 6, 3, 2, 0, 3, false⟩ 1
      ⟨[some [1, 2, 3, 4, 5, 6], some [0, 0, 0, 0, 0, 0]]⟩ = .ok () h') :=
  ⟨by decide +kernel, by decide +kernel, ⟨[some [1, 2, 3, 4, 5, 6], some [2, 2, 3, 5, 5, 6]]⟩, by decide +kernel⟩

/-- A case which meets the hypotheses, by running the model, with the values of the specification. -/
example : BlurImageOps.meanInt U8 (intElem U8 (fun _ => 7)) ⟨0, 12, 3, 4, 0, 3, false⟩ ⟨1, 1, 1, 1, 0, 1, false⟩ 1
      ⟨2, 1, 1, 1, 0, 1, false⟩
      ⟨[some [10, 20, 30, 40, 50, 60, 0, 90, 0, 255, 255, 255], some [0], some [0]]⟩ =
    .ok (⟨3, 12, 3, 4, 0, 3, false⟩, ⟨4, 12, 3, 4, 0, 3, false⟩)
      ⟨[some [10, 20, 30, 40, 50, 60, 0, 90, 0, 255, 255, 255], none, none,
        some [30, 35, 40, 35, 33, 42, 115, 112, 118, 150, 143, 150],
        some [15, 20, 25, 45, 50, 55, 45, 30, 45, 255, 255, 255]]⟩ ∧
    (List.range 4).map (fun y => (List.range 3).map (fun x => meanImage U8 1 3 4
      (fun x y => [10, 20, 30, 40, 50, 60, 0, 90, 0, 255, 255, 255].getD (y * 3 + x) 0) x y)) =
      [[30, 35, 40], [35, 33, 42], [115, 112, 118], [150, 143, 150]] := by decide +kernel

/-! ## C55 -/

/-- The three ways in which `gaussian(input,output,sigma,width,storage)` chooses its kernel: the number `w` of coefficients and
the standard deviation `s` it uses. -/
inductive GaussianSize {K : Type} [Field K] [LinearOrder K] [FloorRing K] (sigma : K) (width : Int) : Nat → K → Prop
  /-- both given -/
  | both (hs : 0 < sigma) (hw : 0 < width) : GaussianSize sigma width width.toNat sigma
  /-- without a width it is chosen from the standard deviation -/
  | sigma (hs : 0 < sigma) (hw : width ≤ 0) : GaussianSize sigma width (2 * (⌈(5 * sigma - 1) / 2⌉ : Int).toNat + 1) sigma
  /-- without a standard deviation it is chosen from the width -/
  | width (hs : sigma ≤ 0) (hw : 2 ≤ width) : GaussianSize sigma width width.toNat ((((width.toNat / 2 : Nat) : K) * 2 + 1) / 5)

section
variable {K : Type} [Field K] [LinearOrder K] [IsStrictOrderedRing K] [FloorRing K]

theorem gaussianKernel (E : GrowArray.Elem K) (hz : E.ms E.zero = E.zero) {ex : K → K} {c0 : K} (hc0 : 0 < c0)
    (hex : ∀ x, 0 < ex x) (hmono : ∀ x y, x < y → ex x < ex y) {sigma : K} {width : Int} {w : Nat} {s : K}
    (hsz : GaussianSize sigma width w s) (hw2 : w < 2147483648) (h : Heap V) :
    0 < w ∧ ∃ k c, FactoryKernel.gaussian1D E ex c0 sigma width h = .ok k h ∧ k.Is1D w (w / 2) c ∧ IsGaussian ex s w c := by
  cases hsz with
  | both hs hw =>
    obtain ⟨k, c, e, hk, hg, -⟩ := C45_gaussian1D (V := V) E hz hc0 hex hmono hs (w := width.toNat) (by omega) hw2 h
    rw [Int.toNat_of_nonneg (by omega)] at e
    exact ⟨by omega, k, c, e, hk, hg⟩
  | sigma hs hw =>
    have h0 : (-1 : Int) < ⌈(5 * sigma - 1) / 2⌉ := by rw [Int.lt_ceil]; push_cast; linarith
    obtain ⟨-, k, c, e, hk, hg, -⟩ := C45_gaussian1D_sigma (V := V) E hz hc0 hex hmono hs hw (r := ⌈(5 * sigma - 1) / 2⌉) rfl
      (by omega) h
    refine ⟨by omega, k, c, e, ?_, hg⟩
    rwa [show (2 * (⌈(5 * sigma - 1) / 2⌉ : Int).toNat + 1) / 2 = (⌈(5 * sigma - 1) / 2⌉ : Int).toNat by omega]
  | width hs hw =>
    obtain ⟨k, c, e, hk, hg, -⟩ := C45_gaussian1D_width (V := V) E hz hc0 hex hmono hs (w := width.toNat) (by omega) hw2 h
    rw [Int.toNat_of_nonneg (by omega)] at e
    exact ⟨by omega, k, c, e, hk, hg⟩

/-- `BlurImageOps::gaussian` for floating point pixels, exact arithmetic: the weighted averages of the rows, then those of the
columns, with the Gaussian kernel. -/
theorem C55_gaussian_float (E : GrowArray.Elem K) (hz : E.ms E.zero = E.zero) {ex : K → K} {c0 : K} (hc0 : 0 < c0)
    (hex : ∀ x, 0 < ex x) (hmono : ∀ x y, x < y → ex x < ex y) {sigma : K} {width : Int} {w : Nat} {s : K}
    (hsz : GaussianSize sigma width w s)
    {h : Heap K} {input output storage : Gray} {f : Nat → Nat → K}
    (hi : input.Valid h) (ho : output.Valid h) (hst : storage.Valid h) (hf : input.Shows h f)
    (hc : output.CanBe input.width input.height) (hcs : storage.CanBe input.width input.height)
    (hs : input.Sep output input.width input.height) (hss : input.Sep storage input.width input.height)
    (hne : storage.buf ≠ output.buf)
    (hb : input.width + w ≤ 2147483648) (hb2 : input.height + w ≤ 2147483648) (hw2 : w < 2147483648)
    (hl : input.dataLength < 2147483648) (hls : storage.dataLength < 2147483648) :
    ∃ c out st h', BlurImageOps.gaussianFloat E ex c0 input output sigma width storage h = .ok (out, st) h' ∧
      IsGaussian ex s w c ∧
      Produced2 h h' output out storage st input.width input.height
        (fun x y => exactAvg w (w / 2) c input.height (fun j => exactAvg w (w / 2) c input.width (fun i => f i j) x) y)
        (fun x y => exactAvg w (w / 2) c input.width (fun i => f i y) x) ∧ input.Valid h' ∧ input.Shows h' f := by
  have hw0 : 0 < w := (gaussianKernel (V := K) E hz hc0 hex hmono hsz hw2 h).1
  obtain ⟨k, c, hk, hg, eq⟩ : ∃ k c, k.Is1D w (w / 2) c ∧ IsGaussian ex s w c ∧
      BlurImageOps.gaussianFloat E ex c0 input output sigma width storage h = (do
        let o ← output.reshape 0 input.width input.height
        let s ← storage.reshape 0 input.width input.height
        ConvolveNormalized.horizontalF (fieldArith K) k input s
        ConvolveNormalized.verticalF (fieldArith K) k s o
        pure (o, s) : M K (Gray × Gray)) h := by
    obtain ⟨o', h1, e1, hr⟩ := reshape_spec (0 : K) ho hi.widthLt hi.heightLt hi.area_lt hc
    obtain ⟨vs, -, -⟩ := hr.input hst (Or.inl hne : storage.Sep output input.width input.height)
    obtain ⟨s', h2, e2, -⟩ := reshape_spec (0 : K) vs hi.widthLt hi.heightLt hi.area_lt hcs
    obtain ⟨-, k, c, e3, hk, hg⟩ := gaussianKernel E hz hc0 hex hmono hsz hw2 h2
    refine ⟨k, c, hk, hg, ?_⟩
    unfold BlurImageOps.gaussianFloat BlurImageOps.gaussian
    rw [M.bind_ok e1, M.bind_ok e1, M.bind_ok e2, M.bind_ok e2, M.bind_ok e3]
  have hW : ∀ n x, x < n → winWeight w (w / 2) c n x ≠ 0 := fun n x hx =>
    ne_of_gt (winWeight_pos hx (by omega) (fun i hi => le_of_lt (hg.pos i hi)) (hg.pos _ (by omega)))
  obtain ⟨⟨out, st⟩, h', e, p⟩ := two_stage (z := (0 : K))
    (G := fun x y => exactAvg w (w / 2) c input.width (fun i => f i y) x)
    (F := fun x y => exactAvg w (w / 2) c input.height (fun j => exactAvg w (w / 2) c input.width (fun i => f i j) x) y)
    (m1 := fun s => ConvolveNormalized.horizontalF (fieldArith K) k input s)
    (m2 := fun s o => ConvolveNormalized.verticalF (fieldArith K) k s o)
    hi ho hst hi.area_lt hi.widthLt hi.heightLt hc hcs hs hss hne hf
    (fun h2 s' hv ew eh hp => normalized_horizontalF (oneLaw_exact K) hv ew eh hk (by omega) hb hp hl (fun _ _ => weight_exact)
      (fun x y hx hy => avg_exact (hW _ _ hx)))
    (fun h2 s' o' hv ew eh ew' eh' hlen hp => normalized_verticalF (oneLaw_exact K) hv (by omega) (by omega) hk (by omega) (by omega)
      hp (by have := hi.area_le; omega) (fun _ _ _ => rfl) (fun _ _ => weight_exact)
      (fun x y hx hy => by rw [eh] at hy ⊢; exact avg_exact (hW _ _ hy)))
  exact ⟨c, out, st, h', eq.trans e, hg, p⟩

/-- `BlurImageOps::gaussian` for integral pixels: the rounded weighted averages of the rows, then those of the columns, with
the integer version `d` of the Gaussian kernel.  `P` bounds the magnitude of the pixels, and the sums must fit. -/
theorem C55_gaussian (E : GrowArray.Elem K) (hz : E.ms E.zero = E.zero) {ex : K → K} {c0 : K} (hc0 : 0 < c0)
    (hex : ∀ x, 0 < ex x) (hmono : ∀ x y, x < y → ex x < ex y) {sigma : K} {width : Int} {w : Nat} {s : K}
    (hsz : GaussianSize sigma width w s) {t : IntTy} (ht : t ∈ [U8, U16, S16, S32, S64]) (junk : Nat → Int)
    {h : Heap Int} {input output storage : Gray} {f : Nat → Nat → Int} {P : Int}
    (hi : input.Valid h) (ho : output.Valid h) (hst : storage.Valid h) (hf : input.Shows h f)
    (hc : output.CanBe input.width input.height) (hcs : storage.CanBe input.width input.height)
    (hs : input.Sep output input.width input.height) (hss : input.Sep storage input.width input.height)
    (hne : storage.buf ≠ output.buf)
    (hb : input.width + w ≤ 2147483648) (hb2 : input.height + w ≤ 2147483648) (hw2 : w < 2147483648)
    (hP : 0 ≤ P) (hPh : P ≤ t.hi)
    (hpix : ∀ x y, x < input.width → y < input.height → t.InRange (f x y) ∧ |f x y| ≤ P)
    (hov : (100 * w : Nat) * (P + 1) ≤ t.signedType.hi) :
    ∃ c d out st h', BlurImageOps.gaussianInt t E (intElem t.signedType junk) ex c0 input output sigma width storage h =
        .ok (out, st) h' ∧
      IsGaussian ex s w c ∧ IsIntKernel w c d 100 ∧
      Produced2 h h' output out storage st input.width input.height
        (fun x y => roundedAvg t w (w / 2) d input.height (fun j => roundedAvg t w (w / 2) d input.width (fun i => f i j) x) y)
        (fun x y => roundedAvg t w (w / 2) d input.width (fun i => f i y) x) ∧ input.Valid h' ∧ input.Shows h' f ∧
      (∀ i, i < w → 0 ≤ d i ∧ d i ≤ 100) ∧ 0 < d (w / 2) := by
  have hw0 : 0 < w := (gaussianKernel (V := K) E hz hc0 hex hmono hsz hw2 ⟨[]⟩).1
  have hts : t.signedType ∈ [U8, U16, S16, U32, S32, S64] := by
    clear hov hpix hPh
    revert t; decide
  obtain ⟨k, c, d, hk, hg, hd, hd0, hdm, eq⟩ : ∃ k c d, k.Is1D w (w / 2) d ∧ IsGaussian ex s w c ∧ IsIntKernel w c d 100 ∧
      (∀ i, i < w → 0 ≤ d i ∧ d i ≤ 100) ∧ 0 < d (w / 2) ∧
      BlurImageOps.gaussianInt t E (intElem t.signedType junk) ex c0 input output sigma width storage h = (do
        let o ← output.reshape 0 input.width input.height
        let s ← storage.reshape 0 input.width input.height
        ConvolveNormalized.horizontal (intArith t t) k input s
        ConvolveNormalized.vertical (intArith t t) k s o
        pure (o, s) : M Int (Gray × Gray)) h := by
    obtain ⟨o', h1, e1, hr⟩ := reshape_spec (0 : Int) ho hi.widthLt hi.heightLt hi.area_lt hc
    obtain ⟨vs, -, -⟩ := hr.input hst (Or.inl hne : storage.Sep output input.width input.height)
    obtain ⟨s', h2, e2, -⟩ := reshape_spec (0 : Int) vs hi.widthLt hi.heightLt hi.area_lt hcs
    obtain ⟨-, kf, c, e3, hk, hg⟩ := gaussianKernel E hz hc0 hex hmono hsz hw2 h2
    obtain ⟨k, d, e4, hk, hd, hd0, -, -, hdm⟩ := C46_gaussianInt_of E hex hw0 t.signedType hts junk e3 hk hg
    refine ⟨k, c, d, hk, hg, hd, hd0, hdm, ?_⟩
    unfold BlurImageOps.gaussianInt BlurImageOps.gaussian
    rw [M.bind_ok e1, M.bind_ok e1, M.bind_ok e2, M.bind_ok e2, M.bind_ok e4]
  have hW : ∀ n x, x < n → 0 < winWeight w (w / 2) d n x := fun n x hx =>
    winWeight_pos hx (by omega) (fun i hi => (hd0 i hi).1) hdm
  have hsum : sumF w d * (P + 1) ≤ t.signedType.hi := by
    have : sumF w d ≤ (100 * w : Nat) := by
      have := sumF_bound (n := w) (v := d) (P := 100) (fun i hi => abs_le.mpr ⟨by have := (hd0 i hi).1; omega, (hd0 i hi).2⟩)
      have := le_trans (le_abs_self _) this
      push_cast; omega
    exact le_trans (mul_le_mul_of_nonneg_right this (by omega)) hov
  have hd00 : ∀ i, i < w → 0 ≤ d i := fun i hi => (hd0 i hi).1
  have key := fun (n x : Nat) (v : Nat → Int) (hx : x < n) (hv : ∀ i, i < n → t.InRange (v i) ∧ |v i| ≤ P) =>
    avg_pixel ht hx (by omega) hd00 (hW n x hx) hv hsum hPh
  have hwt : ∀ n x, x < n → weightAt (intArith t t) w (w / 2) d n x ≠ none := fun n x hx => by
    refine (key n x (fun _ => 0) hx (fun i _ => ⟨?_, by rw [abs_zero]; exact hP⟩)).2.1
    obtain ⟨-, -, -, t2, t3, t4⟩ := pix_types ht
    cases hsg : t.signed with
    | true => have := t2 hsg; exact ⟨by omega, by omega⟩
    | false => have := t3 hsg; exact ⟨by omega, by omega⟩
  have hnar : ∀ i, i < w → (intArith t t).narrow (d i) = d i := fun i hi => by
    refine IntTy.cast_of_inRange (pix_types ht).1 ?_
    obtain ⟨-, -, -, t2, t3, t4⟩ := pix_types ht
    have := hd0 i hi
    cases hsg : t.signed with
    | true => have := t2 hsg; exact ⟨by omega, by omega⟩
    | false => have := t3 hsg; exact ⟨by omega, by omega⟩
  obtain ⟨⟨out, st⟩, h', e, p⟩ := two_stage (z := (0 : Int))
    (G := fun x y => roundedAvg t w (w / 2) d input.width (fun i => f i y) x)
    (F := fun x y => roundedAvg t w (w / 2) d input.height (fun j => roundedAvg t w (w / 2) d input.width (fun i => f i j) x) y)
    (m1 := fun s => ConvolveNormalized.horizontal (intArith t t) k input s)
    (m2 := fun s o => ConvolveNormalized.vertical (intArith t t) k s o)
    hi ho hst hi.area_lt hi.widthLt hi.heightLt hc hcs hs hss hne hf
    (fun h2 s' hv ew eh hp => normalized_horizontal hv ew eh hk (by omega) hb hp (fun x hx => hwt _ _ hx)
      (fun x y hx hy => (key _ _ _ hx (fun i hi => hpix i y hi hy)).1))
    (fun h2 s' o' hv ew eh ew' eh' hlen hp => normalized_vertical hv (by omega) (by omega) hk (by omega) (by omega)
      hp (fun _ => hnar) (fun x hx => hwt _ _ hx)
      (fun x y hx hy => by
        rw [ew] at hx
        rw [eh] at hy ⊢
        exact (key _ _ _ hy (fun j hj => (key _ _ _ hx (fun i hi => hpix i j hi hj)).2.2)).1))
  exact ⟨c, d, out, st, h', eq.trans e, hg, hd, p.1, p.2.1, p.2.2, hd0, hdm⟩

/-- A Gaussian blur whose kernel is refused has reshaped the output and the storage, and changed nothing else. -/
theorem gaussian_throws (z : V) {mk : M V (Kernel S)} (hmk : ∀ h, mk h = .throw h) (hor ver : Kernel S → Gray → Gray → M V Unit)
    {h : Heap V} {input output storage : Gray} (hi : input.Valid h) (ho : output.Valid h) (hst : storage.Valid h)
    (hc : output.CanBe input.width input.height) (hcs : storage.CanBe input.width input.height)
    (hne : storage.buf ≠ output.buf) :
    ∃ h', BlurImageOps.gaussian z mk hor ver input output storage h = .throw h' ∧
      (∀ b i, b ≠ output.buf → b ≠ storage.buf → b < h.next → h'.cell b i = h.cell b i) ∧
      (output.width = input.width → output.height = input.height → storage.width = input.width →
        storage.height = input.height → h' = h) := by
  obtain ⟨o', h1, e1, hr⟩ := reshape_spec z ho hi.widthLt hi.heightLt hi.area_lt hc
  obtain ⟨vs, -, -⟩ := hr.input hst (Or.inl hne : storage.Sep output input.width input.height)
  obtain ⟨s', h2, e2, hr2⟩ := reshape_spec z vs hi.widthLt hi.heightLt hi.area_lt hcs
  refine ⟨h2, ?_, fun b i n1 n2 hb => ?_, fun a1 a2 a3 a4 => ?_⟩
  · unfold BlurImageOps.gaussian
    rw [M.bind_ok e1, M.bind_ok e2]
    exact M.bind_throw (hmk h2)
  · rw [hr2.frame b i n2 (Nat.lt_of_lt_of_le hb hr.next_le), hr.frame b i n1 hb]
  · rw [(hr2.same a3 a4).2, (hr.same a1 a2).2]

/-- Without a usable size the call is refused.  By then the output and the storage have the shape of the input; nothing else has
changed, and nothing at all if they had it before. -/
theorem C55_throws (E : GrowArray.Elem K) (ex : K → K) (c0 : K) {sigma : K} (hsg : sigma ≤ 0) {width : Int} (hwd : width ≤ 1)
    {h : Heap K} {input output storage : Gray}
    (hi : input.Valid h) (ho : output.Valid h) (hst : storage.Valid h)
    (hc : output.CanBe input.width input.height) (hcs : storage.CanBe input.width input.height)
    (hne : storage.buf ≠ output.buf) :
    ∃ h', BlurImageOps.gaussianFloat E ex c0 input output sigma width storage h = .throw h' ∧
      (∀ b i, b ≠ output.buf → b ≠ storage.buf → b < h.next → h'.cell b i = h.cell b i) ∧
      (output.width = input.width → output.height = input.height → storage.width = input.width →
        storage.height = input.height → h' = h) :=
  gaussian_throws 0 (fun h2 => C45_gaussian1D_throws E ex c0 hsg hwd h2) _ _ hi ho hst hc hcs hne

/-- The same for integral pixels. -/
theorem C55_throws_int (t : IntTy) (E : GrowArray.Elem K) (EI : GrowArray.Elem Int) (ex : K → K) (c0 : K) {sigma : K} (hsg : sigma ≤ 0)
    {width : Int} (hwd : width ≤ 1) {h : Heap Int} {input output storage : Gray}
    (hi : input.Valid h) (ho : output.Valid h) (hst : storage.Valid h)
    (hc : output.CanBe input.width input.height) (hcs : storage.CanBe input.width input.height)
    (hne : storage.buf ≠ output.buf) :
    ∃ h', BlurImageOps.gaussianInt t E EI ex c0 input output sigma width storage h = .throw h' ∧
      (∀ b i, b ≠ output.buf → b ≠ storage.buf → b < h.next → h'.cell b i = h.cell b i) ∧
      (output.width = input.width → output.height = input.height → storage.width = input.width →
        storage.height = input.height → h' = h) :=
  gaussian_throws 0 (fun h2 => M.bind_throw (C45_gaussian1D_throws E ex c0 hsg hwd h2)) _ _ hi ho hst hc hcs hne

/-- Every positive standard deviation has a kernel size, whatever the width. -/
example (sigma : K) (hs : 0 < sigma) (width : Int) : ∃ w, GaussianSize sigma width w sigma := by
  rcases lt_or_ge 0 width with h | h
  · exact ⟨_, .both hs h⟩
  · exact ⟨_, .sigma hs h⟩

end

/-- The hypotheses hold for the real exponential, 8 bit pixels and a 5 × 4 image. -/
example : ∃ c d out st h', BlurImageOps.gaussianInt U8 (⟨id, 8, 0, fun _ => 7⟩ : GrowArray.Elem ℝ) (intElem S32 (fun _ => 3))
      Real.exp 2.5066282746310 ⟨0, 20, 5, 4, 0, 5, false⟩ ⟨1, 1, 1, 1, 0, 1, false⟩ 1 7 ⟨2, 1, 1, 1, 0, 1, false⟩
      ⟨[some (List.replicate 20 9), some [0], some [0]]⟩ = .ok (out, st) h' ∧
    IsGaussian Real.exp (1 : ℝ) 7 c ∧ IsIntKernel 7 c d 100 ∧
    h'.px out 4 3 = some (roundedAvg U8 7 3 d 4 (fun _ => roundedAvg U8 7 3 d 5 (fun _ => 9) 4) 3) := by
  obtain ⟨c, d, out, st, h', e, hg, hd, p, -⟩ := C55_gaussian (⟨id, 8, 0, fun _ => 7⟩ : GrowArray.Elem ℝ) rfl
    (c0 := 2.5066282746310) (by norm_num) Real.exp_pos (fun _ _ hxy => Real.exp_lt_exp.mpr hxy) (sigma := 1) (width := 7)
    (GaussianSize.both one_pos (by decide)) (t := U8) (by decide) (fun _ => 3) (input := ⟨0, 20, 5, 4, 0, 5, false⟩)
    (output := ⟨1, 1, 1, 1, 0, 1, false⟩) (storage := ⟨2, 1, 1, 1, 0, 1, false⟩)
    (h := ⟨[some (List.replicate 20 9), some [0], some [0]]⟩) (f := fun _ _ => 9) (P := 9)
    (by decide) (by decide) (by decide)
    (by intro x y hx hy
        have : ∀ x, x < 5 → ∀ y, y < 4 → Heap.px ⟨[some (List.replicate 20 (9:Int)), some [0], some [0]]⟩
          ⟨0, 20, 5, 4, 0, 5, false⟩ x y = some 9 := by decide
        exact this x hx y hy)
    (Or.inl rfl) (Or.inl rfl) (Or.inl (by decide)) (Or.inl (by decide)) (by decide) (by decide) (by decide) (by decide) (by decide)
    (by decide) (fun _ _ _ _ => by decide) (by decide)
  exact ⟨c, d, out, st, h', e, hg, hd, p.pix 4 3 (by decide) (by decide)⟩

/-! ## C36 -/

section
variable {K : Type} [Field K] [LinearOrder K] [IsStrictOrderedRing K] [FloorRing K]

/-- `ThresholdOps::localMean` for integral pixels: each pixel is compared to the blurred image.  The radius is half the
configured width, rounded down.  MISSING for the full property: `hshape`, because of `C54_vertical_refuted`. -/
theorem C36_localMean_partial {t : IntTy} (ht : t ∈ [U8, U16, S16, S32, S64]) (junk : Nat → Int)
    {h : Heap Int} {input output storage1 storage2 : Gray} {f : Nat → Nat → Int} {width : ConfigLength K} {scale : K} {down : Bool}
    {n : Nat} {P : Int}
    (hn : ∀ h : Heap Int, width.computeI ((min input.width input.height : Nat) : K) h = .ok n h) (hn2 : 2 ≤ n)
    (hi : input.Valid h) (ho : output.Valid h) (hs1 : storage1.Valid h) (hs2 : storage2.Valid h) (hf : input.Shows h f)
    (hc : output.CanBe input.width input.height) (hc1 : storage1.CanBe input.width input.height)
    (hc2 : storage2.CanBe input.width input.height)
    (ds : input.Sep output input.width input.height) (d1 : input.Sep storage1 input.width input.height)
    (d2 : input.Sep storage2 input.width input.height)
    (n1 : storage1.buf ≠ output.buf) (n2 : storage2.buf ≠ output.buf) (n12 : storage2.buf ≠ storage1.buf)
    (hb : input.width + (n + 1) ≤ 2147483648) (hb2 : input.height + (n + 1) ≤ 2147483648)
    (hl : input.dataLength < 2147483648) (hls : storage2.dataLength < 2147483648)
    (hshape : 2 * (n / 2) + 1 ≤ input.height ∨ input.width < 2 * (n / 2) + 1) (hP : 0 ≤ P) (hPh : P ≤ t.hi)
    (hpix : ∀ x y, x < input.width → y < input.height → t.InRange (f x y) ∧ |f x y| ≤ P)
    (hov : (n + 1 : Nat) * (P + 1) ≤ t.signedType.hi) :
    ∃ out st1 st2 h', ThresholdOps.localMean 0 (fun a b r s => BlurImageOps.meanInt t (intElem t junk) a b r s)
        (fun v => (v : K)) (fun b => if b then 1 else 0) input output width scale down storage1 storage2 h = .ok (out, st1, st2) h' ∧
      Thresholded h h' output out storage1 st1 storage2 st2 input.width input.height
        (fun x y => if (if down then (f x y : K) ≤ (meanImage t (n / 2) input.width input.height f x y : K) * scale
          else (f x y : K) * scale > (meanImage t (n / 2) input.width input.height f x y : K)) then 1 else 0) ∧
      input.Valid h' ∧ input.Shows h' f := by
  obtain ⟨⟨out, st1, st2⟩, h', e, p⟩ := localMean_spec (K := K) (z := (0 : Int)) (toK := fun v => (v : K))
    (bit := fun b => if b then 1 else 0) (scale := scale) (down := down)
    (blur := fun a b r s => BlurImageOps.meanInt t (intElem t junk) a b r s) (width := width) (n := n)
    (B := meanImage t (n / 2) input.width input.height f)
    (G := fun x y => roundedMean t (n / 2) input.width (fun i => f i y) x)
    hn hb hi ho hs1 hs2 hf hc hc1 hc2 ds d1 d2 n1 n2 n12
    (fun h3 a b vi va vb si ca cb sa sb nab hlen => by
      obtain ⟨out, st, h4, e, p, q⟩ := C54_mean_partial ht junk vi va vb si ca cb sa sb nab (r := n / 2) (by omega) (by omega) (by omega) hl
        (by have := hi.area_le; omega) hshape hP hPh hpix (le_trans (mul_le_mul_of_nonneg_right (by omega) (by omega)) hov)
      exact ⟨(out, st), h4, e, p, q⟩)
  refine ⟨out, st1, st2, h', e, p.1.congr (fun x y hx hy => ?_), p.2⟩
  cases down <;> simp

/-- The same for floating point pixels, exact arithmetic. -/
theorem C36_localMean_float_partial (E : GrowArray.Elem K) (hz : E.ms E.zero = E.zero)
    {h : Heap K} {input output storage1 storage2 : Gray} {f : Nat → Nat → K} {width : ConfigLength K} {scale : K} {down : Bool}
    {n : Nat}
    (hn : ∀ h : Heap K, width.computeI ((min input.width input.height : Nat) : K) h = .ok n h) (hn2 : 2 ≤ n)
    (hi : input.Valid h) (ho : output.Valid h) (hs1 : storage1.Valid h) (hs2 : storage2.Valid h) (hf : input.Shows h f)
    (hc : output.CanBe input.width input.height) (hc1 : storage1.CanBe input.width input.height)
    (hc2 : storage2.CanBe input.width input.height)
    (ds : input.Sep output input.width input.height) (d1 : input.Sep storage1 input.width input.height)
    (d2 : input.Sep storage2 input.width input.height)
    (n1 : storage1.buf ≠ output.buf) (n2 : storage2.buf ≠ output.buf) (n12 : storage2.buf ≠ storage1.buf)
    (hb : input.width + (n + 1) ≤ 2147483648) (hb2 : input.height + (n + 1) ≤ 2147483648)
    (hl : input.dataLength < 2147483648) (hls : storage2.dataLength < 2147483648)
    (hshape : 2 * (n / 2) + 1 ≤ input.height ∨ input.width < 2 * (n / 2) + 1) :
    ∃ out st1 st2 h', ThresholdOps.localMean 0 (fun a b r s => BlurImageOps.meanFloat E a b r s)
        id (fun b => if b then 1 else 0) input output width scale down storage1 storage2 h = .ok (out, st1, st2) h' ∧
      Thresholded h h' output out storage1 st1 storage2 st2 input.width input.height
        (fun x y => if (if down then f x y ≤ meanImageK (n / 2) input.width input.height f x y * scale
          else f x y * scale > meanImageK (n / 2) input.width input.height f x y) then 1 else 0) ∧
      input.Valid h' ∧ input.Shows h' f := by
  obtain ⟨⟨out, st1, st2⟩, h', e, p⟩ := localMean_spec (K := K) (z := (0 : K)) (toK := id)
    (bit := fun b => if b then 1 else 0) (scale := scale) (down := down)
    (blur := fun a b r s => BlurImageOps.meanFloat E a b r s) (width := width) (n := n)
    (B := meanImageK (n / 2) input.width input.height f)
    (G := fun x y => exactMean (n / 2) input.width (fun i => f i y) x)
    hn hb hi ho hs1 hs2 hf hc hc1 hc2 ds d1 d2 n1 n2 n12
    (fun h3 a b vi va vb si ca cb sa sb nab hlen => by
      obtain ⟨out, st, h4, e, p, q⟩ := C54_mean_float_partial E hz vi va vb si ca cb sa sb nab (r := n / 2) (by omega) (by omega) (by omega) hl
        (by have := hi.area_le; omega) hshape
      exact ⟨(out, st), h4, e, p, q⟩)
  refine ⟨out, st1, st2, h', e, p.1.congr (fun x y hx hy => ?_), p.2⟩
  cases down <;> simp

/-- A configured width of 0 or 1 gives radius 0, which is refused; the pictures written so far are only reshaped. -/
theorem C36_throws (z : V) (hor ver : Gray → Gray → Nat → M V Unit) (toK : V → K) (bit : Bool → V)
    {h : Heap V} {input output storage1 storage2 : Gray} {width : ConfigLength K} {scale : K} {down : Bool} {n : Nat}
    (hn : ∀ h : Heap V, width.computeI ((min input.width input.height : Nat) : K) h = .ok n h) (hn2 : n < 2)
    (hi : input.Valid h) (ho : output.Valid h) (hs1 : storage1.Valid h) (hs2 : storage2.Valid h)
    (hc : output.CanBe input.width input.height) (hc1 : storage1.CanBe input.width input.height)
    (hc2 : storage2.CanBe input.width input.height)
    (n1 : storage1.buf ≠ output.buf) (n2 : storage2.buf ≠ output.buf) (n12 : storage2.buf ≠ storage1.buf) :
    ∃ h', ThresholdOps.localMean z (BlurImageOps.mean z hor ver) toK bit input output width scale down storage1 storage2 h =
      .throw h' ∧
      (∀ b i, b ≠ output.buf → b ≠ storage1.buf → b ≠ storage2.buf → b < h.next → h'.cell b i = h.cell b i) := by
  obtain ⟨o', h1, e1, r1⟩ := reshape_spec z ho hi.widthLt hi.heightLt hi.area_lt hc
  obtain ⟨v1, -, -⟩ := r1.input hs1 (Or.inl n1 : storage1.Sep output input.width input.height)
  obtain ⟨v2, -, -⟩ := r1.input hs2 (Or.inl n2 : storage2.Sep output input.width input.height)
  obtain ⟨a, h2, e2, r2⟩ := reshape_spec z v1 hi.widthLt hi.heightLt hi.area_lt hc1
  obtain ⟨v3, -, -⟩ := r2.input v2 (Or.inl n12 : storage2.Sep storage1 input.width input.height)
  obtain ⟨b, h3, e3, r3⟩ := reshape_spec z v3 hi.widthLt hi.heightLt hi.area_lt hc2
  refine ⟨h3, ?_, fun c i k1 k2 k3 hb => ?_⟩
  swap
  · have l1 := r1.next_le
    have l2 := r2.next_le
    rw [r3.frame c i k3 (by omega), r2.frame c i k2 (by omega), r1.frame c i k1 hb]
  unfold ThresholdOps.localMean
  rw [M.bind_ok e1, M.bind_ok e2, M.bind_ok e3, M.bind_ok (hn h3)]
  refine M.bind_throw ?_
  have : toU32 (n : Int) / 2 = 0 := by
    rw [toU32_of_nonneg (by omega) (by unfold P32; omega)]; omega
  rw [this]
  rfl

end

/-- A case by running the model: 3 × 4 image, width 3, scale 1. -/
example : ThresholdOps.localMean (K := Rat) 0 (fun a b r s => BlurImageOps.meanInt U8 (intElem U8 (fun _ => 7)) a b r s)
      (fun v => (v : Rat)) (fun b => if b then 1 else 0) ⟨0, 12, 3, 4, 0, 3, false⟩ ⟨1, 1, 1, 1, 0, 1, false⟩
      (ConfigLength.fixed 3) 1 true ⟨2, 1, 1, 1, 0, 1, false⟩ ⟨3, 1, 1, 1, 0, 1, false⟩
      ⟨[some [10, 20, 30, 40, 50, 60, 0, 90, 0, 255, 255, 255], some [0], some [0], some [0]]⟩ =
    .ok (⟨4, 12, 3, 4, 0, 3, false⟩, ⟨5, 12, 3, 4, 0, 3, false⟩, ⟨6, 12, 3, 4, 0, 3, false⟩)
      ⟨[some [10, 20, 30, 40, 50, 60, 0, 90, 0, 255, 255, 255], none, none, none,
        some [1, 1, 1, 0, 0, 0, 1, 1, 1, 0, 0, 0],
        some [30, 35, 40, 35, 33, 42, 115, 112, 118, 150, 143, 150],
        some [15, 20, 25, 45, 50, 55, 45, 30, 45, 255, 255, 255]]⟩ := by decide +kernel

end Boof
