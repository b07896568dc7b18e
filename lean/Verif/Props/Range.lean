import Verif.Proofs.Range
import Verif.Props.Normalized
/-
C52 (columns and both directions, and floating point pixels) and C83: averaging keeps the range of the pixels.

`KeepsRange n near f r` (Spec/Range.lean) says that the sample `r` lies between any bounds of the pixels `f i j` with `near i j`, up to the
rounding of `n` averages when the upper bound is negative.
-/
namespace Boof
open M

/-! ## C52 -/

/-- `ConvolveNormalized::vertical` for integral pixels.  MISSING for the full property: the upper bound must not be negative
(in `KeepsRange`), see `C52_range_refuted`, and the coefficients must be representable in the pixel type when the kernel is as
tall as the image (`hnar`), see `C51_vertical_refuted`. -/
theorem C52_vertical_partial {t : IntTy} (ht : t ∈ [U8, U16, S16, S32, S64]) {k : Kernel Int} {kw o : Nat} {c : Nat → Int}
    {h : Heap Int} {input output : Gray} {f : Nat → Nat → Int} {P : Int}
    (hi : input.Valid h) (ho : output.Valid h) (hf : input.Shows h f) (hdis : input.Disjoint output)
    (ew : output.width = input.width) (eh : output.height = input.height)
    (hk : k.Is1D kw o c) (hok : o < kw) (hh : input.height + kw ≤ 2147483648)
    (hc : ∀ i, i < kw → 0 ≤ c i) (hW : ∀ y, y < input.height → 0 < winWeight kw o c input.height y)
    (hnar : input.height ≤ kw → ∀ i, i < kw → t.InRange (c i))
    (hpix : ∀ x y, x < input.width → y < input.height → t.InRange (f x y) ∧ |f x y| ≤ P) (hP0 : 0 ≤ P) (hPh : P ≤ t.hi)
    (hb : sumF kw c * (P + 1) ≤ t.signedType.hi) :
    ∃ h', ConvolveNormalized.vertical (intArith t t) k input output h = .ok () h' ∧ input.Shows h' f ∧
      ∀ x y, x < input.width → y < input.height → ∃ v, h'.px output x y = some v ∧
        KeepsRange 1 (fun i j => i = x ∧ Under kw o input.height y j) f v := by
  have key := fun (x y : Nat) (hx : x < input.width) (hy : y < input.height) =>
    avg_pixel ht (v := fun j => f x j) hy hok hc (hW y hy) (fun j hj => hpix x j hx hj) hb hPh
  obtain ⟨h', e, p, -, hs⟩ := C51_vertical_partial (intArith t t) (k := k) (kw := kw) (o := o) (c := c) (f := f)
    (F := fun x y => roundedAvg t kw o c input.height (fun j => f x j) y) hi ho hf hdis ew eh hk hok hh
    (fun a i hi => IntTy.cast_of_inRange (pix_types ht).1 (hnar a i hi))
    (fun y hy => avg_weight ht hy hok hc (hW y hy) hb hP0 hPh) (fun x y hx hy => (key x y hx hy).1)
  refine ⟨h', e, hs, fun x y hx hy => ⟨_, p.showsAll x y (by omega) (by omega), KeepsRange.of fun lo hi hu => ?_⟩⟩
  exact roundedAvg_between ht hy hok hc (hW y hy) (fun j hj => hpix x j hx hj) hb hPh (fun j hj => hu x j ⟨rfl, hj⟩)

/-- `ConvolveNormalized::convolve` for integral pixels: bounds of the rectangle under the kernel are kept.  MISSING for the full
property: as for `C52_vertical_partial`. -/
theorem C52_convolve_partial {t : IntTy} (ht : t ∈ [U8, U16, S16, S32, S64]) {k : Kernel Int} {kw o : Nat} {c : Nat → Int}
    {h : Heap Int} {input output workspace : Gray} {f : Nat → Nat → Int} {P : Int}
    (hi : input.Valid h) (ho : output.Valid h) (hws : workspace.Valid h) (hf : input.Shows h f)
    (hco : output.CanBe input.width input.height) (hcw : workspace.CanBe input.width input.height)
    (hs : input.Sep output input.width input.height) (hsw : input.Sep workspace input.width input.height)
    (hne : workspace.buf ≠ output.buf)
    (hk : k.Is1D kw o c) (hok : o < kw) (hw : input.width + kw ≤ 2147483648) (hh : input.height + kw ≤ 2147483648)
    (hc : ∀ i, i < kw → 0 ≤ c i) (hWx : ∀ x, x < input.width → 0 < winWeight kw o c input.width x)
    (hWy : ∀ y, y < input.height → 0 < winWeight kw o c input.height y)
    (hnar : input.height ≤ kw → ∀ i, i < kw → t.InRange (c i))
    (hpix : ∀ x y, x < input.width → y < input.height → t.InRange (f x y) ∧ |f x y| ≤ P) (hP0 : 0 ≤ P) (hPh : P ≤ t.hi)
    (hb : sumF kw c * (P + 1) ≤ t.signedType.hi) :
    ∃ out work h', ConvolveNormalized.convolve 0 (intArith t t) false k input output workspace h = .ok (out, work) h' ∧
      input.Shows h' f ∧ out.width = input.width ∧ out.height = input.height ∧
      ∀ x y, x < input.width → y < input.height → ∃ v, h'.px out x y = some v ∧
        KeepsRange 2 (fun i j => Under kw o input.width x i ∧ Under kw o input.height y j) f v := by
  have key := fun (x y : Nat) (hx : x < input.width) (hy : y < input.height) =>
    avg_pixel ht (v := fun i => f i y) hx hok hc (hWx x hx) (fun i hi => hpix i y hi hy) hb hPh
  have key2 := fun (x y : Nat) (hx : x < input.width) (hy : y < input.height) =>
    avg_pixel ht (v := fun j => roundedAvg t kw o c input.width (fun i => f i j) x) hy hok hc (hWy y hy)
      (fun j hj => (key x j hx hj).2.2) hb hPh
  obtain ⟨⟨out, work⟩, h', e, p, -, hs'⟩ := two_stage (z := (0 : Int))
    (G := fun x y => roundedAvg t kw o c input.width (fun i => f i y) x)
    (F := fun x y => roundedAvg t kw o c input.height (fun j => roundedAvg t kw o c input.width (fun i => f i j) x) y)
    (m1 := fun s => ConvolveNormalized.horizontal (intArith t t) k input s)
    (m2 := fun s o => ConvolveNormalized.vertical (intArith t t) k s o)
    hi ho hws hi.area_lt hi.widthLt hi.heightLt hco hcw hs hsw hne hf
    (fun h2 s' hv ew eh hp => normalized_horizontal hv ew eh hk hok hw hp
      (fun x hx => avg_weight ht hx hok hc (hWx x hx) hb hP0 hPh) (fun x y hx hy => (key x y hx hy).1))
    (fun h2 s' o' hv ew eh ew' eh' hlen hp => normalized_vertical hv (by omega) (by omega) hk hok (by omega) hp
      (by rw [eh]; exact fun a i hi => IntTy.cast_of_inRange (pix_types ht).1 (hnar a i hi))
      (by rw [eh]; exact fun y hy => avg_weight ht hy hok hc (hWy y hy) hb hP0 hPh)
      (by rw [ew, eh]; exact fun x y hx hy => (key2 x y hx hy).1))
  refine ⟨out, work, h', e, hs', p.width, p.height, fun x y hx hy => ⟨_, p.pix x y hx hy, KeepsRange.of2 fun lo hi hu => ?_⟩⟩
  exact roundedAvg_between ht hy hok hc (hWy y hy) (fun j hj => (key x j hx hj).2.2) hb hPh (fun j hj =>
    roundedAvg_between ht hx hok hc (hWx x hx) (fun i hi => hpix i j hi hj.1) hb hPh (fun i hi => hu i j ⟨hi, hj⟩))

section
variable {K : Type} [Field K] [LinearOrder K] [IsStrictOrderedRing K]

/-- `ConvolveNormalized::horizontal` for floating point pixels, exact arithmetic. -/
theorem C52_horizontal_float {k : Kernel K} {kw o : Nat} {c : Nat → K}
    {h : Heap K} {input output : Gray} {f : Nat → Nat → K}
    (hi : input.Valid h) (ho : output.Valid h) (hf : input.Shows h f) (hdis : input.Disjoint output)
    (ew : output.width = input.width) (eh : output.height = input.height)
    (hk : k.Is1D kw o c) (hok : o < kw) (hw : input.width + kw ≤ 2147483648) (hl : input.dataLength < 2147483648)
    (hc : ∀ i, i < kw → 0 ≤ c i) (hW : ∀ x, x < input.width → 0 < winWeight kw o c input.width x) :
    ∃ h', ConvolveNormalized.horizontalF (fieldArith K) k input output h = .ok () h' ∧ input.Shows h' f ∧
      ∀ x y, x < input.width → y < input.height → ∃ v, h'.px output x y = some v ∧
        KeepsRangeK (fun i j => Under kw o input.width x i ∧ j = y) f v := by
  obtain ⟨h', e, p, -, hs⟩ := C51_horizontal_float (fieldArith K) (oneLaw_exact K) (k := k) (kw := kw) (o := o) (c := c) (f := f)
    (F := fun x y => exactAvg kw o c input.width (fun i => f i y) x) hi ho hf hdis ew eh hk hok hw hl
    (fun _ _ => weight_exact) (fun x y hx hy => avg_exact (ne_of_gt (hW x hx)))
  refine ⟨h', e, hs, fun x y hx hy => ⟨_, p.showsAll x y (by omega) (by omega), KeepsRangeK.of fun lo hi hu => ?_⟩⟩
  exact exactAvg_between hx hok hc (hW x hx) (fun i hi => hu i y ⟨hi, rfl⟩)

/-- `ConvolveNormalized::vertical` for floating point pixels, exact arithmetic. -/
theorem C52_vertical_float {k : Kernel K} {kw o : Nat} {c : Nat → K}
    {h : Heap K} {input output : Gray} {f : Nat → Nat → K}
    (hi : input.Valid h) (ho : output.Valid h) (hf : input.Shows h f) (hdis : input.Disjoint output)
    (ew : output.width = input.width) (eh : output.height = input.height)
    (hk : k.Is1D kw o c) (hok : o < kw) (hh : input.height + kw ≤ 2147483648) (hl : input.dataLength < 2147483648)
    (hc : ∀ i, i < kw → 0 ≤ c i) (hW : ∀ y, y < input.height → 0 < winWeight kw o c input.height y) :
    ∃ h', ConvolveNormalized.verticalF (fieldArith K) k input output h = .ok () h' ∧ input.Shows h' f ∧
      ∀ x y, x < input.width → y < input.height → ∃ v, h'.px output x y = some v ∧
        KeepsRangeK (fun i j => i = x ∧ Under kw o input.height y j) f v := by
  obtain ⟨h', e, p, -, hs⟩ := C51_vertical_float (fieldArith K) (oneLaw_exact K) (k := k) (kw := kw) (o := o) (c := c) (f := f)
    (F := fun x y => exactAvg kw o c input.height (fun j => f x j) y) hi ho hf hdis ew eh hk hok hh hl
    (fun _ _ _ => rfl) (fun _ _ => weight_exact) (fun x y hx hy => avg_exact (ne_of_gt (hW y hy)))
  refine ⟨h', e, hs, fun x y hx hy => ⟨_, p.showsAll x y (by omega) (by omega), KeepsRangeK.of fun lo hi hu => ?_⟩⟩
  exact exactAvg_between hy hok hc (hW y hy) (fun j hj => hu x j ⟨rfl, hj⟩)

/-- `ConvolveNormalized::convolve` for floating point pixels, exact arithmetic. -/
theorem C52_convolve_float {k : Kernel K} {kw o : Nat} {c : Nat → K}
    {h : Heap K} {input output workspace : Gray} {f : Nat → Nat → K}
    (hi : input.Valid h) (ho : output.Valid h) (hws : workspace.Valid h) (hf : input.Shows h f)
    (hco : output.CanBe input.width input.height) (hcw : workspace.CanBe input.width input.height)
    (hs : input.Sep output input.width input.height) (hsw : input.Sep workspace input.width input.height)
    (hne : workspace.buf ≠ output.buf)
    (hk : k.Is1D kw o c) (hok : o < kw) (hw : input.width + kw ≤ 2147483648) (hh : input.height + kw ≤ 2147483648)
    (hl : input.dataLength < 2147483648) (hlw : workspace.dataLength < 2147483648)
    (hc : ∀ i, i < kw → 0 ≤ c i) (hWx : ∀ x, x < input.width → 0 < winWeight kw o c input.width x)
    (hWy : ∀ y, y < input.height → 0 < winWeight kw o c input.height y) :
    ∃ out work h', ConvolveNormalized.convolve 0 (fieldArith K) true k input output workspace h = .ok (out, work) h' ∧
      input.Shows h' f ∧ out.width = input.width ∧ out.height = input.height ∧
      ∀ x y, x < input.width → y < input.height → ∃ v, h'.px out x y = some v ∧
        KeepsRangeK (fun i j => Under kw o input.width x i ∧ Under kw o input.height y j) f v := by
  obtain ⟨out, work, h', e, p, -, hs'⟩ := C51_convolve_partial (0 : K) (fieldArith K) true (oneLaw_exact K)
    (G := fun x y => exactAvg kw o c input.width (fun i => f i y) x)
    (F := fun x y => exactAvg kw o c input.height (fun j => exactAvg kw o c input.width (fun i => f i j) x) y)
    hi ho hws hf hco hcw hs hsw hne hk hok hw hh hl hlw (fun _ _ _ => rfl) (fun _ _ => weight_exact) (fun _ _ => weight_exact)
    (fun x y hx hy => avg_exact (ne_of_gt (hWx x hx))) (fun x y hx hy => avg_exact (ne_of_gt (hWy y hy)))
  refine ⟨out, work, h', e, hs', p.width, p.height, fun x y hx hy => ⟨_, p.pix x y hx hy, KeepsRangeK.of fun lo hi hu => ?_⟩⟩
  exact exactAvg_between hy hok hc (hWy y hy) (fun j hj =>
    exactAvg_between hx hok hc (hWx x hx) (fun i hi => hu i j ⟨hi, hj⟩))

end

/-- Cases which meet the hypotheses: a kernel of weights 1, 2, 3 at offset 2 on lines of 5, and 8 bit pixels. -/
example : sumF 3 (fun i => ([1, 2, 3] : List Int).getD i 0) * (255 + 1) ≤ U8.signedType.hi ∧ (255 : Int) ≤ U8.hi ∧
    (∀ i : Nat, i < 3 → U8.InRange (([1, 2, 3] : List Int).getD i 0)) ∧
    (∀ x : Nat, x < 5 → 0 < winWeight 3 2 (fun i => ([1, 2, 3] : List Int).getD i 0) 5 x) ∧
    (∀ x : Nat, x < 5 → 0 < winWeight 3 2 (fun i => ([1, 2, 3] : List Rat).getD i 0) 5 x) ∧
    ConvolveNormalized.convolve 0 (intArith U8 U8) false ⟨3, 2, ⟨[1, 2, 3], 3, 0, true⟩⟩ ⟨0, 6, 3, 2, 0, 3, false⟩
      ⟨1, 6, 3, 2, 0, 3, false⟩ ⟨2, 6, 3, 2, 0, 3, false⟩
      ⟨[some [9, 9, 9, 9, 9, 9], some [0, 0, 0, 0, 0, 0], some [0, 0, 0, 0, 0, 0]]⟩ =
      .ok (⟨1, 6, 3, 2, 0, 3, false⟩, ⟨2, 6, 3, 2, 0, 3, false⟩)
        ⟨[some [9, 9, 9, 9, 9, 9], some [9, 9, 9, 9, 9, 9], some [9, 9, 9, 9, 9, 9]]⟩ := by
  unfold IntTy.InRange
  decide +kernel

/-! ## C83 -/

/-- `BlurImageOps::mean` for integral pixels.  MISSING for the full property: upper bounds below zero, see
`C83_negative_refuted`, and the images of `C54_vertical_refuted` (`hshape`). -/
theorem C83_mean_partial {t : IntTy} (ht : t ∈ [U8, U16, S16, S32, S64]) (junk : Nat → Int)
    {h : Heap Int} {input output storage : Gray} {f : Nat → Nat → Int} {r : Nat} {P : Int}
    (hi : input.Valid h) (ho : output.Valid h) (hst : storage.Valid h) (hf : input.Shows h f)
    (hc : output.CanBe input.width input.height) (hcs : storage.CanBe input.width input.height)
    (hs : input.Sep output input.width input.height) (hss : input.Sep storage input.width input.height)
    (hne : storage.buf ≠ output.buf) (hr : 0 < r)
    (hb : input.width + (2 * r + 1) ≤ 2147483648) (hb2 : input.height + (2 * r + 1) ≤ 2147483648)
    (hl : input.dataLength < 2147483648) (hls : storage.dataLength < 2147483648)
    (hshape : 2 * r + 1 ≤ input.height ∨ input.width < 2 * r + 1) (hP : 0 ≤ P) (hPh : P ≤ t.hi)
    (hpix : ∀ x y, x < input.width → y < input.height → t.InRange (f x y) ∧ |f x y| ≤ P)
    (hov : (2 * r + 1 : Nat) * (P + 1) ≤ t.signedType.hi) :
    ∃ out st h', BlurImageOps.meanInt t (intElem t junk) input output r storage h = .ok (out, st) h' ∧ input.Shows h' f ∧
      out.width = input.width ∧ out.height = input.height ∧
      ∀ x y, x < input.width → y < input.height → ∃ v, h'.px out x y = some v ∧
        KeepsRange 2 (fun i j => Near r input.width x i ∧ Near r input.height y j) f v := by
  obtain ⟨out, st, h', e, p, -, hs'⟩ := C54_mean_partial ht junk hi ho hst hf hc hcs hs hss hne hr hb hb2 hl hls hshape hP hPh hpix hov
  refine ⟨out, st, h', e, hs', p.width, p.height, fun x y hx hy => ⟨_, p.pix x y hx hy, KeepsRange.of2 fun lo hi hu => ?_⟩⟩
  unfold meanImage
  refine roundedMean_between ht hy (fun j hj => mean_pixel ht hx (fun i hi => hpix i j hi hj) hov hPh) hov hPh (fun j hj => ?_)
  exact roundedMean_between ht hx (fun i hi => hpix i j hi hj.1) hov hPh (fun i hi => hu i j ⟨hi, hj⟩)

section
variable {K : Type} [Field K] [LinearOrder K] [IsStrictOrderedRing K] [FloorRing K]

/-- `BlurImageOps::mean` for floating point pixels, exact arithmetic.  MISSING for the full property: `hshape`. -/
theorem C83_mean_float_partial (E : GrowArray.Elem K) (hz : E.ms E.zero = E.zero)
    {h : Heap K} {input output storage : Gray} {f : Nat → Nat → K} {r : Nat}
    (hi : input.Valid h) (ho : output.Valid h) (hst : storage.Valid h) (hf : input.Shows h f)
    (hc : output.CanBe input.width input.height) (hcs : storage.CanBe input.width input.height)
    (hs : input.Sep output input.width input.height) (hss : input.Sep storage input.width input.height)
    (hne : storage.buf ≠ output.buf) (hr : 0 < r)
    (hb : input.width + (2 * r + 1) ≤ 2147483648) (hb2 : input.height + (2 * r + 1) ≤ 2147483648)
    (hl : input.dataLength < 2147483648) (hls : storage.dataLength < 2147483648)
    (hshape : 2 * r + 1 ≤ input.height ∨ input.width < 2 * r + 1) :
    ∃ out st h', BlurImageOps.meanFloat E input output r storage h = .ok (out, st) h' ∧ input.Shows h' f ∧
      out.width = input.width ∧ out.height = input.height ∧
      ∀ x y, x < input.width → y < input.height → ∃ v, h'.px out x y = some v ∧
        KeepsRangeK (fun i j => Near r input.width x i ∧ Near r input.height y j) f v := by
  obtain ⟨out, st, h', e, p, -, hs'⟩ := C54_mean_float_partial E hz hi ho hst hf hc hcs hs hss hne hr hb hb2 hl hls hshape
  refine ⟨out, st, h', e, hs', p.width, p.height, fun x y hx hy => ⟨_, p.pix x y hx hy, KeepsRangeK.of fun lo hi hu => ?_⟩⟩
  unfold meanImageK
  exact exactMean_between hy (fun j hj => exactMean_between hx (fun i hi => hu i j ⟨hi, hj⟩))

/-- `BlurImageOps::gaussian` for integral pixels.  MISSING for the full property: upper bounds below zero. -/
theorem C83_gaussian_partial (E : GrowArray.Elem K) (hz : E.ms E.zero = E.zero) {ex : K → K} {c0 : K} (hc0 : 0 < c0)
    (hex : ∀ x, 0 < ex x) (hmono : ∀ x y, x < y → ex x < ex y) {sigma : K} {width : Int} {w : Nat} {s : K}
    (hsz : GaussianSize sigma width w s) {t : IntTy} (ht : t ∈ [U8, U16, S16, S32, S64]) (junk : Nat → Int)
    {h : Heap Int} {input output storage : Gray} {f : Nat → Nat → Int} {P : Int}
    (hi : input.Valid h) (ho : output.Valid h) (hst : storage.Valid h) (hf : input.Shows h f)
    (hc : output.CanBe input.width input.height) (hcs : storage.CanBe input.width input.height)
    (hs : input.Sep output input.width input.height) (hss : input.Sep storage input.width input.height)
    (hne : storage.buf ≠ output.buf)
    (hb : input.width + w ≤ 2147483648) (hb2 : input.height + w ≤ 2147483648) (hw2 : w < 2147483648)
    (hP : 0 ≤ P) (hPh : P ≤ t.hi)
    (hpix : ∀ x y, x < input.width → y < input.height → t.InRange (f x y) ∧ |f x y| ≤ P)
    (hov : (100 * w : Nat) * (P + 1) ≤ t.signedType.hi) :
    ∃ out st h', BlurImageOps.gaussianInt t E (intElem t.signedType junk) ex c0 input output sigma width storage h =
        .ok (out, st) h' ∧ input.Shows h' f ∧ out.width = input.width ∧ out.height = input.height ∧
      ∀ x y, x < input.width → y < input.height → ∃ v, h'.px out x y = some v ∧
        KeepsRange 2 (fun i j => Under w (w / 2) input.width x i ∧ Under w (w / 2) input.height y j) f v := by
  obtain ⟨c, d, out, st, h', e, -, -, p, -, hs', hd, hm⟩ := C55_gaussian E hz hc0 hex hmono hsz ht junk hi ho hst hf hc hcs hs hss
    hne hb hb2 hw2 hP hPh hpix hov
  have hw0 := (gaussianKernel (V := K) E hz hc0 hex hmono hsz hw2 ⟨[]⟩).1
  have hsum : sumF w d * (P + 1) ≤ t.signedType.hi := by
    have : sumF w d ≤ (100 * w : Nat) := by
      have := sumF_bound (n := w) (v := d) (P := 100) (fun i hi => abs_le.mpr ⟨by have := (hd i hi).1; omega, (hd i hi).2⟩)
      have := le_trans (le_abs_self _) this
      push_cast; omega
    exact le_trans (mul_le_mul_of_nonneg_right this (by omega)) hov
  have hd0 : ∀ i, i < w → 0 ≤ d i := fun i hi => (hd i hi).1
  have hW : ∀ n x, x < n → 0 < winWeight w (w / 2) d n x := fun n x hx => winWeight_pos hx (by omega) hd0 hm
  refine ⟨out, st, h', e, hs', p.width, p.height, fun x y hx hy => ⟨_, p.pix x y hx hy, KeepsRange.of2 fun lo hi hu => ?_⟩⟩
  exact roundedAvg_between ht hy (by omega) hd0 (hW _ _ hy)
    (fun j hj => (avg_pixel ht hx (by omega) hd0 (hW _ _ hx) (fun i hi => hpix i j hi hj) hsum hPh).2.2) hsum hPh (fun j hj =>
    roundedAvg_between ht hx (by omega) hd0 (hW _ _ hx) (fun i hi => hpix i j hi hj.1) hsum hPh (fun i hi => hu i j ⟨hi, hj⟩))

/-- `BlurImageOps::gaussian` for floating point pixels, exact arithmetic. -/
theorem C83_gaussian_float (E : GrowArray.Elem K) (hz : E.ms E.zero = E.zero) {ex : K → K} {c0 : K} (hc0 : 0 < c0)
    (hex : ∀ x, 0 < ex x) (hmono : ∀ x y, x < y → ex x < ex y) {sigma : K} {width : Int} {w : Nat} {s : K}
    (hsz : GaussianSize sigma width w s)
    {h : Heap K} {input output storage : Gray} {f : Nat → Nat → K}
    (hi : input.Valid h) (ho : output.Valid h) (hst : storage.Valid h) (hf : input.Shows h f)
    (hc : output.CanBe input.width input.height) (hcs : storage.CanBe input.width input.height)
    (hs : input.Sep output input.width input.height) (hss : input.Sep storage input.width input.height)
    (hne : storage.buf ≠ output.buf)
    (hb : input.width + w ≤ 2147483648) (hb2 : input.height + w ≤ 2147483648) (hw2 : w < 2147483648)
    (hl : input.dataLength < 2147483648) (hls : storage.dataLength < 2147483648) :
    ∃ out st h', BlurImageOps.gaussianFloat E ex c0 input output sigma width storage h = .ok (out, st) h' ∧
      input.Shows h' f ∧ out.width = input.width ∧ out.height = input.height ∧
      ∀ x y, x < input.width → y < input.height → ∃ v, h'.px out x y = some v ∧
        KeepsRangeK (fun i j => Under w (w / 2) input.width x i ∧ Under w (w / 2) input.height y j) f v := by
  obtain ⟨c, out, st, h', e, hg, p, -, hs'⟩ := C55_gaussian_float E hz hc0 hex hmono hsz hi ho hst hf hc hcs hs hss
    hne hb hb2 hw2 hl hls
  have hw0 := (gaussianKernel (V := K) E hz hc0 hex hmono hsz hw2 ⟨[]⟩).1
  have hc0 : ∀ i, i < w → 0 ≤ c i := fun i hi => le_of_lt (hg.pos i hi)
  have hW : ∀ n x, x < n → 0 < winWeight w (w / 2) c n x := fun n x hx => winWeight_pos hx (by omega) hc0 (hg.pos _ (by omega))
  refine ⟨out, st, h', e, hs', p.width, p.height, fun x y hx hy => ⟨_, p.pix x y hx hy, KeepsRangeK.of fun lo hi hu => ?_⟩⟩
  exact exactAvg_between hy (by omega) hc0 (hW _ _ hy) (fun j hj =>
    exactAvg_between hx (by omega) hc0 (hW _ _ hx) (fun i hi => hu i j ⟨hi, hj⟩))

end

/-- A constant 16 bit image of -1 is blurred to 0. -/
theorem C83_negative_refuted :
    ∃ h', BlurImageOps.meanInt S16 (intElem S16 (fun _ => 7)) ⟨0, 9, 3, 3, 0, 3, false⟩ ⟨1, 9, 3, 3, 0, 3, false⟩ 1
      ⟨2, 9, 3, 3, 0, 3, false⟩
      ⟨[some (List.replicate 9 (-1)), some (List.replicate 9 7), some (List.replicate 9 7)]⟩ =
      .ok (⟨1, 9, 3, 3, 0, 3, false⟩, ⟨2, 9, 3, 3, 0, 3, false⟩) h' ∧ h'.px ⟨1, 9, 3, 3, 0, 3, false⟩ 1 1 = some 0 :=
  ⟨⟨[some (List.replicate 9 (-1)), some (List.replicate 9 0), some (List.replicate 9 0)]⟩, by decide +kernel⟩

/-- The same image of 9 stays 9. -/
example : BlurImageOps.meanInt S16 (intElem S16 (fun _ => 7)) ⟨0, 9, 3, 3, 0, 3, false⟩ ⟨1, 9, 3, 3, 0, 3, false⟩ 1
      ⟨2, 9, 3, 3, 0, 3, false⟩
      ⟨[some (List.replicate 9 9), some (List.replicate 9 7), some (List.replicate 9 7)]⟩ =
      .ok (⟨1, 9, 3, 3, 0, 3, false⟩, ⟨2, 9, 3, 3, 0, 3, false⟩)
      ⟨[some (List.replicate 9 9), some (List.replicate 9 9), some (List.replicate 9 9)]⟩ ∧
    ((2 * 1 + 1 : Nat) : Int) * (9 + 1) ≤ S16.signedType.hi ∧ (9 : Int) ≤ S16.hi := by decide +kernel

end Boof
