import Verif.Proofs.Tame
import Verif.Proofs.LocalMean
import Verif.Props.Blur
/-
C36, C54: exactly where the mean blur and the threshold by a local mean are undefined.

`C54_vertical_partial` and `C54_mean_partial` leave out the images which are at least as wide as the window and not as tall.
The theorems below say that on those images the functions are undefined, whatever the pixels: the partial theorems cannot be
extended, unless the array happens to go on behind the image.
-/
namespace Boof
open M

/-- `ConvolveImageMean::vertical` for integral pixels: an image at least as wide as the window, of any height, whose array ends
before the row `2*radius`, is read outside its array.  (The row `2*radius` lies inside the image exactly if the image is as tall
as the window.) -/
theorem C54_vertical_undefined (t : IntTy) (junk : Nat → Int) {h : Heap Int} {input output : Gray} {r : Nat}
    (ew : output.width = input.width) (eh : output.height = input.height) (hst : input.width ≤ input.stride)
    (hw : 2 * r + 1 ≤ input.width) (hb : input.offset + input.stride * (2 * r + 1) < 2 ^ 32)
    (hend : h.cell input.buf (input.offset + 2 * r * input.stride) = none) :
    ConvolveImageMean.verticalInt t (intElem t junk) input output r h = .ub :=
  vertical_ub ew eh hw hst hb (mkMeanInt t junk r) (fun _ _ => rfl) hend

/-- `BlurImageOps::mean` for integral pixels: every image at least as wide as the window and not as tall is undefined, unless
the array of `storage` was made for a larger image. -/
theorem C54_mean_undefined (t : IntTy) (junk : Nat → Int) {h : Heap Int} {input output storage : Gray} {r : Nat}
    (hi : input.Valid h) (ho : output.Valid h) (hst : storage.Valid h) (hc : output.CanBe input.width input.height)
    (hown : storage.subimage = false) (hne : storage.buf ≠ output.buf) (hr : 0 < r)
    (hw : 2 * r + 1 ≤ input.width) (hh : input.height < 2 * r + 1) (hb : input.width * (2 * r + 1) < 2 ^ 32)
    (hend : h.cell storage.buf (2 * r * input.width) = none) :
    BlurImageOps.meanInt t (intElem t junk) input output r storage h = .ub :=
  mean_ub hi ho hst hc hown hne hr hw hh hb (mkMeanInt t junk r)
    (show some (wrap32 (0 + input.width * (2 * r + 1))) = _ by rw [Nat.zero_add]) hend

section
variable {K : Type} [Field K] [LinearOrder K] [IsStrictOrderedRing K] [FloorRing K]

/-- The same for floating point pixels. -/
theorem C54_vertical_float_undefined (E : GrowArray.Elem K) (hz : E.ms E.zero = E.zero) {h : Heap K} {input output : Gray}
    {r : Nat} (ew : output.width = input.width) (eh : output.height = input.height) (hst : input.width ≤ input.stride)
    (hw : 2 * r + 1 ≤ input.width) (hb : input.offset + input.stride * (2 * r + 1) < 2 ^ 32)
    (hend : h.cell input.buf (input.offset + 2 * r * input.stride) = none) :
    ConvolveImageMean.verticalFloat E input output r h = .ub :=
  vertical_ub ew eh hw hst hb (mkMeanK E hz r) (fun _ _ => rfl) hend

/-- The same for floating point pixels. -/
theorem C54_mean_float_undefined (E : GrowArray.Elem K) (hz : E.ms E.zero = E.zero) {h : Heap K}
    {input output storage : Gray} {r : Nat}
    (hi : input.Valid h) (ho : output.Valid h) (hst : storage.Valid h) (hc : output.CanBe input.width input.height)
    (hown : storage.subimage = false) (hne : storage.buf ≠ output.buf) (hr : 0 < r)
    (hw : 2 * r + 1 ≤ input.width) (hh : input.height < 2 * r + 1) (hb : input.width * (2 * r + 1) < 2 ^ 32)
    (hend : h.cell storage.buf (2 * r * input.width) = none) :
    BlurImageOps.meanFloat E input output r storage h = .ub :=
  mean_ub hi ho hst hc hown hne hr hw hh hb (mkMeanK E hz r)
    (show some (wrap32 (0 + input.width * (2 * r + 1))) = _ by rw [Nat.zero_add]) hend

/-- The threshold is undefined if its blur is. -/
theorem localMean_ub {V : Type} {z : V} {blur : Gray → Gray → Nat → Gray → M V (Gray × Gray)} {toK : V → K} {bit : Bool → V}
    {h : Heap V} {input output storage1 storage2 : Gray} {width : ConfigLength K} {scale : K} {down : Bool} {n i : Nat}
    (hn : ∀ h : Heap V, width.computeI ((min input.width input.height : Nat) : K) h = .ok n h) (hlt : n < 2 ^ 32)
    (hi : input.Valid h) (ho : output.Valid h) (hs1 : storage1.Valid h) (hs2 : storage2.Valid h)
    (hc : output.CanBe input.width input.height) (hc1 : storage1.CanBe input.width input.height)
    (hown : storage2.subimage = false)
    (ds : input.Sep output input.width input.height) (d1 : input.Sep storage1 input.width input.height)
    (d2 : input.Sep storage2 input.width input.height)
    (n1 : storage1.buf ≠ output.buf) (n2 : storage2.buf ≠ output.buf) (n12 : storage2.buf ≠ storage1.buf)
    (hend : h.cell storage2.buf i = none) (hle : input.width * input.height ≤ i)
    (hblur : ∀ h3 a b, input.Valid h3 → a.Valid h3 → b.Valid h3 → a.CanBe input.width input.height → b.subimage = false →
      b.buf ≠ a.buf → h3.cell b.buf i = none → blur input a (n / 2) b h3 = .ub) :
    ThresholdOps.localMean z blur toK bit input output width scale down storage1 storage2 h = .ub := by
  unfold ThresholdOps.localMean
  obtain ⟨o', h1, e1, r1⟩ := reshape_spec z ho hi.widthLt hi.heightLt hi.area_lt hc
  refine (M.bind_ok e1).trans ?_
  obtain ⟨vi1, -, -⟩ := r1.input hi ds
  obtain ⟨vs1, -, -⟩ := r1.input hs1 (Or.inl n1 : storage1.Sep output input.width input.height)
  obtain ⟨vs2, -, -⟩ := r1.input hs2 (Or.inl n2 : storage2.Sep output input.width input.height)
  obtain ⟨a, h2, e2, r2⟩ := reshape_spec z vs1 hi.widthLt hi.heightLt hi.area_lt hc1
  refine (M.bind_ok e2).trans ?_
  obtain ⟨vi2, -, -⟩ := r2.input vi1 d1
  obtain ⟨vs3, -, -⟩ := r2.input vs2 (Or.inl n12 : storage2.Sep storage1 input.width input.height)
  have b3 := r2.buf_ne vs2 n12
  obtain ⟨b, h3, e3, r3⟩ := reshape_spec z vs3 hi.widthLt hi.heightLt hi.area_lt (Or.inl hown)
  refine (M.bind_ok e3).trans ?_
  obtain ⟨vi3, -, -⟩ := r3.input vi2 d2
  obtain ⟨va3, -, -⟩ := r3.input r2.valid (Or.inl (Ne.symm b3) : a.Sep storage2 input.width input.height)
  have b5 := r3.buf_ne r2.valid (Ne.symm b3)
  refine (M.bind_ok (hn h3)).trans ?_
  have hr : toU32 (n : Int) / 2 = n / 2 := by
    rw [toU32_of_nonneg (by omega) (by unfold P32; omega)]; omega
  simp only [hr]
  refine M.bind_ub (hblur h3 a b vi3 va3 r3.valid (Or.inr ⟨r2.width, r2.height⟩) (r3.sub.trans hown) (Ne.symm b5) ?_)
  refine reshape_end z vs3 hown hi.area_lt e3 hle ?_
  rw [r2.frame _ _ n12 vs2.lt_next, r1.frame _ _ n2 hs2.lt_next]
  exact hend

/-- `ThresholdOps::localMean` for integral pixels is undefined on the same images; `n` is the configured width. -/
theorem C36_localMean_undefined (t : IntTy) (junk : Nat → Int) {toK : Int → K} {bit : Bool → Int}
    {h : Heap Int} {input output storage1 storage2 : Gray} {width : ConfigLength K} {scale : K} {down : Bool} {n : Nat}
    (hn : ∀ h : Heap Int, width.computeI ((min input.width input.height : Nat) : K) h = .ok n h) (hn2 : 2 ≤ n)
    (hi : input.Valid h) (ho : output.Valid h) (hs1 : storage1.Valid h) (hs2 : storage2.Valid h)
    (hc : output.CanBe input.width input.height) (hc1 : storage1.CanBe input.width input.height)
    (hown : storage2.subimage = false)
    (ds : input.Sep output input.width input.height) (d1 : input.Sep storage1 input.width input.height)
    (d2 : input.Sep storage2 input.width input.height)
    (n1 : storage1.buf ≠ output.buf) (n2 : storage2.buf ≠ output.buf) (n12 : storage2.buf ≠ storage1.buf)
    (hlt : n < 2 ^ 32) (hw : 2 * (n / 2) + 1 ≤ input.width) (hh : input.height < 2 * (n / 2) + 1)
    (hb : input.width * (2 * (n / 2) + 1) < 2 ^ 32)
    (hend : h.cell storage2.buf (2 * (n / 2) * input.width) = none) :
    ThresholdOps.localMean 0 (fun a b r s => BlurImageOps.meanInt t (intElem t junk) a b r s) toK bit input output width scale
      down storage1 storage2 h = .ub :=
  localMean_ub hn hlt hi ho hs1 hs2 hc hc1 hown ds d1 d2 n1 n2 n12 hend
    (by rw [Nat.mul_comm (2 * (n / 2))]; exact Nat.mul_le_mul_left _ (by omega))
    (fun h3 a b vi va vb ca so nab he => C54_mean_undefined t junk vi va vb ca so nab (by omega) hw hh hb he)

/-- The same for floating point pixels. -/
theorem C36_localMean_float_undefined (E : GrowArray.Elem K) (hz : E.ms E.zero = E.zero) {bit : Bool → K} {toK : K → K}
    {h : Heap K} {input output storage1 storage2 : Gray} {width : ConfigLength K} {scale : K} {down : Bool} {n : Nat}
    (hn : ∀ h : Heap K, width.computeI ((min input.width input.height : Nat) : K) h = .ok n h) (hn2 : 2 ≤ n)
    (hi : input.Valid h) (ho : output.Valid h) (hs1 : storage1.Valid h) (hs2 : storage2.Valid h)
    (hc : output.CanBe input.width input.height) (hc1 : storage1.CanBe input.width input.height)
    (hown : storage2.subimage = false)
    (ds : input.Sep output input.width input.height) (d1 : input.Sep storage1 input.width input.height)
    (d2 : input.Sep storage2 input.width input.height)
    (n1 : storage1.buf ≠ output.buf) (n2 : storage2.buf ≠ output.buf) (n12 : storage2.buf ≠ storage1.buf)
    (hlt : n < 2 ^ 32) (hw : 2 * (n / 2) + 1 ≤ input.width) (hh : input.height < 2 * (n / 2) + 1)
    (hb : input.width * (2 * (n / 2) + 1) < 2 ^ 32)
    (hend : h.cell storage2.buf (2 * (n / 2) * input.width) = none) :
    ThresholdOps.localMean 0 (fun a b r s => BlurImageOps.meanFloat E a b r s) toK bit input output width scale
      down storage1 storage2 h = .ub :=
  localMean_ub hn hlt hi ho hs1 hs2 hc hc1 hown ds d1 d2 n1 n2 n12 hend
    (by rw [Nat.mul_comm (2 * (n / 2))]; exact Nat.mul_le_mul_left _ (by omega))
    (fun h3 a b vi va vb ca so nab he => C54_mean_float_undefined E hz vi va vb ca so nab (by omega) hw hh hb he)

end

/-- A 5 × 2 image and radius 1: the hypotheses of `C54_mean_undefined` hold, with outputs still to be made. -/
example : BlurImageOps.meanInt U8 (intElem U8 (fun _ => 7)) ⟨0, 10, 5, 2, 0, 5, false⟩ ⟨1, 1, 1, 1, 0, 1, false⟩ 1
    ⟨2, 1, 1, 1, 0, 1, false⟩ ⟨[some [1, 2, 3, 4, 5, 6, 7, 8, 9, 10], some [0], some [0]]⟩ = .ub :=
  C54_mean_undefined U8 _ (by decide) (by decide) (by decide) (Or.inl rfl) rfl (by decide) (by decide) (by decide) (by decide)
    (by decide) (by decide)

/-- A 3 × 2 sub-image at the end of its 4 × 4 parent: the row `2*radius` is the one after the end. -/
example : ConvolveImageMean.verticalInt U8 (intElem U8 (fun _ => 7)) ⟨0, 16, 3, 2, 9, 4, true⟩ ⟨1, 6, 3, 2, 0, 3, false⟩ 1
    ⟨[some (List.replicate 16 1), some (List.replicate 6 0)]⟩ = .ub :=
  C54_vertical_undefined U8 _ rfl rfl (by decide) (by decide) (by decide) (by decide)

/-- With the first rows of the same parent there is a row `2*radius`, although it is not in the image: the theorem does not
apply, and the program reads the pixels of the parent. -/
example : ∃ h', ConvolveImageMean.verticalInt U8 (intElem U8 (fun _ => 7)) ⟨0, 16, 3, 2, 0, 4, true⟩ ⟨1, 6, 3, 2, 0, 3, false⟩ 1
    ⟨[some (List.replicate 8 1 ++ List.replicate 8 100), some (List.replicate 6 0)]⟩ = .ok () h' ∧
    h'.cell 1 3 = some 34 := ⟨_, rfl, by decide +kernel⟩

end Boof
