import Verif.Proofs.Part
import Verif.Props.Order
import Verif.Props.Convolve
import Verif.Props.Images
/-
C101: filtering a part of a picture gives the part of the filtered picture, wherever the filter sees the same pixels.

`i₁` shows the whole picture `f`, `i₂` the part of it whose corner is `(ox, oy)` (Spec/Part.lean); it may be a view of `i₁` (`C101_view`), a copy, or
any other image with these pixels.
-/
namespace Boof
open M

/-- A view of an image shows a part of its picture. -/
theorem C101_view {V : Type} {h : Heap V} {i : Gray} {f : Nat → Nat → V} (hv : i.Valid h) (hf : i.Shows h f) {x0 y0 x1 y1 : Nat}
    (hx : x0 ≤ x1) (hx1 : x1 ≤ i.width) (hy : y0 ≤ y1) (hy1 : y1 ≤ i.height) :
    ∃ s, (i.makeSubimage x0 y0 x1 y1 : M V Gray) h = .ok s h ∧ s.Valid h ∧ s.Shows h (fun x y => f (x0 + x) (y0 + y)) ∧
      PartOf s.width s.height (fun x y => f (x0 + x) (y0 + y)) x0 y0 i.width i.height f := by
  obtain ⟨s, e, v, -, ew, eh, eb, ha⟩ := C04_window hv hx hx1 hy hy1
  refine ⟨s, e, v, fun x y hx hy => ?_, ⟨by omega, by omega, fun _ _ _ _ => rfl⟩⟩
  have := hf (x0 + x) (y0 + y) (by omega) (by omega)
  unfold Heap.px at *
  rw [ha x y hx hy, eb]
  exact this

/-! ## Mean blur -/

section
variable {t : IntTy} {junk junk' : Nat → Int} {h₁ h₂ h₁' h₂' : Heap Int} {i₁ i₂ u₁ u₂ s₁ s₂ o₁ o₂ v₁ v₂ : Gray} {f g : Nat → Nat → Int} {r ox oy : Nat}
  {P : Int}

theorem C101_mean (ht : t ∈ [U8, U16, S16, S32, S64])
    (c₁ : BlurCall h₁ i₁ u₁ s₁ f (2 * r + 1)) (c₂ : BlurCall h₂ i₂ u₂ s₂ g (2 * r + 1))
    (hp : PartOf i₂.width i₂.height g ox oy i₁.width i₁.height f) (hr : 0 < r)
    (hs₁ : 2 * r + 1 ≤ i₁.height ∨ i₁.width < 2 * r + 1) (hs₂ : 2 * r + 1 ≤ i₂.height ∨ i₂.width < 2 * r + 1)
    (hP : FitsSums t i₁.width i₁.height f (2 * r + 1) P)
    (r₁ : BlurImageOps.meanInt t (intElem t junk) i₁ u₁ r s₁ h₁ = .ok (o₁, v₁) h₁')
    (r₂ : BlurImageOps.meanInt t (intElem t junk') i₂ u₂ r s₂ h₂ = .ok (o₂, v₂) h₂') {x y : Nat} (hx : x < i₂.width) (hy : y < i₂.height)
    (sx : SeesSame r r i₂.width ox i₁.width x) (sy : SeesSame r r i₂.height oy i₁.height y) :
    ∃ p, h₁'.px o₁ (ox + x) (oy + y) = some p ∧ h₂'.px o₂ x y = some p := by
  have pw := hp.width
  have ph := hp.height
  have hQ : FitsSums t i₂.width i₂.height g (2 * r + 1) P :=
    ⟨hP.nonneg, hP.bound, fun x y hx hy => by rw [hp.same x y hx hy]; exact hP.pixels _ _ (by omega) (by omega), hP.sums⟩
  refine ⟨_, mean_call ht c₁ hr hs₁ hP r₁ (by omega) (by omega), (mean_call ht c₂ hr hs₂ hQ r₂ hx hy).trans (congrArg some ?_)⟩
  refine roundedMean_part ph hy sy (v := fun j => roundedMean t r i₁.width (fun i => f i j) (ox + x)) (fun j hj => ?_)
  exact roundedMean_part pw hx sx (v := fun i => f i (oy + j)) (fun i hi => hp.same i j hi hj)
end

section
variable {K : Type} [Field K] [LinearOrder K] [IsStrictOrderedRing K] [FloorRing K]
variable {E E' : GrowArray.Elem K} {h₁ h₂ h₁' h₂' : Heap K} {i₁ i₂ u₁ u₂ s₁ s₂ o₁ o₂ v₁ v₂ : Gray} {f g : Nat → Nat → K} {r ox oy : Nat}

/-- Floating point pixels, exact arithmetic. -/
theorem C101_mean_float (hz : E.ms E.zero = E.zero) (hz' : E'.ms E'.zero = E'.zero)
    (c₁ : BlurCall h₁ i₁ u₁ s₁ f (2 * r + 1)) (c₂ : BlurCall h₂ i₂ u₂ s₂ g (2 * r + 1))
    (hp : PartOf i₂.width i₂.height g ox oy i₁.width i₁.height f) (hr : 0 < r)
    (hs₁ : 2 * r + 1 ≤ i₁.height ∨ i₁.width < 2 * r + 1) (hs₂ : 2 * r + 1 ≤ i₂.height ∨ i₂.width < 2 * r + 1)
    (r₁ : BlurImageOps.meanFloat E i₁ u₁ r s₁ h₁ = .ok (o₁, v₁) h₁')
    (r₂ : BlurImageOps.meanFloat E' i₂ u₂ r s₂ h₂ = .ok (o₂, v₂) h₂') {x y : Nat} (hx : x < i₂.width) (hy : y < i₂.height)
    (sx : SeesSame r r i₂.width ox i₁.width x) (sy : SeesSame r r i₂.height oy i₁.height y) :
    ∃ p, h₁'.px o₁ (ox + x) (oy + y) = some p ∧ h₂'.px o₂ x y = some p := by
  have pw := hp.width
  have ph := hp.height
  refine ⟨_, mean_call_float hz c₁ hr hs₁ r₁ (by omega) (by omega), (mean_call_float hz' c₂ hr hs₂ r₂ hx hy).trans (congrArg some ?_)⟩
  refine exactMean_part ph hy sy (v := fun j => exactMean r i₁.width (fun i => f i j) (ox + x)) (fun j hj => ?_)
  exact exactMean_part pw hx sx (v := fun i => f i (oy + j)) (fun i hi => hp.same i j hi hj)
end

/-! ## Gaussian blur -/

section
variable {K : Type} [Field K] [LinearOrder K] [IsStrictOrderedRing K] [FloorRing K]
variable {E E' : GrowArray.Elem K} {ex : K → K} {c0 sigma s : K} {width : Int} {w ox oy : Nat}

/-- Floating point pixels, exact arithmetic. -/
theorem C101_gaussian_float {h₁ h₂ h₁' h₂' : Heap K} {i₁ i₂ u₁ u₂ s₁ s₂ o₁ o₂ v₁ v₂ : Gray} {f g : Nat → Nat → K}
    (hz : E.ms E.zero = E.zero) (hz' : E'.ms E'.zero = E'.zero) (hc0 : 0 < c0) (hex : ∀ x, 0 < ex x)
    (hmono : ∀ x y, x < y → ex x < ex y) (hsz : GaussianSize sigma width w s) (hw2 : w < 2147483648)
    (c₁ : BlurCall h₁ i₁ u₁ s₁ f w) (c₂ : BlurCall h₂ i₂ u₂ s₂ g w) (hp : PartOf i₂.width i₂.height g ox oy i₁.width i₁.height f)
    (r₁ : BlurImageOps.gaussianFloat E ex c0 i₁ u₁ sigma width s₁ h₁ = .ok (o₁, v₁) h₁')
    (r₂ : BlurImageOps.gaussianFloat E' ex c0 i₂ u₂ sigma width s₂ h₂ = .ok (o₂, v₂) h₂') {x y : Nat} (hx : x < i₂.width) (hy : y < i₂.height)
    (sx : SeesSame (w / 2) (w - 1 - w / 2) i₂.width ox i₁.width x) (sy : SeesSame (w / 2) (w - 1 - w / 2) i₂.height oy i₁.height y) :
    ∃ p, h₁'.px o₁ (ox + x) (oy + y) = some p ∧ h₂'.px o₂ x y = some p := by
  have hw0 := (gaussianKernel (V := K) E hz hc0 hex hmono hsz hw2 ⟨[]⟩).1
  have pw := hp.width
  have ph := hp.height
  obtain ⟨c, a1, a2, a3, e1, g1, p1, -⟩ := C55_gaussian_float E hz hc0 hex hmono hsz c₁.valid c₁.outputValid c₁.storageValid c₁.shows
    c₁.outputShape c₁.storageShape c₁.outputApart c₁.storageApart c₁.apart c₁.widthBound c₁.heightBound hw2 c₁.lengthBound c₁.storageBound
  obtain ⟨c', b1, b2, b3, e2, g2, p2, -⟩ := C55_gaussian_float E' hz' hc0 hex hmono hsz c₂.valid c₂.outputValid c₂.storageValid c₂.shows
    c₂.outputShape c₂.storageShape c₂.outputApart c₂.storageApart c₂.apart c₂.widthBound c₂.heightBound hw2 c₂.lengthBound c₂.storageBound
  rw [r₁] at e1; cases e1
  rw [r₂] at e2; cases e2
  have ec : ∀ i, i < w → c' i = c i := fun i hi => C45_determined hex g2 g1 hi
  refine ⟨_, p1.pix _ _ (by omega) (by omega), (p2.pix x y hx hy).trans (congrArg some ?_)⟩
  rw [exactAvg_same ec (fun j hj => exactAvg_same ec (fun i hi => rfl))]
  refine exactAvg_part (by omega) ph hy sy (v := fun j => exactAvg w (w / 2) c i₁.width (fun i => f i j) (ox + x)) (fun j hj => ?_)
  exact exactAvg_part (by omega) pw hx sx (v := fun i => f i (oy + j)) (fun i hi => hp.same i j hi hj)

/-- Integral pixels. -/
theorem C101_gaussian {t : IntTy} {junk junk' : Nat → Int} {h₁ h₂ h₁' h₂' : Heap Int} {i₁ i₂ u₁ u₂ s₁ s₂ o₁ o₂ v₁ v₂ : Gray} {f g : Nat → Nat → Int}
    {P : Int} (hz : E.ms E.zero = E.zero) (hz' : E'.ms E'.zero = E'.zero) (hc0 : 0 < c0) (hex : ∀ x, 0 < ex x)
    (hmono : ∀ x y, x < y → ex x < ex y) (hsz : GaussianSize sigma width w s) (hw2 : w < 2147483648) (ht : t ∈ [U8, U16, S16, S32, S64])
    (c₁ : BlurCall h₁ i₁ u₁ s₁ f w) (c₂ : BlurCall h₂ i₂ u₂ s₂ g w) (hp : PartOf i₂.width i₂.height g ox oy i₁.width i₁.height f)
    (hP : FitsSums t i₁.width i₁.height f (100 * w) P)
    (r₁ : BlurImageOps.gaussianInt t E (intElem t.signedType junk) ex c0 i₁ u₁ sigma width s₁ h₁ = .ok (o₁, v₁) h₁')
    (r₂ : BlurImageOps.gaussianInt t E' (intElem t.signedType junk') ex c0 i₂ u₂ sigma width s₂ h₂ = .ok (o₂, v₂) h₂')
    {x y : Nat} (hx : x < i₂.width) (hy : y < i₂.height)
    (sx : SeesSame (w / 2) (w - 1 - w / 2) i₂.width ox i₁.width x) (sy : SeesSame (w / 2) (w - 1 - w / 2) i₂.height oy i₁.height y) :
    ∃ p, h₁'.px o₁ (ox + x) (oy + y) = some p ∧ h₂'.px o₂ x y = some p := by
  have hw0 := (gaussianKernel (V := K) E hz hc0 hex hmono hsz hw2 ⟨[]⟩).1
  have pw := hp.width
  have ph := hp.height
  obtain ⟨c, d, a1, a2, a3, e1, g1, d1, p1, -⟩ := C55_gaussian E hz hc0 hex hmono hsz ht junk c₁.valid c₁.outputValid c₁.storageValid c₁.shows
    c₁.outputShape c₁.storageShape c₁.outputApart c₁.storageApart c₁.apart c₁.widthBound c₁.heightBound hw2 hP.nonneg hP.bound hP.pixels hP.sums
  obtain ⟨c', d', b1, b2, b3, e2, g2, d2, p2, -⟩ := C55_gaussian E' hz' hc0 hex hmono hsz ht junk' c₂.valid c₂.outputValid c₂.storageValid c₂.shows
    c₂.outputShape c₂.storageShape c₂.outputApart c₂.storageApart c₂.apart c₂.widthBound c₂.heightBound hw2 hP.nonneg hP.bound
    (fun x y hx hy => by rw [hp.same x y hx hy]; exact hP.pixels _ _ (by omega) (by omega)) hP.sums
  rw [r₁] at e1; cases e1
  rw [r₂] at e2; cases e2
  have ed : ∀ i, i < w → d' i = d i := fun i hi => C46_determined (fun i hi => C45_determined hex g2 g1 hi) d2 d1 hi
  refine ⟨_, p1.pix _ _ (by omega) (by omega), (p2.pix x y hx hy).trans (congrArg some ?_)⟩
  rw [roundedAvg_same ed (fun j hj => roundedAvg_same ed (fun i hi => rfl))]
  refine roundedAvg_part (by omega) ph hy sy (v := fun j => roundedAvg t w (w / 2) d i₁.width (fun i => f i j) (ox + x)) (fun j hj => ?_)
  exact roundedAvg_part (by omega) pw hx sx (v := fun i => f i (oy + j)) (fun i hi => hp.same i j hi hj)

end

/-! ## Convolutions

The borders of the two calls may differ: where the kernel lies inside the part, they do not matter.  The arithmetic is any one, with its overflows;
it has to be defined for all pixels, as for every convolution. -/

section
variable {V S : Type} {h₁ h₂ h₁' h₂' : Heap V} {i₁ i₂ u₁ u₂ o₁ o₂ : Gray} {f g : Nat → Nat → V} {ox oy kw o : Nat} {A : Arith V S} {b b' : Border V}
  {k : Kernel S} {z z' : V}

theorem C101_horizontal {c : Nat → S} (hk : k.Is1D kw o c) (hok : o < kw)
    (c₁ : ConvolveCall h₁ i₁ u₁ f kw) (c₂ : ConvolveCall h₂ i₂ u₂ g kw) (hp : PartOf i₂.width i₂.height g ox oy i₁.width i₁.height f)
    (hb : b.Reach i₁.width o (kw - 1 - o)) (hb' : b'.Reach i₂.width o (kw - 1 - o))
    (d₁ : ∀ x y, x < i₁.width → y < i₁.height → ((rowAt A kw o c (b.ext i₁.width i₁.height f) x y).bind A.out).isSome)
    (d₂ : ∀ x y, x < i₂.width → y < i₂.height → ((rowAt A kw o c (b'.ext i₂.width i₂.height g) x y).bind A.out).isSome)
    (r₁ : ConvolveImage.horizontal z A k b i₁ u₁ h₁ = .ok o₁ h₁') (r₂ : ConvolveImage.horizontal z' A k b' i₂ u₂ h₂ = .ok o₂ h₂')
    {x y : Nat} (hy : y < i₂.height) (h1 : o ≤ x) (h2 : x + kw ≤ i₂.width + o) :
    ∃ p, h₁'.px o₁ (ox + x) (oy + y) = some p ∧ h₂'.px o₂ x y = some p := by
  have pw := hp.width
  have ph := hp.height
  have b1 := c₁.heightBound
  have b2 := c₂.heightBound
  obtain ⟨_, _, e1, p1, -⟩ := C47_horizontal_partial z A b c₁.valid c₁.outputValid c₁.shows c₁.outputShape c₁.outputApart hk hok c₁.widthBound
    (by omega) hb (fun x y hx hy => eq_some_getD (z := z) (d₁ x y hx hy))
  obtain ⟨_, _, e2, p2, -⟩ := C47_horizontal_partial z' A b' c₂.valid c₂.outputValid c₂.shows c₂.outputShape c₂.outputApart hk hok c₂.widthBound
    (by omega) hb' (fun x y hx hy => eq_some_getD (z := z) (d₂ x y hx hy))
  rw [r₁] at e1; cases e1
  rw [r₂] at e2; cases e2
  refine ⟨_, p1.pix _ _ (by omega) (by omega), (p2.pix x y (by omega) hy).trans (congrArg some ?_)⟩
  rw [rowAt_part (b := b) A c hp hy h1 h2]

theorem C101_vertical {c : Nat → S} (hk : k.Is1D kw o c) (hok : o < kw)
    (c₁ : ConvolveCall h₁ i₁ u₁ f kw) (c₂ : ConvolveCall h₂ i₂ u₂ g kw) (hp : PartOf i₂.width i₂.height g ox oy i₁.width i₁.height f)
    (hb : b.Reach i₁.height o (kw - 1 - o)) (hb' : b'.Reach i₂.height o (kw - 1 - o))
    (d₁ : ∀ x y, x < i₁.width → y < i₁.height → ((colAt A kw o c (b.ext i₁.width i₁.height f) x y).bind A.out).isSome)
    (d₂ : ∀ x y, x < i₂.width → y < i₂.height → ((colAt A kw o c (b'.ext i₂.width i₂.height g) x y).bind A.out).isSome)
    (r₁ : ConvolveImage.vertical z A k b i₁ u₁ h₁ = .ok o₁ h₁') (r₂ : ConvolveImage.vertical z' A k b' i₂ u₂ h₂ = .ok o₂ h₂')
    {x y : Nat} (hx : x < i₂.width) (h1 : o ≤ y) (h2 : y + kw ≤ i₂.height + o) :
    ∃ p, h₁'.px o₁ (ox + x) (oy + y) = some p ∧ h₂'.px o₂ x y = some p := by
  have pw := hp.width
  have ph := hp.height
  have b1 := c₁.widthBound
  have b2 := c₂.widthBound
  obtain ⟨_, _, e1, p1, -⟩ := C48_vertical_partial z A b c₁.valid c₁.outputValid c₁.shows c₁.outputShape c₁.outputApart hk hok c₁.heightBound
    (by omega) hb (fun x y hx hy => eq_some_getD (z := z) (d₁ x y hx hy))
  obtain ⟨_, _, e2, p2, -⟩ := C48_vertical_partial z' A b' c₂.valid c₂.outputValid c₂.shows c₂.outputShape c₂.outputApart hk hok c₂.heightBound
    (by omega) hb' (fun x y hx hy => eq_some_getD (z := z) (d₂ x y hx hy))
  rw [r₁] at e1; cases e1
  rw [r₂] at e2; cases e2
  refine ⟨_, p1.pix _ _ (by omega) (by omega), (p2.pix x y hx (by omega)).trans (congrArg some ?_)⟩
  rw [colAt_part (b := b) A c hp hx h1 h2]

theorem C101_convolve {c : Nat → Nat → S} (hk : k.Is2D kw o c) (hok : o < kw) (hkw : kw < 65536)
    (c₁ : ConvolveCall h₁ i₁ u₁ f kw) (c₂ : ConvolveCall h₂ i₂ u₂ g kw) (hp : PartOf i₂.width i₂.height g ox oy i₁.width i₁.height f)
    (hb : b.Reach i₁.width o (kw - 1 - o) ∧ b.Reach i₁.height o (kw - 1 - o))
    (hb' : b'.Reach i₂.width o (kw - 1 - o) ∧ b'.Reach i₂.height o (kw - 1 - o))
    (d₁ : ∀ x y, x < i₁.width → y < i₁.height → ((boxAt A kw o c (b.ext i₁.width i₁.height f) x y).bind A.out).isSome)
    (d₂ : ∀ x y, x < i₂.width → y < i₂.height → ((boxAt A kw o c (b'.ext i₂.width i₂.height g) x y).bind A.out).isSome)
    (r₁ : ConvolveImage.convolve z A k b i₁ u₁ h₁ = .ok o₁ h₁') (r₂ : ConvolveImage.convolve z' A k b' i₂ u₂ h₂ = .ok o₂ h₂')
    {x y : Nat} (h1 : o ≤ x) (h2 : x + kw ≤ i₂.width + o) (h3 : o ≤ y) (h4 : y + kw ≤ i₂.height + o) :
    ∃ p, h₁'.px o₁ (ox + x) (oy + y) = some p ∧ h₂'.px o₂ x y = some p := by
  have pw := hp.width
  have ph := hp.height
  obtain ⟨_, _, e1, p1, -⟩ := C49_convolve_partial z A b c₁.valid c₁.outputValid c₁.shows c₁.outputShape c₁.outputApart hk hok hkw c₁.widthBound
    c₁.heightBound hb.1 hb.2 (fun x y hx hy => eq_some_getD (z := z) (d₁ x y hx hy))
  obtain ⟨_, _, e2, p2, -⟩ := C49_convolve_partial z' A b' c₂.valid c₂.outputValid c₂.shows c₂.outputShape c₂.outputApart hk hok hkw c₂.widthBound
    c₂.heightBound hb'.1 hb'.2 (fun x y hx hy => eq_some_getD (z := z) (d₂ x y hx hy))
  rw [r₁] at e1; cases e1
  rw [r₂] at e2; cases e2
  refine ⟨_, p1.pix _ _ (by omega) (by omega), (p2.pix x y (by omega) (by omega)).trans (congrArg some ?_)⟩
  rw [boxAt_part (b := b) A c hp h1 h2 h3 h4]

end

/-- A picture of size `5 × 3` and a view of its last four columns.  The view is blurred like the whole but for its first column, which does not see
the column before it. -/
example : let i : Gray := ⟨0, 15, 5, 3, 0, 5, false⟩
    let v : Gray := ⟨0, 15, 4, 3, 1, 5, true⟩
    let h : Heap Int := ⟨[some [0, 30, 0, 9, 0, 0, 60, 0, 9, 3, 90, 0, 0, 9, 6], some (List.replicate 15 0), some (List.replicate 15 0)]⟩
    (i.makeSubimage 1 0 5 3 : M Int Gray) h = .ok v h ∧
    (match BlurImageOps.meanInt U8 (intElem U8 (fun _ => 7)) i ⟨1, 15, 5, 3, 0, 5, false⟩ 1 ⟨2, 15, 5, 3, 0, 5, false⟩ h with
      | .ok _ h' => h'.get 1 | _ => none) = some [23, 15, 18, 4, 6, 30, 20, 13, 4, 6, 38, 25, 13, 5, 7] ∧
    (match BlurImageOps.meanInt U8 (intElem U8 (fun _ => 7)) v ⟨1, 12, 4, 3, 0, 4, false⟩ 1 ⟨2, 12, 4, 3, 0, 4, false⟩
        ⟨[some [0, 30, 0, 9, 0, 0, 60, 0, 9, 3, 90, 0, 0, 9, 6], some (List.replicate 12 0), some (List.replicate 12 0)]⟩ with
      | .ok _ h' => h'.get 1 | _ => none) = some [23, 18, 4, 6, 15, 13, 4, 6, 15, 13, 5, 7] ∧
    SeesSame 1 1 4 1 5 3 ∧ SeesSame 1 1 4 1 5 1 ∧ SeesSame 1 1 3 0 3 0 ∧ ¬SeesSame 1 1 4 1 5 0 := by
  refine ⟨by decide +kernel, by decide +kernel, by decide +kernel, ?_⟩
  unfold SeesSame
  omega

end Boof
