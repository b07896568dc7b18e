import Verif.Proofs.Order
import Verif.Props.Symmetry
/-
C100: a blurred pixel depends on the pixels of its neighbourhood only, it grows with them, and raising them all by the same amount raises it
by that amount.

In each section there are two calls with the same parameters, on pictures `f` and `g` of the same size.  Nothing is said about the pixels of `f`
and `g` outside of the neighbourhood of `(x, y)`, nor about the memory, the buffers or the earlier contents of the outputs.
-/
namespace Boof
open M

/-! ## Mean blur -/

section
variable {t : IntTy} {junk junk' : Nat → Int} {h₁ h₂ h₁' h₂' : Heap Int} {i₁ i₂ u₁ u₂ s₁ s₂ o₁ o₂ v₁ v₂ : Gray} {f g : Nat → Nat → Int} {r : Nat} {P Q : Int}

/-- What a call of the mean blur leaves in its output. -/
theorem mean_call (ht : t ∈ [U8, U16, S16, S32, S64]) (c₁ : BlurCall h₁ i₁ u₁ s₁ f (2 * r + 1)) (hr : 0 < r)
    (hshape : 2 * r + 1 ≤ i₁.height ∨ i₁.width < 2 * r + 1) (hP : FitsSums t i₁.width i₁.height f (2 * r + 1) P)
    (r₁ : BlurImageOps.meanInt t (intElem t junk) i₁ u₁ r s₁ h₁ = .ok (o₁, v₁) h₁') {x y : Nat} (hx : x < i₁.width) (hy : y < i₁.height) :
    h₁'.px o₁ x y = some (meanImage t r i₁.width i₁.height f x y) := by
  obtain ⟨a1, a2, a3, e1, p1, -⟩ := C54_mean_partial ht junk c₁.valid c₁.outputValid c₁.storageValid c₁.shows c₁.outputShape c₁.storageShape
    c₁.outputApart c₁.storageApart c₁.apart hr c₁.widthBound c₁.heightBound c₁.lengthBound c₁.storageBound hshape hP.nonneg hP.bound hP.pixels hP.sums
  rw [r₁] at e1; cases e1
  exact p1.pix _ _ hx hy

theorem FitsSums.row {w h : Nat} (hP : FitsSums t w h f (2 * r + 1) P) (ht : t ∈ [U8, U16, S16, S32, S64]) {x : Nat} (hx : x < w) :
    ∀ j, j < h → t.InRange (roundedMean t r w (fun i => f i j) x) :=
  fun j hj => (mean_pixel ht hx (fun i hi => hP.pixels i j hi hj) hP.sums hP.bound).1

/-- A picture whose pixels near `(x, y)` are not smaller has a blurred pixel that is not smaller. -/
theorem C100_mean_grows (ht : t ∈ [U8, U16, S16, S32, S64])
    (c₁ : BlurCall h₁ i₁ u₁ s₁ f (2 * r + 1)) (c₂ : BlurCall h₂ i₂ u₂ s₂ g (2 * r + 1))
    (ew : i₂.width = i₁.width) (eh : i₂.height = i₁.height) (hr : 0 < r)
    (hshape : 2 * r + 1 ≤ i₁.height ∨ i₁.width < 2 * r + 1) (hP : FitsSums t i₁.width i₁.height f (2 * r + 1) P)
    (hQ : FitsSums t i₁.width i₁.height g (2 * r + 1) Q)
    (r₁ : BlurImageOps.meanInt t (intElem t junk) i₁ u₁ r s₁ h₁ = .ok (o₁, v₁) h₁')
    (r₂ : BlurImageOps.meanInt t (intElem t junk') i₂ u₂ r s₂ h₂ = .ok (o₂, v₂) h₂') {x y : Nat} (hx : x < i₁.width) (hy : y < i₁.height)
    (hle : ∀ i j, Near r i₁.width x i → Near r i₁.height y j → f i j ≤ g i j) :
    ∃ p q, h₁'.px o₁ x y = some p ∧ h₂'.px o₂ x y = some q ∧ p ≤ q := by
  refine ⟨_, _, mean_call ht c₁ hr hshape hP r₁ hx hy, mean_call ht c₂ hr (by rw [ew, eh]; exact hshape) (by rw [ew, eh]; exact hQ) r₂ (by omega) (by omega), ?_⟩
  rw [ew, eh]
  exact roundedMean_mono ht hy (hP.row ht hx) (hQ.row ht hx) (fun j hj => roundedMean_mono ht hx (fun i hi => (hP.pixels i j hi hj.1).1)
    (fun i hi => (hQ.pixels i j hi hj.1).1) (fun i hi => hle i j hi hj))

/-- Two pictures with the same pixels near `(x, y)` have the same blurred pixel. -/
theorem C100_mean_local (ht : t ∈ [U8, U16, S16, S32, S64])
    (c₁ : BlurCall h₁ i₁ u₁ s₁ f (2 * r + 1)) (c₂ : BlurCall h₂ i₂ u₂ s₂ g (2 * r + 1))
    (ew : i₂.width = i₁.width) (eh : i₂.height = i₁.height) (hr : 0 < r)
    (hshape : 2 * r + 1 ≤ i₁.height ∨ i₁.width < 2 * r + 1) (hP : FitsSums t i₁.width i₁.height f (2 * r + 1) P)
    (hQ : FitsSums t i₁.width i₁.height g (2 * r + 1) Q)
    (r₁ : BlurImageOps.meanInt t (intElem t junk) i₁ u₁ r s₁ h₁ = .ok (o₁, v₁) h₁')
    (r₂ : BlurImageOps.meanInt t (intElem t junk') i₂ u₂ r s₂ h₂ = .ok (o₂, v₂) h₂') {x y : Nat} (hx : x < i₁.width) (hy : y < i₁.height)
    (heq : ∀ i j, Near r i₁.width x i → Near r i₁.height y j → f i j = g i j) :
    ∃ p, h₁'.px o₁ x y = some p ∧ h₂'.px o₂ x y = some p := by
  obtain ⟨p, q, e1, e2, l⟩ := C100_mean_grows ht c₁ c₂ ew eh hr hshape hP hQ r₁ r₂ hx hy (fun i j hi hj => le_of_eq (heq i j hi hj))
  obtain ⟨q', p', e2', e1', l'⟩ := C100_mean_grows ht c₂ c₁ ew.symm eh.symm hr (by rw [ew, eh]; exact hshape) (by rw [ew, eh]; exact hQ)
    (by rw [ew, eh]; exact hP) r₂ r₁ (x := x) (y := y) (by omega) (by omega)
    (fun i j hi hj => le_of_eq (heq i j (by rwa [ew] at hi) (by rwa [eh] at hj)).symm)
  rw [e1] at e1'; rw [e2] at e2'
  obtain rfl := Option.some.inj e1'
  obtain rfl := Option.some.inj e2'
  exact ⟨p, e1, by rw [e2, le_antisymm l l']⟩

/-- Raising the pixels near `(x, y)` by `a` raises the blurred pixel by `a`, to the last bit, when none of them is negative. -/
theorem C100_mean_brightness (ht : t ∈ [U8, U16, S16, S32, S64])
    (c₁ : BlurCall h₁ i₁ u₁ s₁ f (2 * r + 1)) (c₂ : BlurCall h₂ i₂ u₂ s₂ g (2 * r + 1))
    (ew : i₂.width = i₁.width) (eh : i₂.height = i₁.height) (hr : 0 < r)
    (hshape : 2 * r + 1 ≤ i₁.height ∨ i₁.width < 2 * r + 1) (hP : FitsSums t i₁.width i₁.height f (2 * r + 1) P)
    (hQ : FitsSums t i₁.width i₁.height g (2 * r + 1) Q)
    (r₁ : BlurImageOps.meanInt t (intElem t junk) i₁ u₁ r s₁ h₁ = .ok (o₁, v₁) h₁')
    (r₂ : BlurImageOps.meanInt t (intElem t junk') i₂ u₂ r s₂ h₂ = .ok (o₂, v₂) h₂') {x y : Nat} (hx : x < i₁.width) (hy : y < i₁.height)
    {a : Int} (ha : 0 ≤ a) (h0 : ∀ i j, Near r i₁.width x i → Near r i₁.height y j → 0 ≤ f i j)
    (heq : ∀ i j, Near r i₁.width x i → Near r i₁.height y j → g i j = f i j + a) :
    ∃ p, h₁'.px o₁ x y = some p ∧ h₂'.px o₂ x y = some (p + a) := by
  refine ⟨_, mean_call ht c₁ hr hshape hP r₁ hx hy, ?_⟩
  rw [mean_call ht c₂ hr (by rw [ew, eh]; exact hshape) (by rw [ew, eh]; exact hQ) r₂ (by omega) (by omega), ew, eh]
  congr 1
  refine roundedMean_shift ht hy (hP.row ht hx) (hQ.row ht hx) ha (fun j hj => ?_)
    (fun j hj => roundedMean_shift ht hx (fun i hi => (hP.pixels i j hi hj.1).1) (fun i hi => (hQ.pixels i j hi hj.1).1) ha
      (fun i hi => h0 i j hi hj) (fun i hi => heq i j hi hj))
  exact (roundedMean_between ht hx (fun i hi => hP.pixels i j hi hj.1) hP.sums hP.bound (lo := 0) (hi := P)
    (fun i hi => ⟨h0 i j hi hj, le_trans (le_abs_self _) (hP.pixels i j hi.1 hj.1).2⟩)).1

end

/-- With a negative pixel the last is not so: the average of 16 bit pixels `-1` is `0`, and that of pixels `0` is `0` too. -/
theorem C100_negative_brightness :
    (match BlurImageOps.meanInt S16 (intElem S16 (fun _ => 7)) ⟨0, 9, 3, 3, 0, 3, false⟩ ⟨1, 9, 3, 3, 0, 3, false⟩ 1 ⟨2, 9, 3, 3, 0, 3, false⟩
      ⟨[some (List.replicate 9 (-1)), some (List.replicate 9 7), some (List.replicate 9 7)]⟩ with | .ok _ h' => h'.get 1 | _ => none) =
        some (List.replicate 9 0) ∧
    (match BlurImageOps.meanInt S16 (intElem S16 (fun _ => 7)) ⟨0, 9, 3, 3, 0, 3, false⟩ ⟨1, 9, 3, 3, 0, 3, false⟩ 1 ⟨2, 9, 3, 3, 0, 3, false⟩
      ⟨[some (List.replicate 9 0), some (List.replicate 9 7), some (List.replicate 9 7)]⟩ with | .ok _ h' => h'.get 1 | _ => none) =
        some (List.replicate 9 0) := by decide +kernel

section
variable {K : Type} [Field K] [LinearOrder K] [IsStrictOrderedRing K] [FloorRing K]
variable {E E' : GrowArray.Elem K} {h₁ h₂ h₁' h₂' : Heap K} {i₁ i₂ u₁ u₂ s₁ s₂ o₁ o₂ v₁ v₂ : Gray} {f g : Nat → Nat → K} {r : Nat}

theorem mean_call_float (hz : E.ms E.zero = E.zero) (c₁ : BlurCall h₁ i₁ u₁ s₁ f (2 * r + 1)) (hr : 0 < r)
    (hshape : 2 * r + 1 ≤ i₁.height ∨ i₁.width < 2 * r + 1)
    (r₁ : BlurImageOps.meanFloat E i₁ u₁ r s₁ h₁ = .ok (o₁, v₁) h₁') {x y : Nat} (hx : x < i₁.width) (hy : y < i₁.height) :
    h₁'.px o₁ x y = some (meanImageK r i₁.width i₁.height f x y) := by
  obtain ⟨a1, a2, a3, e1, p1, -⟩ := C54_mean_float_partial E hz c₁.valid c₁.outputValid c₁.storageValid c₁.shows c₁.outputShape c₁.storageShape
    c₁.outputApart c₁.storageApart c₁.apart hr c₁.widthBound c₁.heightBound c₁.lengthBound c₁.storageBound hshape
  rw [r₁] at e1; cases e1
  exact p1.pix _ _ hx hy

/-- Floating point pixels, exact arithmetic: growth. -/
theorem C100_mean_grows_float (hz : E.ms E.zero = E.zero) (hz' : E'.ms E'.zero = E'.zero)
    (c₁ : BlurCall h₁ i₁ u₁ s₁ f (2 * r + 1)) (c₂ : BlurCall h₂ i₂ u₂ s₂ g (2 * r + 1))
    (ew : i₂.width = i₁.width) (eh : i₂.height = i₁.height) (hr : 0 < r)
    (hshape : 2 * r + 1 ≤ i₁.height ∨ i₁.width < 2 * r + 1)
    (r₁ : BlurImageOps.meanFloat E i₁ u₁ r s₁ h₁ = .ok (o₁, v₁) h₁')
    (r₂ : BlurImageOps.meanFloat E' i₂ u₂ r s₂ h₂ = .ok (o₂, v₂) h₂') {x y : Nat} (hx : x < i₁.width) (hy : y < i₁.height)
    (hle : ∀ i j, Near r i₁.width x i → Near r i₁.height y j → f i j ≤ g i j) :
    ∃ p q, h₁'.px o₁ x y = some p ∧ h₂'.px o₂ x y = some q ∧ p ≤ q := by
  refine ⟨_, _, mean_call_float hz c₁ hr hshape r₁ hx hy, mean_call_float hz' c₂ hr (by rw [ew, eh]; exact hshape) r₂ (by omega) (by omega), ?_⟩
  rw [ew, eh]
  exact exactMean_mono hy (fun j hj => exactMean_mono hx (fun i hi => hle i j hi hj))

/-- Locality and brightness together: raising the pixels near `(x, y)` by any number `a`, in particular by `0`, raises the blurred pixel by `a`. -/
theorem C100_mean_brightness_float (hz : E.ms E.zero = E.zero) (hz' : E'.ms E'.zero = E'.zero)
    (c₁ : BlurCall h₁ i₁ u₁ s₁ f (2 * r + 1)) (c₂ : BlurCall h₂ i₂ u₂ s₂ g (2 * r + 1))
    (ew : i₂.width = i₁.width) (eh : i₂.height = i₁.height) (hr : 0 < r)
    (hshape : 2 * r + 1 ≤ i₁.height ∨ i₁.width < 2 * r + 1)
    (r₁ : BlurImageOps.meanFloat E i₁ u₁ r s₁ h₁ = .ok (o₁, v₁) h₁')
    (r₂ : BlurImageOps.meanFloat E' i₂ u₂ r s₂ h₂ = .ok (o₂, v₂) h₂') {x y : Nat} (hx : x < i₁.width) (hy : y < i₁.height) {a : K}
    (heq : ∀ i j, Near r i₁.width x i → Near r i₁.height y j → g i j = f i j + a) :
    ∃ p, h₁'.px o₁ x y = some p ∧ h₂'.px o₂ x y = some (p + a) := by
  refine ⟨_, mean_call_float hz c₁ hr hshape r₁ hx hy, ?_⟩
  rw [mean_call_float hz' c₂ hr (by rw [ew, eh]; exact hshape) r₂ (by omega) (by omega), ew, eh]
  exact congrArg some (exactMean_shift hy (fun j hj => exactMean_shift hx (fun i hi => heq i j hi hj)))

end

/-- Two calls which meet the hypotheses.  The pictures agree near `(0, 0)` up to a brightness of `10`, and differ elsewhere. -/
example : let i : Gray := ⟨0, 9, 3, 3, 0, 3, false⟩
    let u : Gray := ⟨1, 9, 3, 3, 0, 3, false⟩
    let s : Gray := ⟨2, 9, 3, 3, 0, 3, false⟩
    let f : Nat → Nat → Int := fun x y => 5 * x + 7 * y
    let g : Nat → Nat → Int := fun x y => if x = 2 then 99 else 5 * x + 7 * y + 10
    let h : Heap Int := ⟨[some [0, 5, 10, 7, 12, 17, 14, 19, 24], some [0, 0, 0, 0, 0, 0, 0, 0, 0], some [0, 0, 0, 0, 0, 0, 0, 0, 0]]⟩
    let h' : Heap Int := ⟨[some [10, 15, 99, 17, 22, 99, 24, 29, 99], some [1, 1, 1, 1, 1, 1, 1, 1, 1], some [0, 0, 0, 0, 0, 0, 0, 0, 0]]⟩
    BlurCall h i u s f 3 ∧ BlurCall h' i u s g 3 ∧ FitsSums U8 3 3 f 3 255 ∧ FitsSums U8 3 3 g 3 255 ∧
    (∀ i j, Near 1 3 0 i → Near 1 3 0 j → g i j = f i j + 10 ∧ 0 ≤ f i j) ∧
    (match BlurImageOps.meanInt U8 (intElem U8 (fun _ => 7)) i u 1 s h with | .ok _ h' => h'.get 1 | _ => none) = some [7, 9, 12, 10, 12, 15, 14, 16, 19] ∧
    (match BlurImageOps.meanInt U8 (intElem U8 (fun _ => 7)) i u 1 s h' with | .ok _ h' => h'.get 1 | _ => none) =
      some [17, 44, 59, 20, 46, 61, 24, 49, 63] := by
  refine ⟨⟨by decide, by decide, by decide, fun x y hx hy => ?_, Or.inl rfl, Or.inl rfl, Or.inl (by decide), Or.inl (by decide), by decide, by decide, by decide,
    by decide, by decide⟩, ⟨by decide, by decide, by decide, fun x y hx hy => ?_, Or.inl rfl, Or.inl rfl, Or.inl (by decide), Or.inl (by decide), by decide,
    by decide, by decide, by decide, by decide⟩, ⟨by decide, by decide, ?_, by decide⟩, ⟨by decide, by decide, ?_, by decide⟩, ?_, by decide +kernel, by decide +kernel⟩
  · have : ∀ x : Nat, x < 3 → ∀ y : Nat, y < 3 → Heap.px (⟨[some [0, 5, 10, 7, 12, 17, 14, 19, 24], some [0, 0, 0, 0, 0, 0, 0, 0, 0],
      some [0, 0, 0, 0, 0, 0, 0, 0, 0]]⟩ : Heap Int) ⟨0, 9, 3, 3, 0, 3, false⟩ x y = some (5 * x + 7 * y : Int) := by decide
    exact this x hx y hy
  · have : ∀ x : Nat, x < 3 → ∀ y : Nat, y < 3 → Heap.px (⟨[some [10, 15, 99, 17, 22, 99, 24, 29, 99], some [1, 1, 1, 1, 1, 1, 1, 1, 1],
      some [0, 0, 0, 0, 0, 0, 0, 0, 0]]⟩ : Heap Int) ⟨0, 9, 3, 3, 0, 3, false⟩ x y = some (if x = 2 then 99 else 5 * x + 7 * y + 10 : Int) := by decide
    exact this x hx y hy
  · have : ∀ x : Nat, x < 3 → ∀ y : Nat, y < 3 → U8.InRange (5 * x + 7 * y : Int) ∧ |(5 * x + 7 * y : Int)| ≤ 255 := by decide
    exact fun x y hx hy => this x hx y hy
  · have : ∀ x : Nat, x < 3 → ∀ y : Nat, y < 3 → U8.InRange (if x = 2 then 99 else 5 * x + 7 * y + 10 : Int) ∧
      |(if x = 2 then 99 else 5 * x + 7 * y + 10 : Int)| ≤ 255 := by decide
    exact fun x y hx hy => this x hx y hy
  · intro i j hi hj
    have := hi.2.2
    dsimp only
    rw [if_neg (by omega)]
    omega

/-! ## Gaussian blur -/

section
variable {K : Type} [Field K] [LinearOrder K] [IsStrictOrderedRing K] [FloorRing K]
variable {E E' : GrowArray.Elem K} {ex : K → K} {c0 sigma s : K} {width : Int} {w : Nat}

section
variable {h₁ h₂ h₁' h₂' : Heap K} {i₁ i₂ u₁ u₂ s₁ s₂ o₁ o₂ v₁ v₂ : Gray} {f g : Nat → Nat → K}

/-- Floating point pixels, exact arithmetic: growth.  The neighbourhood is the one under the kernel. -/
theorem C100_gaussian_grows_float (hz : E.ms E.zero = E.zero) (hz' : E'.ms E'.zero = E'.zero) (hc0 : 0 < c0) (hex : ∀ x, 0 < ex x)
    (hmono : ∀ x y, x < y → ex x < ex y) (hsz : GaussianSize sigma width w s) (hw2 : w < 2147483648)
    (c₁ : BlurCall h₁ i₁ u₁ s₁ f w) (c₂ : BlurCall h₂ i₂ u₂ s₂ g w) (ew : i₂.width = i₁.width) (eh : i₂.height = i₁.height)
    (r₁ : BlurImageOps.gaussianFloat E ex c0 i₁ u₁ sigma width s₁ h₁ = .ok (o₁, v₁) h₁')
    (r₂ : BlurImageOps.gaussianFloat E' ex c0 i₂ u₂ sigma width s₂ h₂ = .ok (o₂, v₂) h₂') {x y : Nat} (hx : x < i₁.width) (hy : y < i₁.height)
    (hle : ∀ i j, Under w (w / 2) i₁.width x i → Under w (w / 2) i₁.height y j → f i j ≤ g i j) :
    ∃ p q, h₁'.px o₁ x y = some p ∧ h₂'.px o₂ x y = some q ∧ p ≤ q := by
  have hw0 := (gaussianKernel (V := K) E hz hc0 hex hmono hsz hw2 ⟨[]⟩).1
  obtain ⟨c, a1, a2, a3, e1, g1, p1, -⟩ := C55_gaussian_float E hz hc0 hex hmono hsz c₁.valid c₁.outputValid c₁.storageValid c₁.shows
    c₁.outputShape c₁.storageShape c₁.outputApart c₁.storageApart c₁.apart c₁.widthBound c₁.heightBound hw2 c₁.lengthBound c₁.storageBound
  obtain ⟨c', b1, b2, b3, e2, g2, p2, -⟩ := C55_gaussian_float E' hz' hc0 hex hmono hsz c₂.valid c₂.outputValid c₂.storageValid c₂.shows
    c₂.outputShape c₂.storageShape c₂.outputApart c₂.storageApart c₂.apart c₂.widthBound c₂.heightBound hw2 c₂.lengthBound c₂.storageBound
  rw [r₁] at e1; cases e1
  rw [r₂] at e2; cases e2
  have ec : ∀ i, i < w → c' i = c i := fun i hi => C45_determined hex g2 g1 hi
  have hn : ∀ i, i < w → 0 ≤ c i := fun i hi => le_of_lt (g1.pos i hi)
  have hW : ∀ n x, x < n → 0 < winWeight w (w / 2) c n x := fun n x hx => winWeight_pos hx (by omega) hn (g1.pos _ (by omega))
  refine ⟨_, _, p1.pix _ _ hx hy, p2.pix x y (by omega) (by omega), ?_⟩
  rw [ew, eh, exactAvg_same ec (fun j hj => exactAvg_same ec (fun i hi => rfl))]
  exact exactAvg_mono hy hn (hW _ _ hy) (fun j hj => exactAvg_mono hx hn (hW _ _ hx) (fun i hi => hle i j hi hj))

/-- Locality (`a = 0`) and brightness. -/
theorem C100_gaussian_brightness_float (hz : E.ms E.zero = E.zero) (hz' : E'.ms E'.zero = E'.zero) (hc0 : 0 < c0) (hex : ∀ x, 0 < ex x)
    (hmono : ∀ x y, x < y → ex x < ex y) (hsz : GaussianSize sigma width w s) (hw2 : w < 2147483648)
    (c₁ : BlurCall h₁ i₁ u₁ s₁ f w) (c₂ : BlurCall h₂ i₂ u₂ s₂ g w) (ew : i₂.width = i₁.width) (eh : i₂.height = i₁.height)
    (r₁ : BlurImageOps.gaussianFloat E ex c0 i₁ u₁ sigma width s₁ h₁ = .ok (o₁, v₁) h₁')
    (r₂ : BlurImageOps.gaussianFloat E' ex c0 i₂ u₂ sigma width s₂ h₂ = .ok (o₂, v₂) h₂') {x y : Nat} (hx : x < i₁.width) (hy : y < i₁.height)
    {a : K} (heq : ∀ i j, Under w (w / 2) i₁.width x i → Under w (w / 2) i₁.height y j → g i j = f i j + a) :
    ∃ p, h₁'.px o₁ x y = some p ∧ h₂'.px o₂ x y = some (p + a) := by
  have hw0 := (gaussianKernel (V := K) E hz hc0 hex hmono hsz hw2 ⟨[]⟩).1
  obtain ⟨c, a1, a2, a3, e1, g1, p1, -⟩ := C55_gaussian_float E hz hc0 hex hmono hsz c₁.valid c₁.outputValid c₁.storageValid c₁.shows
    c₁.outputShape c₁.storageShape c₁.outputApart c₁.storageApart c₁.apart c₁.widthBound c₁.heightBound hw2 c₁.lengthBound c₁.storageBound
  obtain ⟨c', b1, b2, b3, e2, g2, p2, -⟩ := C55_gaussian_float E' hz' hc0 hex hmono hsz c₂.valid c₂.outputValid c₂.storageValid c₂.shows
    c₂.outputShape c₂.storageShape c₂.outputApart c₂.storageApart c₂.apart c₂.widthBound c₂.heightBound hw2 c₂.lengthBound c₂.storageBound
  rw [r₁] at e1; cases e1
  rw [r₂] at e2; cases e2
  have ec : ∀ i, i < w → c' i = c i := fun i hi => C45_determined hex g2 g1 hi
  have hn : ∀ i, i < w → 0 ≤ c i := fun i hi => le_of_lt (g1.pos i hi)
  have hW : ∀ n x, x < n → 0 < winWeight w (w / 2) c n x := fun n x hx => winWeight_pos hx (by omega) hn (g1.pos _ (by omega))
  refine ⟨_, p1.pix _ _ hx hy, ?_⟩
  rw [p2.pix x y (by omega) (by omega), ew, eh, exactAvg_same ec (fun j hj => exactAvg_same ec (fun i hi => rfl))]
  exact congrArg some (exactAvg_shift hy (hW _ _ hy) (fun j hj => exactAvg_shift hx (hW _ _ hx) (fun i hi => heq i j hi hj)))

end

section
variable {t : IntTy} {junk junk' : Nat → Int} {h₁ h₂ h₁' h₂' : Heap Int} {i₁ i₂ u₁ u₂ s₁ s₂ o₁ o₂ v₁ v₂ : Gray} {f g : Nat → Nat → Int} {P Q : Int}

/-- The kernels of two calls are the same. -/
theorem gaussian_calls (hz : E.ms E.zero = E.zero) (hz' : E'.ms E'.zero = E'.zero) (hc0 : 0 < c0) (hex : ∀ x, 0 < ex x)
    (hmono : ∀ x y, x < y → ex x < ex y) (hsz : GaussianSize sigma width w s) (hw2 : w < 2147483648) (ht : t ∈ [U8, U16, S16, S32, S64])
    (c₁ : BlurCall h₁ i₁ u₁ s₁ f w) (c₂ : BlurCall h₂ i₂ u₂ s₂ g w) (ew : i₂.width = i₁.width) (eh : i₂.height = i₁.height)
    (hP : FitsSums t i₁.width i₁.height f (100 * w) P) (hQ : FitsSums t i₁.width i₁.height g (100 * w) Q)
    (r₁ : BlurImageOps.gaussianInt t E (intElem t.signedType junk) ex c0 i₁ u₁ sigma width s₁ h₁ = .ok (o₁, v₁) h₁')
    (r₂ : BlurImageOps.gaussianInt t E' (intElem t.signedType junk') ex c0 i₂ u₂ sigma width s₂ h₂ = .ok (o₂, v₂) h₂') :
    ∃ d : Nat → Int, (∀ i, i < w → 0 ≤ d i) ∧ (∀ n x, x < n → 0 < winWeight w (w / 2) d n x) ∧ w / 2 < w ∧
      sumF w d * (P + 1) ≤ t.signedType.hi ∧ sumF w d * (Q + 1) ≤ t.signedType.hi ∧
      ∀ x y, x < i₁.width → y < i₁.height →
        h₁'.px o₁ x y = some (roundedAvg t w (w / 2) d i₁.height (fun j => roundedAvg t w (w / 2) d i₁.width (fun i => f i j) x) y) ∧
        h₂'.px o₂ x y = some (roundedAvg t w (w / 2) d i₁.height (fun j => roundedAvg t w (w / 2) d i₁.width (fun i => g i j) x) y) := by
  have hw0 := (gaussianKernel (V := K) E hz hc0 hex hmono hsz hw2 ⟨[]⟩).1
  obtain ⟨c, d, a1, a2, a3, e1, g1, d1, p1, -, -, hd, hm⟩ := C55_gaussian E hz hc0 hex hmono hsz ht junk c₁.valid c₁.outputValid c₁.storageValid c₁.shows
    c₁.outputShape c₁.storageShape c₁.outputApart c₁.storageApart c₁.apart c₁.widthBound c₁.heightBound hw2 hP.nonneg hP.bound hP.pixels hP.sums
  obtain ⟨c', d', b1, b2, b3, e2, g2, d2, p2, -⟩ := C55_gaussian E' hz' hc0 hex hmono hsz ht junk' c₂.valid c₂.outputValid c₂.storageValid c₂.shows
    c₂.outputShape c₂.storageShape c₂.outputApart c₂.storageApart c₂.apart c₂.widthBound c₂.heightBound hw2 hQ.nonneg hQ.bound
    (by rw [ew, eh]; exact hQ.pixels) hQ.sums
  rw [r₁] at e1; cases e1
  rw [r₂] at e2; cases e2
  have ec : ∀ i, i < w → c' i = c i := fun i hi => C45_determined hex g2 g1 hi
  have ed : ∀ i, i < w → d' i = d i := fun i hi => C46_determined ec d2 d1 hi
  have hd0 : ∀ i, i < w → 0 ≤ d i := fun i hi => (hd i hi).1
  have hle : sumF w d ≤ (100 * w : Nat) := by
    have := sumF_bound (n := w) (v := d) (P := 100) (fun i hi => abs_le.mpr ⟨by have := (hd i hi).1; omega, (hd i hi).2⟩)
    have := le_trans (le_abs_self _) this
    push_cast; omega
  refine ⟨d, hd0, fun n x hx => winWeight_pos hx (by omega) hd0 hm, by omega,
    le_trans (mul_le_mul_of_nonneg_right hle (by have := hP.nonneg; omega)) hP.sums,
    le_trans (mul_le_mul_of_nonneg_right hle (by have := hQ.nonneg; omega)) hQ.sums, fun x y hx hy => ⟨p1.pix _ _ hx hy, ?_⟩⟩
  rw [p2.pix x y (by omega) (by omega), ew, eh, roundedAvg_same ed (fun j hj => roundedAvg_same ed (fun i hi => rfl))]

/-- Integral pixels: growth. -/
theorem C100_gaussian_grows (hz : E.ms E.zero = E.zero) (hz' : E'.ms E'.zero = E'.zero) (hc0 : 0 < c0) (hex : ∀ x, 0 < ex x)
    (hmono : ∀ x y, x < y → ex x < ex y) (hsz : GaussianSize sigma width w s) (hw2 : w < 2147483648) (ht : t ∈ [U8, U16, S16, S32, S64])
    (c₁ : BlurCall h₁ i₁ u₁ s₁ f w) (c₂ : BlurCall h₂ i₂ u₂ s₂ g w) (ew : i₂.width = i₁.width) (eh : i₂.height = i₁.height)
    (hP : FitsSums t i₁.width i₁.height f (100 * w) P) (hQ : FitsSums t i₁.width i₁.height g (100 * w) Q)
    (r₁ : BlurImageOps.gaussianInt t E (intElem t.signedType junk) ex c0 i₁ u₁ sigma width s₁ h₁ = .ok (o₁, v₁) h₁')
    (r₂ : BlurImageOps.gaussianInt t E' (intElem t.signedType junk') ex c0 i₂ u₂ sigma width s₂ h₂ = .ok (o₂, v₂) h₂')
    {x y : Nat} (hx : x < i₁.width) (hy : y < i₁.height)
    (hle : ∀ i j, Under w (w / 2) i₁.width x i → Under w (w / 2) i₁.height y j → f i j ≤ g i j) :
    ∃ p q, h₁'.px o₁ x y = some p ∧ h₂'.px o₂ x y = some q ∧ p ≤ q := by
  obtain ⟨d, hd, hW, ho, b1, b2, key⟩ := gaussian_calls hz hz' hc0 hex hmono hsz hw2 ht c₁ c₂ ew eh hP hQ r₁ r₂
  obtain ⟨e1, e2⟩ := key x y hx hy
  refine ⟨_, _, e1, e2, ?_⟩
  exact roundedAvg_mono ht hy hd (hW _ _ hy)
    (fun j hj => (avg_pixel ht hx ho hd (hW _ _ hx) (fun i hi => hP.pixels i j hi hj) b1 hP.bound).2.2.1)
    (fun j hj => (avg_pixel ht hx ho hd (hW _ _ hx) (fun i hi => hQ.pixels i j hi hj) b2 hQ.bound).2.2.1)
    (fun j hj => roundedAvg_mono ht hx hd (hW _ _ hx) (fun i hi => (hP.pixels i j hi hj.1).1) (fun i hi => (hQ.pixels i j hi hj.1).1)
      (fun i hi => hle i j hi hj))

/-- Integral pixels: locality. -/
theorem C100_gaussian_local (hz : E.ms E.zero = E.zero) (hz' : E'.ms E'.zero = E'.zero) (hc0 : 0 < c0) (hex : ∀ x, 0 < ex x)
    (hmono : ∀ x y, x < y → ex x < ex y) (hsz : GaussianSize sigma width w s) (hw2 : w < 2147483648) (ht : t ∈ [U8, U16, S16, S32, S64])
    (c₁ : BlurCall h₁ i₁ u₁ s₁ f w) (c₂ : BlurCall h₂ i₂ u₂ s₂ g w) (ew : i₂.width = i₁.width) (eh : i₂.height = i₁.height)
    (hP : FitsSums t i₁.width i₁.height f (100 * w) P) (hQ : FitsSums t i₁.width i₁.height g (100 * w) Q)
    (r₁ : BlurImageOps.gaussianInt t E (intElem t.signedType junk) ex c0 i₁ u₁ sigma width s₁ h₁ = .ok (o₁, v₁) h₁')
    (r₂ : BlurImageOps.gaussianInt t E' (intElem t.signedType junk') ex c0 i₂ u₂ sigma width s₂ h₂ = .ok (o₂, v₂) h₂')
    {x y : Nat} (hx : x < i₁.width) (hy : y < i₁.height)
    (heq : ∀ i j, Under w (w / 2) i₁.width x i → Under w (w / 2) i₁.height y j → f i j = g i j) :
    ∃ p, h₁'.px o₁ x y = some p ∧ h₂'.px o₂ x y = some p := by
  obtain ⟨d, hd, hW, ho, b1, b2, key⟩ := gaussian_calls hz hz' hc0 hex hmono hsz hw2 ht c₁ c₂ ew eh hP hQ r₁ r₂
  obtain ⟨e1, e2⟩ := key x y hx hy
  refine ⟨_, e1, e2.trans (congrArg some ?_)⟩
  have A := fun j hj => (avg_pixel ht hx ho hd (hW _ _ hx) (fun i hi => hP.pixels i j hi hj) b1 hP.bound).2.2.1
  have B := fun j hj => (avg_pixel ht hx ho hd (hW _ _ hx) (fun i hi => hQ.pixels i j hi hj) b2 hQ.bound).2.2.1
  exact le_antisymm
    (roundedAvg_mono ht hy hd (hW _ _ hy) B A (fun j hj => roundedAvg_mono ht hx hd (hW _ _ hx) (fun i hi => (hQ.pixels i j hi hj.1).1)
      (fun i hi => (hP.pixels i j hi hj.1).1) (fun i hi => ge_of_eq (heq i j hi hj))))
    (roundedAvg_mono ht hy hd (hW _ _ hy) A B (fun j hj => roundedAvg_mono ht hx hd (hW _ _ hx) (fun i hi => (hP.pixels i j hi hj.1).1)
      (fun i hi => (hQ.pixels i j hi hj.1).1) (fun i hi => le_of_eq (heq i j hi hj))))

/-- Integral pixels: brightness, to the last bit, when no pixel of the neighbourhood is negative. -/
theorem C100_gaussian_brightness (hz : E.ms E.zero = E.zero) (hz' : E'.ms E'.zero = E'.zero) (hc0 : 0 < c0) (hex : ∀ x, 0 < ex x)
    (hmono : ∀ x y, x < y → ex x < ex y) (hsz : GaussianSize sigma width w s) (hw2 : w < 2147483648) (ht : t ∈ [U8, U16, S16, S32, S64])
    (c₁ : BlurCall h₁ i₁ u₁ s₁ f w) (c₂ : BlurCall h₂ i₂ u₂ s₂ g w) (ew : i₂.width = i₁.width) (eh : i₂.height = i₁.height)
    (hP : FitsSums t i₁.width i₁.height f (100 * w) P) (hQ : FitsSums t i₁.width i₁.height g (100 * w) Q)
    (r₁ : BlurImageOps.gaussianInt t E (intElem t.signedType junk) ex c0 i₁ u₁ sigma width s₁ h₁ = .ok (o₁, v₁) h₁')
    (r₂ : BlurImageOps.gaussianInt t E' (intElem t.signedType junk') ex c0 i₂ u₂ sigma width s₂ h₂ = .ok (o₂, v₂) h₂')
    {x y : Nat} (hx : x < i₁.width) (hy : y < i₁.height) {a : Int} (ha : 0 ≤ a)
    (h0 : ∀ i j, Under w (w / 2) i₁.width x i → Under w (w / 2) i₁.height y j → 0 ≤ f i j)
    (heq : ∀ i j, Under w (w / 2) i₁.width x i → Under w (w / 2) i₁.height y j → g i j = f i j + a) :
    ∃ p, h₁'.px o₁ x y = some p ∧ h₂'.px o₂ x y = some (p + a) := by
  obtain ⟨d, hd, hW, ho, b1, b2, key⟩ := gaussian_calls hz hz' hc0 hex hmono hsz hw2 ht c₁ c₂ ew eh hP hQ r₁ r₂
  obtain ⟨e1, e2⟩ := key x y hx hy
  refine ⟨_, e1, e2.trans (congrArg some ?_)⟩
  refine roundedAvg_shift ht hy hd (hW _ _ hy)
    (fun j hj => (avg_pixel ht hx ho hd (hW _ _ hx) (fun i hi => hP.pixels i j hi hj) b1 hP.bound).2.2.1)
    (fun j hj => (avg_pixel ht hx ho hd (hW _ _ hx) (fun i hi => hQ.pixels i j hi hj) b2 hQ.bound).2.2.1) ha (fun j hj => ?_)
    (fun j hj => roundedAvg_shift ht hx hd (hW _ _ hx) (fun i hi => (hP.pixels i j hi hj.1).1) (fun i hi => (hQ.pixels i j hi hj.1).1) ha
      (fun i hi => h0 i j hi hj) (fun i hi => heq i j hi hj))
  exact (roundedAvg_between ht hx ho hd (hW _ _ hx) (fun i hi => hP.pixels i j hi hj.1) b1 hP.bound (lo := 0) (hi := P)
    (fun i hi => ⟨h0 i j hi hj, le_trans (le_abs_self _) (hP.pixels i j hi.1 hj.1).2⟩)).1

end

end

/-- Pixels of eight bits fit the sums of a kernel of five coefficients, with room for a brighter picture. -/
example : FitsSums U8 3 3 (fun x y => 5 * x + 7 * y) (100 * 5) 24 ∧ FitsSums U8 3 3 (fun x y => 5 * x + 7 * y + 10) (100 * 5) 34 := by
  have h : ∀ x : Nat, x < 3 → ∀ y : Nat, y < 3 → (U8.InRange (5 * x + 7 * y : Int) ∧ |(5 * x + 7 * y : Int)| ≤ 24) ∧
    (U8.InRange (5 * x + 7 * y + 10 : Int) ∧ |(5 * x + 7 * y + 10 : Int)| ≤ 34) := by decide
  exact ⟨⟨by decide, by decide, fun x y hx hy => (h x hx y hy).1, by decide⟩, ⟨by decide, by decide, fun x y hx hy => (h x hx y hy).2, by decide⟩⟩

end Boof
