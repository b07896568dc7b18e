import Verif.Proofs.Symmetry
import Verif.Props.Blur
import Verif.Props.BinaryOps
/-
C97: blurs, erosion and dilation prefer no direction.
-/
namespace Boof
open M

/-! ## Mean blur -/

section
variable {t : IntTy} {junk : Nat → Int} {h₁ h₂ h₁' h₂' : Heap Int} {i₁ i₂ u₁ u₂ s₁ s₂ o₁ o₂ v₁ v₂ : Gray} {f : Nat → Nat → Int} {r : Nat} {P : Int}

/-- The blur of a mirrored picture is the mirrored blur, to the last bit. -/
theorem C97_mean_mirrored (ht : t ∈ [U8, U16, S16, S32, S64]) (a b : Bool)
    (c₁ : BlurCall h₁ i₁ u₁ s₁ f (2 * r + 1)) (c₂ : BlurCall h₂ i₂ u₂ s₂ (mirrored a b i₁.width i₁.height f) (2 * r + 1))
    (ew : i₂.width = i₁.width) (eh : i₂.height = i₁.height) (hr : 0 < r)
    (hshape : 2 * r + 1 ≤ i₁.height ∨ i₁.width < 2 * r + 1) (hP : FitsSums t i₁.width i₁.height f (2 * r + 1) P)
    (r₁ : BlurImageOps.meanInt t (intElem t junk) i₁ u₁ r s₁ h₁ = .ok (o₁, v₁) h₁')
    (r₂ : BlurImageOps.meanInt t (intElem t junk) i₂ u₂ r s₂ h₂ = .ok (o₂, v₂) h₂') {x y : Nat} (hx : x < i₁.width) (hy : y < i₁.height) :
    h₂'.px o₂ x y = h₁'.px o₁ (mirrorIf a i₁.width x) (mirrorIf b i₁.height y) := by
  obtain ⟨a1, a2, a3, e1, p1, -⟩ := C54_mean_partial ht junk c₁.valid c₁.outputValid c₁.storageValid c₁.shows c₁.outputShape c₁.storageShape
    c₁.outputApart c₁.storageApart c₁.apart hr c₁.widthBound c₁.heightBound c₁.lengthBound c₁.storageBound hshape hP.nonneg hP.bound hP.pixels hP.sums
  obtain ⟨b1, b2, b3, e2, p2, -⟩ := C54_mean_partial ht junk c₂.valid c₂.outputValid c₂.storageValid c₂.shows c₂.outputShape c₂.storageShape
    c₂.outputApart c₂.storageApart c₂.apart hr c₂.widthBound c₂.heightBound c₂.lengthBound c₂.storageBound (by rw [ew, eh]; exact hshape) hP.nonneg hP.bound
    (fun x y hx hy => hP.pixels _ _ (mirrorIf_lt (by omega)) (mirrorIf_lt (by omega))) hP.sums
  rw [r₁] at e1; cases e1
  rw [r₂] at e2; cases e2
  rw [p1.pix _ _ (mirrorIf_lt hx) (mirrorIf_lt hy), p2.pix x y (by omega) (by omega), ew, eh]
  congr 1
  unfold meanImage mirrored
  rw [← roundedMean_mirrorIf hy]
  refine roundedMean_same (fun j hj => ?_)
  rw [roundedMean_mirrorIf hx (fun i => f i (mirrorIf b i₁.height j))]

end

section
variable {K : Type} [Field K] [LinearOrder K] [IsStrictOrderedRing K] [FloorRing K]
variable {E : GrowArray.Elem K} {h₁ h₂ h₁' h₂' : Heap K} {i₁ i₂ u₁ u₂ s₁ s₂ o₁ o₂ v₁ v₂ : Gray} {f : Nat → Nat → K} {r : Nat}

/-- Floating point pixels, exact arithmetic. -/
theorem C97_mean_mirrored_float (hz : E.ms E.zero = E.zero) (a b : Bool)
    (c₁ : BlurCall h₁ i₁ u₁ s₁ f (2 * r + 1)) (c₂ : BlurCall h₂ i₂ u₂ s₂ (mirrored a b i₁.width i₁.height f) (2 * r + 1))
    (ew : i₂.width = i₁.width) (eh : i₂.height = i₁.height) (hr : 0 < r)
    (hshape : 2 * r + 1 ≤ i₁.height ∨ i₁.width < 2 * r + 1)
    (r₁ : BlurImageOps.meanFloat E i₁ u₁ r s₁ h₁ = .ok (o₁, v₁) h₁')
    (r₂ : BlurImageOps.meanFloat E i₂ u₂ r s₂ h₂ = .ok (o₂, v₂) h₂') {x y : Nat} (hx : x < i₁.width) (hy : y < i₁.height) :
    h₂'.px o₂ x y = h₁'.px o₁ (mirrorIf a i₁.width x) (mirrorIf b i₁.height y) := by
  obtain ⟨a1, a2, a3, e1, p1, -⟩ := C54_mean_float_partial E hz c₁.valid c₁.outputValid c₁.storageValid c₁.shows c₁.outputShape c₁.storageShape
    c₁.outputApart c₁.storageApart c₁.apart hr c₁.widthBound c₁.heightBound c₁.lengthBound c₁.storageBound hshape
  obtain ⟨b1, b2, b3, e2, p2, -⟩ := C54_mean_float_partial E hz c₂.valid c₂.outputValid c₂.storageValid c₂.shows c₂.outputShape c₂.storageShape
    c₂.outputApart c₂.storageApart c₂.apart hr c₂.widthBound c₂.heightBound c₂.lengthBound c₂.storageBound (by rw [ew, eh]; exact hshape)
  rw [r₁] at e1; cases e1
  rw [r₂] at e2; cases e2
  rw [p1.pix _ _ (mirrorIf_lt hx) (mirrorIf_lt hy), p2.pix x y (by omega) (by omega), ew, eh]
  congr 1
  unfold meanImageK mirrored
  rw [← exactMean_mirrorIf hy]
  refine exactMean_same (fun j hj => ?_)
  rw [exactMean_mirrorIf hx (fun i => f i (mirrorIf b i₁.height j))]

/-- Rows and columns are treated alike: the blur of the transposed picture is the transposed blur. -/
theorem C97_mean_transposed_float (hz : E.ms E.zero = E.zero)
    (c₁ : BlurCall h₁ i₁ u₁ s₁ f (2 * r + 1)) (c₂ : BlurCall h₂ i₂ u₂ s₂ (transposed f) (2 * r + 1))
    (ew : i₂.width = i₁.height) (eh : i₂.height = i₁.width) (hr : 0 < r)
    (hshape : 2 * r + 1 ≤ i₁.height ∧ 2 * r + 1 ≤ i₁.width ∨ i₁.height < 2 * r + 1 ∧ i₁.width < 2 * r + 1)
    (r₁ : BlurImageOps.meanFloat E i₁ u₁ r s₁ h₁ = .ok (o₁, v₁) h₁')
    (r₂ : BlurImageOps.meanFloat E i₂ u₂ r s₂ h₂ = .ok (o₂, v₂) h₂') {x y : Nat} (hx : x < i₁.width) (hy : y < i₁.height) :
    h₂'.px o₂ y x = h₁'.px o₁ x y := by
  obtain ⟨a1, a2, a3, e1, p1, -⟩ := C54_mean_float_partial E hz c₁.valid c₁.outputValid c₁.storageValid c₁.shows c₁.outputShape c₁.storageShape
    c₁.outputApart c₁.storageApart c₁.apart hr c₁.widthBound c₁.heightBound c₁.lengthBound c₁.storageBound (by omega)
  obtain ⟨b1, b2, b3, e2, p2, -⟩ := C54_mean_float_partial E hz c₂.valid c₂.outputValid c₂.storageValid c₂.shows c₂.outputShape c₂.storageShape
    c₂.outputApart c₂.storageApart c₂.apart hr c₂.widthBound c₂.heightBound c₂.lengthBound c₂.storageBound (by omega)
  rw [r₁] at e1; cases e1
  rw [r₂] at e2; cases e2
  rw [p1.pix _ _ hx hy, p2.pix y x (by omega) (by omega), ew, eh]
  congr 1
  unfold meanImageK transposed
  rw [exactMean_swap]

end

/-- With integral pixels this is so up to rounding only: the blur of this picture, which is equal to its transposed picture, is not. -/
theorem C97_rounding_transposed :
    (match BlurImageOps.meanInt U8 (intElem U8 (fun _ => 7)) ⟨0, 9, 3, 3, 0, 3, false⟩ ⟨1, 9, 3, 3, 0, 3, false⟩ 1 ⟨2, 9, 3, 3, 0, 3, false⟩
      ⟨[some [0, 0, 0, 0, 0, 1, 0, 1, 0], some [0, 0, 0, 0, 0, 0, 0, 0, 0], some [0, 0, 0, 0, 0, 0, 0, 0, 0]]⟩ with
      | .ok _ h' => h'.get 1 | _ => none) = some [0, 0, 1, 0, 0, 1, 1, 0, 1] := by decide +kernel

/-- The mirrored picture and its blur, which is the mirror of the one above; both calls meet the hypotheses. -/
example : let i : Gray := ⟨0, 9, 3, 3, 0, 3, false⟩
    let u : Gray := ⟨1, 9, 3, 3, 0, 3, false⟩
    let s : Gray := ⟨2, 9, 3, 3, 0, 3, false⟩
    let f : Nat → Nat → Int := fun x y => if x + y = 3 then 1 else 0
    let h : Heap Int := ⟨[some [0, 0, 0, 0, 0, 1, 0, 1, 0], some [0, 0, 0, 0, 0, 0, 0, 0, 0], some [0, 0, 0, 0, 0, 0, 0, 0, 0]]⟩
    let h' : Heap Int := ⟨[some [0, 0, 0, 1, 0, 0, 0, 1, 0], some [0, 0, 0, 0, 0, 0, 0, 0, 0], some [0, 0, 0, 0, 0, 0, 0, 0, 0]]⟩
    BlurCall h i u s f 3 ∧ BlurCall h' i u s (mirrored true false 3 3 f) 3 ∧ FitsSums U8 3 3 f 3 255 ∧
    (match BlurImageOps.meanInt U8 (intElem U8 (fun _ => 7)) i u 1 s h' with | .ok _ h' => h'.get 1 | _ => none) = some [1, 0, 0, 1, 0, 0, 1, 0, 1] := by
  refine ⟨⟨by decide, by decide, by decide, fun x y hx hy => ?_, Or.inl rfl, Or.inl rfl, Or.inl (by decide), Or.inl (by decide), by decide, by decide, by decide,
    by decide, by decide⟩, ⟨by decide, by decide, by decide, fun x y hx hy => ?_, Or.inl rfl, Or.inl rfl, Or.inl (by decide), Or.inl (by decide), by decide,
    by decide, by decide, by decide, by decide⟩, ⟨by decide, by decide, ?_, by decide⟩, by decide +kernel⟩
  · have : ∀ x : Nat, x < 3 → ∀ y : Nat, y < 3 → Heap.px (⟨[some [0, 0, 0, 0, 0, 1, 0, 1, 0], some [0, 0, 0, 0, 0, 0, 0, 0, 0], some [0, 0, 0, 0, 0, 0, 0, 0, 0]]⟩ :
      Heap Int) ⟨0, 9, 3, 3, 0, 3, false⟩ x y = some (if x + y = 3 then 1 else 0) := by decide
    exact this x hx y hy
  · have : ∀ x : Nat, x < 3 → ∀ y : Nat, y < 3 → Heap.px (⟨[some [0, 0, 0, 1, 0, 0, 0, 1, 0], some [0, 0, 0, 0, 0, 0, 0, 0, 0], some [0, 0, 0, 0, 0, 0, 0, 0, 0]]⟩ :
      Heap Int) ⟨0, 9, 3, 3, 0, 3, false⟩ x y = some (mirrored true false 3 3 (fun x y => if x + y = 3 then 1 else 0) x y) := by decide
    exact this x hx y hy
  · intro x y _ _
    split <;> decide

/-! ## Gaussian blur -/

section
variable {K : Type} [Field K] [LinearOrder K] [IsStrictOrderedRing K] [FloorRing K]

/-- The coefficients of a Gaussian kernel are determined by its width and standard deviation. -/
theorem C45_determined {ex : K → K} (hex : ∀ x, 0 < ex x) {sigma : K} {w : Nat} {c c' : Nat → K} (g : IsGaussian ex sigma w c)
    (g' : IsGaussian ex sigma w c') {i : Nat} (hi : i < w) : c i = c' i := by
  let e : Nat → K := fun i => ex (-(fromMiddle K w i * fromMiddle K w i) / (2 * sigma * sigma))
  have pos : 0 < sumF w e := sumF_pos (by omega) (fun j _ => hex _)
  have key : ∀ {c : Nat → K}, IsGaussian ex sigma w c → sumF w e * c i = e i := fun {c} g => by
    have h1 : sumF w (fun j => c i * e j) = sumF w (fun j => e i * c j) := sumF_same (fun j hj => by
      have := g.ratio i j hi hj
      show c i * e j = e i * c j
      rw [mul_comm (e i)]; exact this)
    rw [sumF_mul, sumF_mul, g.sum, mul_one, mul_comm] at h1
    exact h1
  exact mul_left_cancel₀ (ne_of_gt pos) ((key g).trans (key g').symm)

/-- So are the coefficients of the integer kernel made from it. -/
theorem C46_determined {n N : Nat} {c c' : Nat → K} {d d' : Nat → Int} (hc : ∀ i, i < n → c i = c' i) (g : IsIntKernel n c d N)
    (g' : IsIntKernel n c' d' N) {i : Nat} (hi : i < n) : d i = d' i := by
  obtain ⟨q, mx, mn, h1, h2, h3, h4⟩ := g.quotient
  obtain ⟨q', mx', mn', h1', h2', h3', h4'⟩ := g'.quotient
  have em : mx = mx' := by
    obtain ⟨⟨j, hj, ej⟩, u⟩ := h1
    obtain ⟨⟨k, hk, ek⟩, v⟩ := h1'
    exact le_antisymm (by rw [← ej, hc j hj]; exact v j hj) (by rw [← ek, ← hc k hk]; exact u k hk)
  have en : mn = mn' := by
    obtain ⟨⟨j, hj, ej⟩, u⟩ := h2
    obtain ⟨⟨k, hk, ek⟩, v⟩ := h2'
    exact le_antisymm (by rw [← ek, ← hc k hk]; exact u k hk) (by rw [← ej, hc j hj]; exact v j hj)
  have eq : q' = q := by rw [h3, h3', em, en]
  obtain ⟨a1, a2⟩ := h4 i hi
  obtain ⟨b1, b2⟩ := h4' i hi
  rw [eq, ← hc i hi] at b1 b2
  have hq : 0 < q := by
    by_contra hn
    have : q ≤ 0 := not_lt.1 hn
    nlinarith
  have l1 : |d i| < |d' i| + 1 := by
    have : (|(d i : K)|) * q < (|(d' i : K)| + 1) * q := lt_of_le_of_lt a1 b2
    have := lt_of_mul_lt_mul_right this hq.le
    exact_mod_cast this
  have l2 : |d' i| < |d i| + 1 := by
    have : (|(d' i : K)|) * q < (|(d i : K)| + 1) * q := lt_of_le_of_lt b1 a2
    have := lt_of_mul_lt_mul_right this hq.le
    exact_mod_cast this
  rcases le_total 0 (c i) with h0 | h0
  · have := g.nonneg i hi h0
    have := g'.nonneg i hi (hc i hi ▸ h0)
    rw [abs_of_nonneg (by omega), abs_of_nonneg (by omega)] at l1 l2
    omega
  · have := g.nonpos i hi h0
    have := g'.nonpos i hi (hc i hi ▸ h0)
    rw [abs_of_nonpos (by omega), abs_of_nonpos (by omega)] at l1 l2
    omega

variable {E : GrowArray.Elem K} {ex : K → K} {c0 sigma s : K} {width : Int} {w : Nat}

section
variable {h₁ h₂ h₁' h₂' : Heap K} {i₁ i₂ u₁ u₂ s₁ s₂ o₁ o₂ v₁ v₂ : Gray} {f : Nat → Nat → K}

/-- Floating point pixels, exact arithmetic, kernels of odd width. -/
theorem C97_gaussian_mirrored_float (hz : E.ms E.zero = E.zero) (hc0 : 0 < c0) (hex : ∀ x, 0 < ex x) (hmono : ∀ x y, x < y → ex x < ex y)
    (hsz : GaussianSize sigma width w s) (hw2 : w < 2147483648) (hodd : w % 2 = 1) (a b : Bool)
    (c₁ : BlurCall h₁ i₁ u₁ s₁ f w) (c₂ : BlurCall h₂ i₂ u₂ s₂ (mirrored a b i₁.width i₁.height f) w)
    (ew : i₂.width = i₁.width) (eh : i₂.height = i₁.height)
    (r₁ : BlurImageOps.gaussianFloat E ex c0 i₁ u₁ sigma width s₁ h₁ = .ok (o₁, v₁) h₁')
    (r₂ : BlurImageOps.gaussianFloat E ex c0 i₂ u₂ sigma width s₂ h₂ = .ok (o₂, v₂) h₂') {x y : Nat} (hx : x < i₁.width) (hy : y < i₁.height) :
    h₂'.px o₂ x y = h₁'.px o₁ (mirrorIf a i₁.width x) (mirrorIf b i₁.height y) := by
  obtain ⟨c, a1, a2, a3, e1, g1, p1, -⟩ := C55_gaussian_float E hz hc0 hex hmono hsz c₁.valid c₁.outputValid c₁.storageValid c₁.shows
    c₁.outputShape c₁.storageShape c₁.outputApart c₁.storageApart c₁.apart c₁.widthBound c₁.heightBound hw2 c₁.lengthBound c₁.storageBound
  obtain ⟨c', b1, b2, b3, e2, g2, p2, -⟩ := C55_gaussian_float E hz hc0 hex hmono hsz c₂.valid c₂.outputValid c₂.storageValid c₂.shows
    c₂.outputShape c₂.storageShape c₂.outputApart c₂.storageApart c₂.apart c₂.widthBound c₂.heightBound hw2 c₂.lengthBound c₂.storageBound
  rw [r₁] at e1; cases e1
  rw [r₂] at e2; cases e2
  rw [p1.pix _ _ (mirrorIf_lt hx) (mirrorIf_lt hy), p2.pix x y (by omega) (by omega), ew, eh]
  congr 1
  have ec : ∀ i, i < w → c' i = c i := fun i hi => C45_determined hex g2 g1 hi
  rw [← exactAvg_mirrorIf hodd g1.symm hy]
  refine exactAvg_same ec (fun j hj => ?_)
  rw [← exactAvg_mirrorIf hodd g1.symm hx (fun i => f i (mirrorIf b i₁.height j))]
  exact exactAvg_same ec (fun i hi => rfl)

/-- Rows and columns are treated alike. -/
theorem C97_gaussian_transposed_float (hz : E.ms E.zero = E.zero) (hc0 : 0 < c0) (hex : ∀ x, 0 < ex x) (hmono : ∀ x y, x < y → ex x < ex y)
    (hsz : GaussianSize sigma width w s) (hw2 : w < 2147483648)
    (c₁ : BlurCall h₁ i₁ u₁ s₁ f w) (c₂ : BlurCall h₂ i₂ u₂ s₂ (transposed f) w)
    (ew : i₂.width = i₁.height) (eh : i₂.height = i₁.width)
    (r₁ : BlurImageOps.gaussianFloat E ex c0 i₁ u₁ sigma width s₁ h₁ = .ok (o₁, v₁) h₁')
    (r₂ : BlurImageOps.gaussianFloat E ex c0 i₂ u₂ sigma width s₂ h₂ = .ok (o₂, v₂) h₂') {x y : Nat} (hx : x < i₁.width) (hy : y < i₁.height) :
    h₂'.px o₂ y x = h₁'.px o₁ x y := by
  obtain ⟨c, a1, a2, a3, e1, g1, p1, -⟩ := C55_gaussian_float E hz hc0 hex hmono hsz c₁.valid c₁.outputValid c₁.storageValid c₁.shows
    c₁.outputShape c₁.storageShape c₁.outputApart c₁.storageApart c₁.apart c₁.widthBound c₁.heightBound hw2 c₁.lengthBound c₁.storageBound
  obtain ⟨c', b1, b2, b3, e2, g2, p2, -⟩ := C55_gaussian_float E hz hc0 hex hmono hsz c₂.valid c₂.outputValid c₂.storageValid c₂.shows
    c₂.outputShape c₂.storageShape c₂.outputApart c₂.storageApart c₂.apart c₂.widthBound c₂.heightBound hw2 c₂.lengthBound c₂.storageBound
  rw [r₁] at e1; cases e1
  rw [r₂] at e2; cases e2
  rw [p1.pix _ _ hx hy, p2.pix y x (by omega) (by omega), ew, eh]
  congr 1
  have ec : ∀ i, i < w → c' i = c i := fun i hi => C45_determined hex g2 g1 hi
  rw [exactAvg_swap w w (w / 2) (w / 2) i₁.width i₁.height c c f x y]
  exact exactAvg_same ec (fun j hj => exactAvg_same ec (fun i hi => rfl))
end

section
variable {t : IntTy} {junk : Nat → Int} {h₁ h₂ h₁' h₂' : Heap Int} {i₁ i₂ u₁ u₂ s₁ s₂ o₁ o₂ v₁ v₂ : Gray} {f : Nat → Nat → Int} {P : Int}

/-- Integral pixels, kernels of odd width: the blur of a mirrored picture is the mirrored blur, to the last bit. -/
theorem C97_gaussian_mirrored (hz : E.ms E.zero = E.zero) (hc0 : 0 < c0) (hex : ∀ x, 0 < ex x) (hmono : ∀ x y, x < y → ex x < ex y)
    (hsz : GaussianSize sigma width w s) (hw2 : w < 2147483648) (hodd : w % 2 = 1) (ht : t ∈ [U8, U16, S16, S32, S64]) (a b : Bool)
    (c₁ : BlurCall h₁ i₁ u₁ s₁ f w) (c₂ : BlurCall h₂ i₂ u₂ s₂ (mirrored a b i₁.width i₁.height f) w)
    (ew : i₂.width = i₁.width) (eh : i₂.height = i₁.height) (hP : FitsSums t i₁.width i₁.height f (100 * w) P)
    (r₁ : BlurImageOps.gaussianInt t E (intElem t.signedType junk) ex c0 i₁ u₁ sigma width s₁ h₁ = .ok (o₁, v₁) h₁')
    (r₂ : BlurImageOps.gaussianInt t E (intElem t.signedType junk) ex c0 i₂ u₂ sigma width s₂ h₂ = .ok (o₂, v₂) h₂')
    {x y : Nat} (hx : x < i₁.width) (hy : y < i₁.height) :
    h₂'.px o₂ x y = h₁'.px o₁ (mirrorIf a i₁.width x) (mirrorIf b i₁.height y) := by
  obtain ⟨c, d, a1, a2, a3, e1, g1, d1, p1, -⟩ := C55_gaussian E hz hc0 hex hmono hsz ht junk c₁.valid c₁.outputValid c₁.storageValid c₁.shows
    c₁.outputShape c₁.storageShape c₁.outputApart c₁.storageApart c₁.apart c₁.widthBound c₁.heightBound hw2 hP.nonneg hP.bound hP.pixels hP.sums
  obtain ⟨c', d', b1, b2, b3, e2, g2, d2, p2, -⟩ := C55_gaussian E hz hc0 hex hmono hsz ht junk c₂.valid c₂.outputValid c₂.storageValid c₂.shows
    c₂.outputShape c₂.storageShape c₂.outputApart c₂.storageApart c₂.apart c₂.widthBound c₂.heightBound hw2 hP.nonneg hP.bound
    (fun x y hx hy => hP.pixels _ _ (mirrorIf_lt (by omega)) (mirrorIf_lt (by omega))) hP.sums
  rw [r₁] at e1; cases e1
  rw [r₂] at e2; cases e2
  rw [p1.pix _ _ (mirrorIf_lt hx) (mirrorIf_lt hy), p2.pix x y (by omega) (by omega), ew, eh]
  congr 1
  have ec : ∀ i, i < w → c' i = c i := fun i hi => C45_determined hex g2 g1 hi
  have ed : ∀ i, i < w → d' i = d i := fun i hi => C46_determined ec d2 d1 hi
  have sd : ∀ i, i < w → d (w - 1 - i) = d i := fun i hi => by
    have h1 := d1.order (w - 1 - i) i (by omega) hi (le_of_eq (g1.symm i hi))
    have h2 := d1.order i (w - 1 - i) hi (by omega) (ge_of_eq (g1.symm i hi))
    omega
  rw [← roundedAvg_mirrorIf hodd sd hy]
  refine roundedAvg_same ed (fun j hj => ?_)
  rw [← roundedAvg_mirrorIf hodd sd hx (fun i => f i (mirrorIf b i₁.height j))]
  exact roundedAvg_same ed (fun i hi => rfl)
end

end

/-- Kernels of odd width: five pixels with a given standard deviation, and every width chosen by the library. -/
example : GaussianSize (3 / 2 : ℚ) 5 5 (3 / 2) ∧ 5 % 2 = 1 ∧ ∀ n : Nat, (2 * n + 1) % 2 = 1 :=
  ⟨.both (by norm_num) (by decide), rfl, fun n => by omega⟩

/-! ## Erosion and dilation -/

section
variable {h₁ h₂ h₁' h₂' : Heap Int} {i₁ i₂ u₁ u₂ o₁ o₂ : Gray} {f : Nat → Nat → Int}

theorem cross_mirror {w ht : Nat} {a b : Bool} {x y : Nat} (hi : Interior w ht x y) (v : Int) :
    Cross4 (mirrored a b w ht f) x y v ↔ Cross4 f (mirrorIf a w x) (mirrorIf b ht y) v := by
  obtain ⟨x1, x2, y1, y2⟩ := hi
  unfold Cross4 mirrored
  cases a <;> cases b <;> simp only [mirrorIf, if_true, if_false, Bool.false_eq_true]
  · rw [show ht - 1 - (y - 1) = ht - 1 - y + 1 by omega, show ht - 1 - (y + 1) = ht - 1 - y - 1 by omega]
    tauto
  · rw [show w - 1 - (x - 1) = w - 1 - x + 1 by omega, show w - 1 - (x + 1) = w - 1 - x - 1 by omega]
    tauto
  · rw [show ht - 1 - (y - 1) = ht - 1 - y + 1 by omega, show ht - 1 - (y + 1) = ht - 1 - y - 1 by omega,
      show w - 1 - (x - 1) = w - 1 - x + 1 by omega, show w - 1 - (x + 1) = w - 1 - x - 1 by omega]
    tauto

theorem cross_transposed (x y : Nat) (v : Int) : Cross4 (transposed f) y x v ↔ Cross4 f x y v := by
  unfold Cross4 transposed
  tauto

theorem interior_mirror {w ht : Nat} {a b : Bool} {x y : Nat} (hi : Interior w ht x y) : Interior w ht (mirrorIf a w x) (mirrorIf b ht y) := by
  obtain ⟨x1, x2, y1, y2⟩ := hi
  unfold Interior mirrorIf
  cases a <;> cases b <;> simp <;> omega

theorem bit_eq {a b : Int} (ha : a = 0 ∨ a = 1) (hb : b = 0 ∨ b = 1) (h : a = 1 ↔ b = 1) : a = b := by omega

/-- Eroding a mirrored picture gives the mirrored erosion. -/
theorem C97_erode_mirrored (a b : Bool) (v₁ : i₁.Valid h₁) (v₂ : i₂.Valid h₂) (w₁ : u₁.Valid h₁) (w₂ : u₂.Valid h₂) (f₁ : i₁.Shows h₁ f)
    (f₂ : i₂.Shows h₂ (mirrored a b i₁.width i₁.height f)) (hbin : IsBinary i₁.width i₁.height f)
    (ew : i₂.width = i₁.width) (eh : i₂.height = i₁.height) (k₁ : u₁.CanBe i₁.width i₁.height) (k₂ : u₂.CanBe i₂.width i₂.height)
    (s₁ : i₁.Sep u₁ i₁.width i₁.height) (s₂ : i₂.Sep u₂ i₂.width i₂.height)
    (r₁ : BinaryImageOps.erode4 i₁ u₁ h₁ = .ok o₁ h₁') (r₂ : BinaryImageOps.erode4 i₂ u₂ h₂ = .ok o₂ h₂')
    {x y : Nat} (hi : Interior i₁.width i₁.height x y) :
    ∃ v, h₂'.px o₂ x y = some v ∧ h₁'.px o₁ (mirrorIf a i₁.width x) (mirrorIf b i₁.height y) = some v := by
  have h0 : 0 < i₁.width := by obtain ⟨_, _, _, _⟩ := hi; omega
  have h1 : 0 < i₁.height := by obtain ⟨_, _, _, _⟩ := hi; omega
  obtain ⟨_, m1, _, F1, e1, q1, p1, t1, -⟩ := C31_erode4 v₁ w₁ f₁ hbin k₁ s₁ h0 h1
  obtain ⟨_, m2, _, F2, e2, q2, p2, t2, -⟩ := C31_erode4 v₂ w₂ f₂
    (fun x y hx hy => hbin _ _ (mirrorIf_lt (by omega)) (mirrorIf_lt (by omega))) k₂ s₂ (by omega) (by omega)
  rw [r₁] at e1; cases e1
  rw [r₂] at e2; cases e2
  rw [ew, eh] at q2 p2 t2
  have hi' := interior_mirror (a := a) (b := b) hi
  refine ⟨F2 x y, ?_, ?_⟩
  · rw [p2.pix x y (by rw [q2.width]; obtain ⟨_, _, _, _⟩ := hi; omega) (by rw [q2.height]; obtain ⟨_, _, _, _⟩ := hi; omega), if_pos hi]; rfl
  · rw [p1.pix _ _ (by rw [q1.width]; obtain ⟨_, _, _, _⟩ := hi'; omega) (by rw [q1.height]; obtain ⟨_, _, _, _⟩ := hi'; omega), if_pos hi']
    show some _ = some _
    rw [bit_eq (t1 _ _ hi').1 (t2 _ _ hi).1]
    rw [(t1 _ _ hi').2, (t2 _ _ hi).2]
    exact forall_congr' (fun v => by rw [cross_mirror hi])

/-- The same for dilation. -/
theorem C97_dilate_mirrored (a b : Bool) (v₁ : i₁.Valid h₁) (v₂ : i₂.Valid h₂) (w₁ : u₁.Valid h₁) (w₂ : u₂.Valid h₂) (f₁ : i₁.Shows h₁ f)
    (f₂ : i₂.Shows h₂ (mirrored a b i₁.width i₁.height f)) (hbin : IsBinary i₁.width i₁.height f)
    (ew : i₂.width = i₁.width) (eh : i₂.height = i₁.height) (k₁ : u₁.CanBe i₁.width i₁.height) (k₂ : u₂.CanBe i₂.width i₂.height)
    (s₁ : i₁.Sep u₁ i₁.width i₁.height) (s₂ : i₂.Sep u₂ i₂.width i₂.height)
    (r₁ : BinaryImageOps.dilate4 i₁ u₁ h₁ = .ok o₁ h₁') (r₂ : BinaryImageOps.dilate4 i₂ u₂ h₂ = .ok o₂ h₂')
    {x y : Nat} (hi : Interior i₁.width i₁.height x y) :
    ∃ v, h₂'.px o₂ x y = some v ∧ h₁'.px o₁ (mirrorIf a i₁.width x) (mirrorIf b i₁.height y) = some v := by
  have h0 : 0 < i₁.width := by obtain ⟨_, _, _, _⟩ := hi; omega
  have h1 : 0 < i₁.height := by obtain ⟨_, _, _, _⟩ := hi; omega
  obtain ⟨_, m1, _, F1, e1, q1, p1, t1, -⟩ := C31_dilate4 v₁ w₁ f₁ hbin k₁ s₁ h0 h1
  obtain ⟨_, m2, _, F2, e2, q2, p2, t2, -⟩ := C31_dilate4 v₂ w₂ f₂
    (fun x y hx hy => hbin _ _ (mirrorIf_lt (by omega)) (mirrorIf_lt (by omega))) k₂ s₂ (by omega) (by omega)
  rw [r₁] at e1; cases e1
  rw [r₂] at e2; cases e2
  rw [ew, eh] at q2 p2 t2
  have hi' := interior_mirror (a := a) (b := b) hi
  refine ⟨F2 x y, ?_, ?_⟩
  · rw [p2.pix x y (by rw [q2.width]; obtain ⟨_, _, _, _⟩ := hi; omega) (by rw [q2.height]; obtain ⟨_, _, _, _⟩ := hi; omega), if_pos hi]; rfl
  · rw [p1.pix _ _ (by rw [q1.width]; obtain ⟨_, _, _, _⟩ := hi'; omega) (by rw [q1.height]; obtain ⟨_, _, _, _⟩ := hi'; omega), if_pos hi']
    show some _ = some _
    rw [bit_eq (t1 _ _ hi').1 (t2 _ _ hi).1]
    rw [(t1 _ _ hi').2, (t2 _ _ hi).2]
    exact exists_congr (fun v => by rw [cross_mirror hi])

/-- Rows and columns are treated alike by both. -/
theorem C97_morphology_transposed (v₁ : i₁.Valid h₁) (v₂ : i₂.Valid h₂) (w₁ : u₁.Valid h₁) (w₂ : u₂.Valid h₂) (f₁ : i₁.Shows h₁ f)
    (f₂ : i₂.Shows h₂ (transposed f)) (hbin : IsBinary i₁.width i₁.height f)
    (ew : i₂.width = i₁.height) (eh : i₂.height = i₁.width) (k₁ : u₁.CanBe i₁.width i₁.height) (k₂ : u₂.CanBe i₂.width i₂.height)
    (s₁ : i₁.Sep u₁ i₁.width i₁.height) (s₂ : i₂.Sep u₂ i₂.width i₂.height) {x y : Nat} (hi : Interior i₁.width i₁.height x y) :
    (BinaryImageOps.erode4 i₁ u₁ h₁ = .ok o₁ h₁' → BinaryImageOps.erode4 i₂ u₂ h₂ = .ok o₂ h₂' →
      ∃ v, h₂'.px o₂ y x = some v ∧ h₁'.px o₁ x y = some v) ∧
    (BinaryImageOps.dilate4 i₁ u₁ h₁ = .ok o₁ h₁' → BinaryImageOps.dilate4 i₂ u₂ h₂ = .ok o₂ h₂' →
      ∃ v, h₂'.px o₂ y x = some v ∧ h₁'.px o₁ x y = some v) := by
  have h0 : 0 < i₁.width := by obtain ⟨_, _, _, _⟩ := hi; omega
  have h1 : 0 < i₁.height := by obtain ⟨_, _, _, _⟩ := hi; omega
  have hi' : Interior i₂.width i₂.height y x := by obtain ⟨_, _, _, _⟩ := hi; exact ⟨by omega, by omega, by omega, by omega⟩
  constructor
  · intro r₁ r₂
    obtain ⟨_, m1, _, F1, e1, q1, p1, t1, -⟩ := C31_erode4 v₁ w₁ f₁ hbin k₁ s₁ h0 h1
    obtain ⟨_, m2, _, F2, e2, q2, p2, t2, -⟩ := C31_erode4 v₂ w₂ f₂ (fun x y hx hy => hbin _ _ (by omega) (by omega)) k₂ s₂ (by omega) (by omega)
    rw [r₁] at e1; cases e1
    rw [r₂] at e2; cases e2
    refine ⟨F2 y x, ?_, ?_⟩
    · rw [p2.pix _ _ (by rw [q2.width]; obtain ⟨_, _, _, _⟩ := hi'; omega) (by rw [q2.height]; obtain ⟨_, _, _, _⟩ := hi'; omega), if_pos hi']; rfl
    · rw [p1.pix _ _ (by rw [q1.width]; obtain ⟨_, _, _, _⟩ := hi; omega) (by rw [q1.height]; obtain ⟨_, _, _, _⟩ := hi; omega), if_pos hi]
      show some _ = some _
      rw [bit_eq (t1 _ _ hi).1 (t2 _ _ hi').1]
      rw [(t1 _ _ hi).2, (t2 _ _ hi').2]
      exact forall_congr' (fun v => by rw [cross_transposed])
  · intro r₁ r₂
    obtain ⟨_, m1, _, F1, e1, q1, p1, t1, -⟩ := C31_dilate4 v₁ w₁ f₁ hbin k₁ s₁ h0 h1
    obtain ⟨_, m2, _, F2, e2, q2, p2, t2, -⟩ := C31_dilate4 v₂ w₂ f₂ (fun x y hx hy => hbin _ _ (by omega) (by omega)) k₂ s₂ (by omega) (by omega)
    rw [r₁] at e1; cases e1
    rw [r₂] at e2; cases e2
    refine ⟨F2 y x, ?_, ?_⟩
    · rw [p2.pix _ _ (by rw [q2.width]; obtain ⟨_, _, _, _⟩ := hi'; omega) (by rw [q2.height]; obtain ⟨_, _, _, _⟩ := hi'; omega), if_pos hi']; rfl
    · rw [p1.pix _ _ (by rw [q1.width]; obtain ⟨_, _, _, _⟩ := hi; omega) (by rw [q1.height]; obtain ⟨_, _, _, _⟩ := hi; omega), if_pos hi]
      show some _ = some _
      rw [bit_eq (t1 _ _ hi).1 (t2 _ _ hi').1]
      rw [(t1 _ _ hi).2, (t2 _ _ hi').2]
      exact exists_congr (fun v => by rw [cross_transposed])

end
end Boof
