import Verif.Props.SpecialBlur
import Verif.Proofs.TwoStage
/-
C124, continued: the whole mean and Gaussian blurs, which go over the rows and then over the columns.
-/
namespace Boof
open M
variable {K : Type} [Field K] [LinearOrder K] [IsStrictOrderedRing K] [FloorRing K]
variable {rnd : K → Option K}

/-- What is known of the mean blur `out` of the image `f` at `x`, `y`: it is the blur of the columns of the blurred rows, values
below or to the right of the window have no effect, not-a-number in the window gives not-a-number, and so does, where the window
is inside the image, not-a-number anywhere above and to the left of its last pixel. -/
structure FP.MeanOf (rnd : K → Option K) (r w ht : Nat) (f : Nat → Nat → FP K) (x y : Nat) (out : FP K) : Prop where
  eq : out = .meanLine rnd (decide (2 * r + 1 ≤ w)) r ht (fun j => .meanLine rnd true r w (fun i => f i j) x) y
  only : ∀ f' : Nat → Nat → FP K, (∀ i j, i ≤ x + r → j ≤ y + r → f i j = f' i j) →
    out = .meanLine rnd (decide (2 * r + 1 ≤ w)) r ht (fun j => .meanLine rnd true r w (fun i => f' i j) x) y
  bad : ∀ i j, i < w → j < ht → x ≤ i + r → i ≤ x + r → y ≤ j + r → j ≤ y + r → f i j = .nan → out = .nan
  spread : r ≤ x → x + r < w → r ≤ y → y + r < ht → ∀ i j, i ≤ x + r → j ≤ y + r → f i j = .nan → out = .nan

theorem FP.meanOf {r w ht x y : Nat} {f : Nat → Nat → FP K} (hx : x < w) (hy : y < ht) :
    FP.MeanOf rnd r w ht f x y
      (.meanLine rnd (decide (2 * r + 1 ≤ w)) r ht (fun j => .meanLine rnd true r w (fun i => f i j) x) y) where
  eq := rfl
  only f' h := C124_mean_left hy (fun j hj => C124_mean_left hx (fun i hi => h i j hi hj))
  bad i j hi hj a b c d e := (FP.meanLine_blurred hy).window j hj c d ((FP.meanLine_blurred hx).window i hi a b e)
  spread a b c d i j hi hj e := (FP.meanLine_blurred hy).before (decide_eq_true (by omega)) c d j hj
    ((FP.meanLine_blurred hx).before rfl a b i hi e)

/-- `BlurImageOps::mean` for a float image with any values: defined, and what it shows.  MISSING: that only the window counts,
which is false (`C124_mean_refuted`), and the images of C54 (`hshape`). -/
theorem C124_mean_partial (E : GrowArray.Elem (FP K)) (hz : E.ms E.zero = E.zero)
    {h : Heap (FP K)} {input output storage : Gray} {f : Nat → Nat → FP K} {r N : Nat}
    (hi : input.Valid h) (ho : output.Valid h) (hst : storage.Valid h) (hf : input.Shows h f)
    (hc' : output.CanBe input.width input.height) (hcs : storage.CanBe input.width input.height)
    (hs : input.Sep output input.width input.height) (hss : input.Sep storage input.width input.height)
    (hne : storage.buf ≠ output.buf) (hr : 0 < r)
    (hb : input.width + (2 * r + 1) ≤ 2147483648) (hb2 : input.height + (2 * r + 1) ≤ 2147483648)
    (hl : input.dataLength < 2147483648) (hls : storage.dataLength < 2147483648)
    (hshape : 2 * r + 1 ≤ input.height ∨ input.width < 2 * r + 1)
    (hxi : ExactTo rnd N) (hN : N < P32) (hidx : 3 * input.dataLength ≤ 2 * N) (hidx' : 3 * storage.dataLength ≤ 2 * N) :
    ∃ (F G : Nat → Nat → FP K) (out st : Gray) (h' : Heap (FP K)),
      BlurImageOps.meanX rnd E input output r storage h = .ok (out, st) h' ∧
      Produced2 h h' output out storage st input.width input.height F G ∧ input.Shows h' f ∧
      ∀ x y, x < input.width → y < input.height → FP.MeanOf rnd r input.width input.height f x y (F x y) := by
  have harea := hi.area_le
  obtain ⟨⟨out, st⟩, h', e, p, v, s⟩ := two_stage (z := (.num 0 : FP K))
    (G := fun x y => .meanLine rnd true r input.width (fun i => f i y) x)
    (F := fun x y => .meanLine rnd (decide (2 * r + 1 ≤ input.width)) r input.height
      (fun j => .meanLine rnd true r input.width (fun i => f i j) x) y)
    (m1 := fun s => ConvolveImageMean.horizontalX rnd E input s r)
    (m2 := fun s o => ConvolveImageMean.verticalX rnd E s o r)
    hi ho hst hi.area_lt hi.widthLt hi.heightLt hc' hcs hs hss hne hf
    (fun h2 s' hv ew eh hp => meanX_horizontal E hz hv ew eh hp hb hl (fun x y hx hy => rfl))
    (fun h2 s' o' hv ew eh ew' eh' hlen hp => by
      refine meanX_vertical E hz hv (by omega) (by omega) hp (by omega) hr (by omega) (by omega) hxi hN (fun hk => ?_)
        (fun x y hx hy => ?_)
      · have hh : 2 * r + 1 ≤ input.height := by omega
        have hfits := hp.valid.fits (2 * r) (by omega)
        have hs2 : 2 * s'.stride ≤ 2 * r * s'.stride := Nat.mul_le_mul_right _ (by omega)
        omega
      · rw [eh, ew])
  refine ⟨_, _, out, st, h', ?_, p, s, fun x y hx hy => FP.meanOf hx hy⟩
  unfold BlurImageOps.meanX BlurImageOps.mean
  rw [if_neg (by omega)]
  exact e

/-- One pixel which is not-a-number, at the upper left corner of 4 × 4 pixels: with radius 1 the blurred pixel 2, 2 is
not-a-number too, although its window does not reach the corner. -/
theorem C124_mean_image_refuted : ∃ st h', BlurImageOps.meanX exactQ elemFP ⟨0, 16, 4, 4, 0, 4, false⟩ ⟨1, 16, 4, 4, 0, 4, false⟩ 1
      ⟨2, 16, 4, 4, 0, 4, false⟩
      ⟨[some (.nan :: List.replicate 15 (.num 1)), some (List.replicate 16 (.num 0)), some (List.replicate 16 (.num 0))]⟩ =
        .ok (⟨1, 16, 4, 4, 0, 4, false⟩, st) h' ∧
    h'.px ⟨1, 16, 4, 4, 0, 4, false⟩ 2 2 = some .nan ∧ h'.px ⟨1, 16, 4, 4, 0, 4, false⟩ 3 3 = some (.num 1) :=
  ⟨⟨2, 16, 4, 4, 0, 4, false⟩, ⟨[some (.nan :: List.replicate 15 (.num 1)),
    some [.nan, .nan, .nan, .num 1, .nan, .nan, .nan, .num 1, .nan, .nan, .nan, .num 1, .num 1, .num 1, .num 1, .num 1],
    some (.nan :: .nan :: .nan :: List.replicate 13 (.num 1))]⟩, by decide +kernel, by decide +kernel, by decide +kernel⟩

/-- That image meets the hypotheses of `C124_mean_partial` on shapes. -/
example : (⟨0, 16, 4, 4, 0, 4, false⟩ : Gray).CanBe 4 4 ∧ (⟨0, 16, 4, 4, 0, 4, false⟩ : Gray).Sep ⟨1, 16, 4, 4, 0, 4, false⟩ 4 4 ∧
    (2 * 1 + 1 ≤ 4 ∨ 4 < 2 * 1 + 1) ∧ ExactTo (float32 : ℚ → Option ℚ) 24 ∧ 3 * 16 ≤ 2 * 24 :=
  ⟨Or.inl rfl, Or.inl (by decide), by decide, fun i hi => float32_exact i (by omega), by decide⟩

/-- What is known of the blur `out` at `x`, `y` with a kernel of `kw` coefficients `c` around `o`: only the values under the
kernel count, and not-a-number there gives not-a-number. -/
structure FP.BlurOf (rnd : K → Option K) (kw o : Nat) (c : Nat → FP K) (w ht : Nat) (f : Nat → Nat → FP K) (x y : Nat)
    (out : FP K) : Prop where
  only : ∀ f' : Nat → Nat → FP K, (∀ i j, Under kw o w x i → Under kw o ht y j → f i j = f' i j) →
    out = .average rnd kw o c ht (fun j => .average rnd kw o c w (fun i => f' i j) x) y
  bad : ∀ i j, Under kw o w x i → Under kw o ht y j → f i j = .nan → out = .nan

theorem FP.blurOf {kw o w ht x y : Nat} {c : Nat → FP K} {f : Nat → Nat → FP K} (hx : x < w) (hy : y < ht) :
    FP.BlurOf rnd kw o c w ht f x y
      (.average rnd kw o c ht (fun j => .average rnd kw o c w (fun i => f i j) x) y) where
  only f' h := (FP.average_local hy).only _ (fun j hj => (FP.average_local hx).only _ (fun i hi => h i j hi hj))
  bad i j hi hj e := (FP.average_local hy).bad ⟨j, hj, (FP.average_local hx).bad ⟨i, hi, e⟩⟩

/-- `BlurImageOps::gaussian` for a float image with any values is local. -/
theorem C124_gaussian {mk : M (FP K) (Kernel (FP K))} {k : Kernel (FP K)} {kw o : Nat} {c : Nat → FP K}
    {h : Heap (FP K)} {input output storage : Gray} {f : Nat → Nat → FP K}
    (hmk : ∀ h, mk h = .ok k h) (hk : k.Is1D kw o c) (hok : o < kw)
    (hi : input.Valid h) (ho : output.Valid h) (hst : storage.Valid h) (hf : input.Shows h f)
    (hc' : output.CanBe input.width input.height) (hcs : storage.CanBe input.width input.height)
    (hs : input.Sep output input.width input.height) (hss : input.Sep storage input.width input.height)
    (hne : storage.buf ≠ output.buf)
    (hb : input.width + kw ≤ 2147483648) (hb2 : input.height + kw ≤ 2147483648)
    (hl : input.dataLength < 2147483648) (hls : storage.dataLength < 2147483648) :
    ∃ (F G : Nat → Nat → FP K) (out st : Gray) (h' : Heap (FP K)),
      BlurImageOps.gaussianX rnd mk input output storage h = .ok (out, st) h' ∧
      Produced2 h h' output out storage st input.width input.height F G ∧ input.Shows h' f ∧
      ∀ x y, x < input.width → y < input.height → FP.BlurOf rnd kw o c input.width input.height f x y (F x y) := by
  have harea := hi.area_le
  obtain ⟨⟨out, st⟩, h', e, p, v, s⟩ := two_stage (z := (.num 0 : FP K))
    (G := fun x y => .average rnd kw o c input.width (fun i => f i y) x)
    (F := fun x y => .average rnd kw o c input.height (fun j => .average rnd kw o c input.width (fun i => f i j) x) y)
    (m1 := fun s => ConvolveNormalized.horizontalF (specialArith rnd) k input s)
    (m2 := fun s o => ConvolveNormalized.verticalF (specialArith rnd) k s o)
    hi ho hst hi.area_lt hi.widthLt hi.heightLt hc' hcs hs hss hne hf
    (fun h2 s' hv ew eh hp => normalized_horizontalF (oneLaw_special rnd) hv ew eh hk hok hb hp hl
      (fun x _ => weight_special _ _ _ _ _) (fun x y _ _ => average_special _ _ _ _ _ _))
    (fun h2 s' o' hv ew eh ew' eh' hlen hp => normalized_verticalF (oneLaw_special rnd) hv (by omega) (by omega) hk hok
      (by omega) hp (by omega) (fun _ _ _ => rfl) (fun x _ => weight_special _ _ _ _ _)
      (fun x y _ _ => by rw [eh]; exact average_special _ _ _ _ _ _))
  refine ⟨_, _, out, st, h', ?_, p, s, fun x y hx hy => FP.blurOf hx hy⟩
  rw [← e]
  obtain ⟨o', h1, e1, hr⟩ := reshape_spec (.num 0 : FP K) ho hi.widthLt hi.heightLt hi.area_lt hc'
  obtain ⟨vs, -, -⟩ := hr.input hst (Or.inl hne : storage.Sep output input.width input.height)
  obtain ⟨s', h2, e2, -⟩ := reshape_spec (.num 0 : FP K) vs hi.widthLt hi.heightLt hi.area_lt hcs
  unfold BlurImageOps.gaussianX BlurImageOps.gaussian
  rw [M.bind_ok e1, M.bind_ok e1, M.bind_ok e2, M.bind_ok e2, M.bind_ok (hmk h2)]

/-- A Gaussian blur of the same image with the kernel 1, 2, 1: only the pixels at most one away from the corner are
not-a-number. -/
example : ∃ st h', BlurImageOps.gaussianX exactQ (pure ⟨3, 1, ⟨[.num 1, .num 2, .num 1], 3, .num 0, true⟩⟩) ⟨0, 16, 4, 4, 0, 4, false⟩
      ⟨1, 16, 4, 4, 0, 4, false⟩ ⟨2, 16, 4, 4, 0, 4, false⟩
      ⟨[some (.nan :: List.replicate 15 (.num 1)), some (List.replicate 16 (.num 0)), some (List.replicate 16 (.num 0))]⟩ =
        .ok (⟨1, 16, 4, 4, 0, 4, false⟩, st) h' ∧
    (∀ x y, x < 4 → y < 4 → h'.px ⟨1, 16, 4, 4, 0, 4, false⟩ x y = some (if x ≤ 1 ∧ y ≤ 1 then .nan else .num 1)) :=
  ⟨⟨2, 16, 4, 4, 0, 4, false⟩, ⟨[some (.nan :: List.replicate 15 (.num 1)),
    some (.nan :: .nan :: .num 1 :: .num 1 :: .nan :: .nan :: List.replicate 10 (.num 1)),
    some (.nan :: .nan :: List.replicate 14 (.num 1))]⟩, by decide +kernel, fun x y hx hy => by
      have : ∀ x, x < 4 → ∀ y, y < 4 → (⟨[some (.nan :: List.replicate 15 (.num 1)),
        some (.nan :: .nan :: .num 1 :: .num 1 :: .nan :: .nan :: List.replicate 10 (.num 1)),
        some (.nan :: .nan :: List.replicate 14 (.num 1))]⟩ : Heap (FP ℚ)).px ⟨1, 16, 4, 4, 0, 4, false⟩ x y =
          some (if x ≤ 1 ∧ y ≤ 1 then .nan else .num 1) := by decide +kernel
      exact this x hx y hy⟩

end Boof
