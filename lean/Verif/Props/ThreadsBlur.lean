import Verif.Props.Threads
import Verif.Props.Symmetry
/-
C98 and C125 for the Gaussian blur and the threshold by a local mean.
-/
namespace Boof
open M
variable {V : Type}

theorem Thresholded.sound {j : Job V} {output s1 s2 : Gray} (hw : j.written = [output, s1, s2])
    (hrun : ∀ h, j.Ready h → ∃ g s1' s2' h', j.run h = .ok g h' ∧ Thresholded h h' output g s1 s1' s2 s2' j.width j.height j.picture) :
    j.Sound := fun h hr => by
  obtain ⟨g, s1', s2', h', e, p⟩ := hrun h hr
  refine ⟨g, h', e, ⟨p.width, p.height, p.valid, fun x y hx hy => p.pix x y (by rw [← p.width]; exact hx) (by rw [← p.height]; exact hy)⟩, ?_, p.nextLe,
    fun b hb hne => ?_, fun o ho ow oh => ?_⟩
  · rcases p.buf with e | h
    · exact Or.inl ⟨output, by simp [hw], e⟩
    · exact Or.inr h
  · have h1 := hne output (by simp [hw])
    have h2 := hne s1 (by simp [hw])
    have h3 := hne s2 (by simp [hw])
    exact ⟨p.alive b h1 h2 h3 hb, fun i => p.frame b i h1 h2 h3 hb⟩
  · rw [hw] at ho
    cases ho
    obtain ⟨e1, e2⟩ := p.inPlace ow oh
    exact ⟨e1, fun i hi => e2 i (fun x y hx hy => hi x y (by rw [ow]; exact hx) (by rw [oh]; exact hy))⟩

section
variable {K : Type} [Field K] [LinearOrder K] [IsStrictOrderedRing K] [FloorRing K]

/-- `BlurImageOps::gaussian`, floating point pixels; there is one kernel with the properties of `IsGaussian` -/
theorem C98_gaussian_float (E : GrowArray.Elem K) (hz : E.ms E.zero = E.zero) {ex : K → K} {c0 : K} (hc0 : 0 < c0)
    (hex : ∀ x, 0 < ex x) (hmono : ∀ x y, x < y → ex x < ex y) {sigma : K} {width : Int} {w : Nat} {s : K}
    (hsz : GaussianSize sigma width w s) {input output storage : Gray} {f : Nat → Nat → K}
    (hb : BlurShapes input output storage w) (hw2 : w < 2147483648) {c : Nat → K} (hg : IsGaussian ex s w c) :
    (Job.mk (do let p ← BlurImageOps.gaussianFloat E ex c0 input output sigma width storage; pure p.1) [(input, f)] [output, storage]
      input.width input.height (fun x y => exactAvg w (w / 2) c input.height
        (fun j => exactAvg w (w / 2) c input.width (fun i => f i j) x) y)).Sound :=
  Produced2.sound (storage := storage) (m := fun x y => exactAvg w (w / 2) c input.width (fun i => f i y) x) rfl (fun h hrd => by
    obtain ⟨v, sh⟩ := hrd.1 _ (List.mem_singleton.2 rfl)
    obtain ⟨c', g, s', h', e, g', p, -⟩ := C55_gaussian_float E hz hc0 hex hmono hsz v (hrd.2 output (by simp)) (hrd.2 storage (by simp)) sh
      hb.outputShape hb.storageShape hb.outputApart hb.storageApart hb.apart hb.widthBound hb.heightBound hw2 hb.lengthBound hb.storageBound
    have ec : ∀ i, i < w → c' i = c i := fun i hi => C45_determined hex g' hg hi
    refine ⟨g, s', h', (M.bind_ok e).trans rfl, ?_⟩
    have e1 : ∀ n v x, exactAvg w (w / 2) c' n v x = exactAvg w (w / 2) c n v x := fun n v x => exactAvg_same ec (fun _ _ => rfl)
    simpa only [e1] using p)

/-- `BlurImageOps::gaussian`, integral pixels -/
theorem C98_gaussian (E : GrowArray.Elem K) (hz : E.ms E.zero = E.zero) {ex : K → K} {c0 : K} (hc0 : 0 < c0)
    (hex : ∀ x, 0 < ex x) (hmono : ∀ x y, x < y → ex x < ex y) {sigma : K} {width : Int} {w : Nat} {s : K}
    (hsz : GaussianSize sigma width w s) {t : IntTy} (ht : t ∈ [U8, U16, S16, S32, S64]) (junk : Nat → Int)
    {input output storage : Gray} {f : Nat → Nat → Int} {P : Int} (hb : BlurShapes input output storage w) (hw2 : w < 2147483648)
    (hP : FitsSums t input.width input.height f (100 * w) P) {c : Nat → K} {d : Nat → Int} (hg : IsGaussian ex s w c)
    (hd : IsIntKernel w c d 100) :
    (Job.mk (do let p ← BlurImageOps.gaussianInt t E (intElem t.signedType junk) ex c0 input output sigma width storage; pure p.1)
      [(input, f)] [output, storage] input.width input.height (fun x y => roundedAvg t w (w / 2) d input.height
        (fun j => roundedAvg t w (w / 2) d input.width (fun i => f i j) x) y)).Sound :=
  Produced2.sound (storage := storage) (m := fun x y => roundedAvg t w (w / 2) d input.width (fun i => f i y) x) rfl (fun h hrd => by
    obtain ⟨v, sh⟩ := hrd.1 _ (List.mem_singleton.2 rfl)
    obtain ⟨c', d', g, s', h', e, g', dg, p, -⟩ := C55_gaussian E hz hc0 hex hmono hsz ht junk v (hrd.2 output (by simp))
      (hrd.2 storage (by simp)) sh hb.outputShape hb.storageShape hb.outputApart hb.storageApart hb.apart hb.widthBound hb.heightBound hw2
      hP.nonneg hP.bound hP.pixels hP.sums
    have ed : ∀ i, i < w → d' i = d i := fun i hi => C46_determined (fun i hi => C45_determined hex g' hg hi) dg hd hi
    refine ⟨g, s', h', (M.bind_ok e).trans rfl, ?_⟩
    have e1 : ∀ n v x, roundedAvg t w (w / 2) d' n v x = roundedAvg t w (w / 2) d n v x := fun n v x => roundedAvg_same ed (fun _ _ => rfl)
    simpa only [e1] using p)

/-- What does not depend on memory in a call of `localMean` -/
structure LocalShapes (input output storage1 storage2 : Gray) (n : Nat) : Prop where
  outputShape : output.CanBe input.width input.height
  shape1 : storage1.CanBe input.width input.height
  shape2 : storage2.CanBe input.width input.height
  outputApart : input.Sep output input.width input.height
  apart1 : input.Sep storage1 input.width input.height
  apart2 : input.Sep storage2 input.width input.height
  ne1 : storage1.buf ≠ output.buf
  ne2 : storage2.buf ≠ output.buf
  ne12 : storage2.buf ≠ storage1.buf
  widthBound : input.width + (n + 1) ≤ 2147483648
  heightBound : input.height + (n + 1) ≤ 2147483648
  lengthBound : input.dataLength < 2147483648
  storageBound : storage2.dataLength < 2147483648
  tall : 2 * (n / 2) + 1 ≤ input.height ∨ input.width < 2 * (n / 2) + 1

/-- `ThresholdOps::localMean`, integral pixels -/
theorem C98_localMean {t : IntTy} (ht : t ∈ [U8, U16, S16, S32, S64]) (junk : Nat → Int) {input output storage1 storage2 : Gray}
    {f : Nat → Nat → Int} {width : ConfigLength K} {scale : K} {down : Bool} {n : Nat} {P : Int}
    (hn : ∀ h : Heap Int, width.computeI ((min input.width input.height : Nat) : K) h = .ok n h) (hn2 : 2 ≤ n)
    (hl : LocalShapes input output storage1 storage2 n) (hP : FitsSums t input.width input.height f (n + 1) P) :
    (Job.mk (do
        let p ← ThresholdOps.localMean 0 (fun a b r s => BlurImageOps.meanInt t (intElem t junk) a b r s) (fun v => (v : K))
          (fun b => if b then 1 else 0) input output width scale down storage1 storage2
        pure p.1) [(input, f)] [output, storage1, storage2] input.width input.height
      (fun x y => if (if down then (f x y : K) ≤ (meanImage t (n / 2) input.width input.height f x y : K) * scale
        else (f x y : K) * scale > (meanImage t (n / 2) input.width input.height f x y : K)) then 1 else 0)).Sound :=
  Thresholded.sound (s1 := storage1) (s2 := storage2) rfl (fun h hrd => by
    obtain ⟨v, sh⟩ := hrd.1 _ (List.mem_singleton.2 rfl)
    obtain ⟨g, s1, s2, h', e, p, -⟩ := C36_localMean_partial (K := K) ht junk (scale := scale) (down := down) hn hn2 v (hrd.2 output (by simp))
      (hrd.2 storage1 (by simp)) (hrd.2 storage2 (by simp)) sh hl.outputShape hl.shape1 hl.shape2 hl.outputApart hl.apart1 hl.apart2 hl.ne1
      hl.ne2 hl.ne12 hl.widthBound hl.heightBound hl.lengthBound hl.storageBound hl.tall hP.nonneg hP.bound hP.pixels hP.sums
    exact ⟨g, s1, s2, h', (M.bind_ok e).trans rfl, p⟩)

/-- `ThresholdOps::localMean`, floating point pixels -/
theorem C98_localMean_float (E : GrowArray.Elem K) (hz : E.ms E.zero = E.zero) {input output storage1 storage2 : Gray}
    {f : Nat → Nat → K} {width : ConfigLength K} {scale : K} {down : Bool} {n : Nat}
    (hn : ∀ h : Heap K, width.computeI ((min input.width input.height : Nat) : K) h = .ok n h) (hn2 : 2 ≤ n)
    (hl : LocalShapes input output storage1 storage2 n) :
    (Job.mk (do
        let p ← ThresholdOps.localMean 0 (fun a b r s => BlurImageOps.meanFloat E a b r s) id
          (fun b => if b then 1 else 0) input output width scale down storage1 storage2
        pure p.1) [(input, f)] [output, storage1, storage2] input.width input.height
      (fun x y => if (if down then f x y ≤ meanImageK (n / 2) input.width input.height f x y * scale
        else f x y * scale > meanImageK (n / 2) input.width input.height f x y) then 1 else 0)).Sound :=
  Thresholded.sound (s1 := storage1) (s2 := storage2) rfl (fun h hrd => by
    obtain ⟨v, sh⟩ := hrd.1 _ (List.mem_singleton.2 rfl)
    obtain ⟨g, s1, s2, h', e, p, -⟩ := C36_localMean_float_partial (K := K) E hz (scale := scale) (down := down) hn hn2 v (hrd.2 output (by simp))
      (hrd.2 storage1 (by simp)) (hrd.2 storage2 (by simp)) sh hl.outputShape hl.shape1 hl.shape2 hl.outputApart hl.apart1 hl.apart2 hl.ne1
      hl.ne2 hl.ne12 hl.widthBound hl.heightBound hl.lengthBound hl.storageBound hl.tall
    exact ⟨g, s1, s2, h', (M.bind_ok e).trans rfl, p⟩)

/-! ## As programs of accesses -/

/-- `BlurImageOps::gaussian` with output and storage of the right size: floating point and integral pixels -/
theorem C125_gaussian (E : GrowArray.Elem K) (EI : GrowArray.Elem Int) (t : IntTy) (ex : K → K) (c0 sigma : K) (width : Int)
    {input output storage : Gray} (ow : output.width = input.width) (oh : output.height = input.height)
    (sw : storage.width = input.width) (sh : storage.height = input.height) :
    (∀ f F, ∃ p, (Job.mk (do let p ← BlurImageOps.gaussianFloat E ex c0 input output sigma width storage; pure p.1) [(input, f)]
      [output, storage] input.width input.height F).Is p) ∧
    ∀ f F, ∃ p, (Job.mk (do let p ← BlurImageOps.gaussianInt t E EI ex c0 input output sigma width storage; pure p.1) [(input, f)]
      [output, storage] input.width input.height F).Is p := by
  have ho : ∃ u, u ∈ [output, storage] ∧ output.buf = u.buf := ⟨output, by simp, rfl⟩
  have hs : ∃ u, u ∈ [output, storage] ∧ storage.buf = u.buf := ⟨storage, by simp, rfl⟩
  refine ⟨fun f F => Steps.job (Steps.bind ?_ (fun _ => Steps.pure _)), fun f F => Steps.job (Steps.bind ?_ (fun _ => Steps.pure _))⟩
  · have hi : Job.Reads (Job.mk (do let p ← BlurImageOps.gaussianFloat E ex c0 input output sigma width storage; pure p.1) [(input, f)]
      [output, storage] input.width input.height F) input.buf := Or.inl ⟨(input, f), List.mem_singleton.2 rfl, rfl⟩
    exact Steps.gaussian 0 (Steps.gaussian1D ..) (fun k => Steps.norm_hF _ k hi hs)
      (fun k => Steps.norm_vF _ k (Or.inr ⟨storage, by simp, rfl⟩) ho) ow oh sw sh
  · have hi : Job.Reads (Job.mk (do let p ← BlurImageOps.gaussianInt t E EI ex c0 input output sigma width storage; pure p.1) [(input, f)]
      [output, storage] input.width input.height F) input.buf := Or.inl ⟨(input, f), List.mem_singleton.2 rfl, rfl⟩
    exact Steps.gaussian 0 (Steps.gaussian1DInt ..) (fun k => Steps.norm_h _ k hi hs)
      (fun k => Steps.norm_v _ k (Or.inr ⟨storage, by simp, rfl⟩) ho) ow oh sw sh

/-- `ThresholdOps::localMean` with output and storage of the right size: integral and floating point pixels -/
theorem C125_localMean (E : GrowArray.Elem K) (EI : GrowArray.Elem Int) (t : IntTy) {input output storage1 storage2 : Gray}
    (width : ConfigLength K) (scale : K) (down : Bool) (ow : output.width = input.width) (oh : output.height = input.height)
    (w1 : storage1.width = input.width) (h1 : storage1.height = input.height)
    (w2 : storage2.width = input.width) (h2 : storage2.height = input.height) :
    (∀ f F, ∃ p, (Job.mk (do
        let p ← ThresholdOps.localMean 0 (fun a b r s => BlurImageOps.meanInt t EI a b r s) (fun v => (v : K))
          (fun b => if b then 1 else 0) input output width scale down storage1 storage2
        pure p.1) [(input, f)] [output, storage1, storage2] input.width input.height F).Is p) ∧
    ∀ f F, ∃ p, (Job.mk (do
        let p ← ThresholdOps.localMean 0 (fun a b r s => BlurImageOps.meanFloat E a b r s) id
          (fun b => if b then 1 else 0) input output width scale down storage1 storage2
        pure p.1) [(input, f)] [output, storage1, storage2] input.width input.height F).Is p := by
  have ho : ∃ u, u ∈ [output, storage1, storage2] ∧ output.buf = u.buf := ⟨output, by simp, rfl⟩
  have k1 : ∃ u, u ∈ [output, storage1, storage2] ∧ storage1.buf = u.buf := ⟨storage1, by simp, rfl⟩
  have k2 : ∃ u, u ∈ [output, storage1, storage2] ∧ storage2.buf = u.buf := ⟨storage2, by simp, rfl⟩
  refine ⟨fun f F => Steps.job (Steps.bind ?_ (fun _ => Steps.pure _)), fun f F => Steps.job (Steps.bind ?_ (fun _ => Steps.pure _))⟩
  · exact Steps.localMean 0 _ _ width scale down (Or.inl ⟨(input, f), List.mem_singleton.2 rfl, rfl⟩) (Or.inr ⟨storage1, by simp, rfl⟩) ho
      (fun r => Steps.meanInt_returns t EI r (Or.inl ⟨(input, f), List.mem_singleton.2 rfl, rfl⟩) (Or.inr ⟨storage2, by simp, rfl⟩) k1 k2 w1 h1 w2 h2) ow oh w1 h1 w2 h2
  · exact Steps.localMean 0 _ _ width scale down (Or.inl ⟨(input, f), List.mem_singleton.2 rfl, rfl⟩) (Or.inr ⟨storage1, by simp, rfl⟩) ho
      (fun r => Steps.meanFloat_returns E r (Or.inl ⟨(input, f), List.mem_singleton.2 rfl, rfl⟩) (Or.inr ⟨storage2, by simp, rfl⟩) k1 k2 w1 h1 w2 h2) ow oh w1 h1 w2 h2

end

/-- Two threads with one 8 bit image as input: a Gaussian blur with the real exponential and a threshold by the local mean. -/
example : let a : Gray := ⟨0, 20, 5, 4, 0, 5, false⟩
    let o1 : Gray := ⟨1, 20, 5, 4, 0, 5, false⟩
    let s1 : Gray := ⟨2, 20, 5, 4, 0, 5, false⟩
    let o2 : Gray := ⟨3, 20, 5, 4, 0, 5, false⟩
    let s2 : Gray := ⟨4, 20, 5, 4, 0, 5, false⟩
    let s3 : Gray := ⟨5, 20, 5, 4, 0, 5, false⟩
    let z : Option (List Int) := some (List.replicate 20 7)
    let h : Heap Int := ⟨[some (List.replicate 20 9), z, z, z, z, z]⟩
    ∃ job : Bool → Job Int, (job true).run = (do
        let p ← BlurImageOps.gaussianInt U8 (⟨id, 8, 0, fun _ => 7⟩ : GrowArray.Elem ℝ) (intElem S32 (fun _ => 3)) Real.exp 2.5066282746310
          a o1 1 7 s1
        pure p.1) ∧
      (job false).run = (do
        let p ← ThresholdOps.localMean (K := ℚ) 0 (fun a b r s => BlurImageOps.meanInt U8 (intElem U8 (fun _ => 7)) a b r s)
          (fun v => (v : ℚ)) (fun b => if b then 1 else 0) a o2 (ConfigLength.fixed 3) 1 true s2 s3
        pure p.1) ∧
      (∀ i j, i ≠ j → (job i).Apart (job j)) ∧ (∀ i, (job i).Sound) ∧ (∀ i, (job i).Ready h) ∧ ∀ i, ∃ p, (job i).Is p := by
  intro a o1 s1 o2 s2 s3 z h
  have ha : a.Shows h (fun _ _ => 9) := fun x y hx hy => by
    have : ∀ x, x < 5 → ∀ y, y < 4 → h.px a x y = some 9 := by decide +kernel
    exact this x hx y hy
  have va : a.Valid h := by decide +kernel
  have v1 : o1.Valid h := by decide +kernel
  have v2 : s1.Valid h := by decide +kernel
  have v3 : o2.Valid h := by decide +kernel
  have v4 : s2.Valid h := by decide +kernel
  have v5 : s3.Valid h := by decide +kernel
  have hgs : GaussianSize (1 : ℝ) 7 7 1 := GaussianSize.both one_pos (by decide)
  obtain ⟨c, d, out, st, h', e, hg, hd, -⟩ := C55_gaussian (⟨id, 8, 0, fun _ => 7⟩ : GrowArray.Elem ℝ) rfl
    (c0 := 2.5066282746310) (by norm_num) Real.exp_pos (fun _ _ hxy => Real.exp_lt_exp.mpr hxy) hgs (t := U8) (by decide) (fun _ => 3)
    (P := 9) va v1 v2 ha (Or.inl rfl) (Or.inl rfl) (Or.inl (by decide)) (Or.inl (by decide)) (by decide) (by decide) (by decide) (by decide)
    (by decide) (by decide) (fun _ _ _ _ => by decide) (by decide)
  have S1 := C98_gaussian (⟨id, 8, 0, fun _ => 7⟩ : GrowArray.Elem ℝ) rfl (c0 := 2.5066282746310) (by norm_num) Real.exp_pos
    (fun _ _ hxy => Real.exp_lt_exp.mpr hxy) hgs (t := U8) (by decide) (fun _ => 3) (input := a) (output := o1) (storage := s1)
    (f := fun _ _ => 9) (P := 9)
    ⟨Or.inl rfl, Or.inl rfl, Or.inl (by decide), Or.inl (by decide), by decide, by decide, by decide, by decide, by decide⟩ (by decide)
    ⟨by decide, by decide, fun _ _ _ _ => by decide, by decide⟩ hg hd
  have hn : ∀ h : Heap Int, (ConfigLength.fixed (3 : ℚ)).computeI ((min a.width a.height : Nat) : ℚ) h = .ok (3 : Nat) h := fun h => by
    have h1 : (ConfigLength.fixed (3 : ℚ)).compute ((min a.width a.height : Nat) : ℚ) = 3 := by decide +kernel
    unfold ConfigLength.computeI M.toInt
    rw [h1]
    rw [if_pos (by norm_num), show truncK ((3 : ℚ) + 1 / 2) = 3 by decide +kernel, if_pos (by decide)]
    rfl
  have S2 := C98_localMean (K := ℚ) (t := U8) (by decide) (fun _ => 7) (input := a) (output := o2) (storage1 := s2) (storage2 := s3)
    (f := fun _ _ => 9) (scale := 1) (down := true) (P := 9) hn (by decide)
    ⟨Or.inl rfl, Or.inl rfl, Or.inl rfl, Or.inl (by decide), Or.inl (by decide), Or.inl (by decide), by decide, by decide, by decide,
      by decide, by decide, by decide, by decide, Or.inl (by decide)⟩ ⟨by decide, by decide, fun _ _ _ _ => by decide, by decide⟩
  have I1 := fun F => (C125_gaussian (⟨id, 8, 0, fun _ => 7⟩ : GrowArray.Elem ℝ) (intElem S32 (fun _ => 3)) U8 Real.exp 2.5066282746310 1 7
    (input := a) (output := o1) (storage := s1) rfl rfl rfl rfl).2 (fun _ _ => 9) F
  have I2 := fun F => (C125_localMean (⟨id, 8, 0, fun _ => 7⟩ : GrowArray.Elem ℚ) (intElem U8 (fun _ => 7)) U8 (input := a) (output := o2)
    (storage1 := s2) (storage2 := s3) (ConfigLength.fixed 3) 1 true rfl rfl rfl rfl rfl rfl).1 (fun _ _ => 9) F
  refine ⟨fun i => match i with | true => ⟨_, _, _, _, _, _⟩ | false => ⟨_, _, _, _, _, _⟩, rfl, rfl, ?_,
    fun i => match i with | true => S1 | false => S2, fun i => ?_, fun i => match i with | true => I1 _ | false => I2 _⟩
  · intro i j hij
    cases i <;> cases j <;> first | exact absurd rfl hij | simp [Job.Apart, a, o1, s1, o2, s2, s3]
  · cases i <;> refine ⟨fun p hp => ?_, fun u hu => ?_⟩
    · rw [List.mem_singleton.1 hp]; exact ⟨va, ha⟩
    · simp only [List.mem_cons, List.not_mem_nil, or_false] at hu
      rcases hu with rfl | rfl | rfl
      · exact v3
      · exact v4
      · exact v5
    · rw [List.mem_singleton.1 hp]; exact ⟨va, ha⟩
    · simp only [List.mem_cons, List.not_mem_nil, or_false] at hu
      rcases hu with rfl | rfl
      · exact v1
      · exact v2

end Boof
