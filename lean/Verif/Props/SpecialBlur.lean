import Verif.Props.SpecialFloat
import Verif.Props.Normalized
/-
C124, continued: normalised convolution, which the Gaussian blur uses, and histograms.
-/
namespace Boof
open M
variable {V K : Type} [Field K] [LinearOrder K] [IsStrictOrderedRing K] [FloorRing K]
variable {rnd : K → Option K}

/-! ## Normalised convolution -/

/-- The average of the values under a kernel with coefficients `c` centred on `x` in a line of `n`: the sum of the products by
the sum of the coefficients, both over the part inside the line. -/
def FP.average (rnd : K → Option K) (kw o : Nat) (c : Nat → FP K) (n : Nat) (v : Nat → FP K) (x : Nat) : FP K :=
  let k0 := firstIn o x
  let m := lastIn kw o n x - k0
  FP.div rnd (FP.dot rnd m (fun i => c (k0 + i)) (fun i => v (x + (k0 + i) - o)))
    (FP.total rnd (.num 0) m (fun i => c (k0 + i)))

theorem average_special (kw o : Nat) (c : Nat → FP K) (n : Nat) (v : Nat → FP K) (x : Nat) :
    avgAt (specialArith rnd) kw o c n v x = some (FP.average rnd kw o c n v x) := by
  unfold avgAt FP.average FP.dot
  have h1 := FP.foldO_total (rnd := rnd) (.num 0) (lastIn kw o n x - firstIn o x)
    (fun i => FP.mul rnd (c (firstIn o x + i)) (v (x + (firstIn o x + i) - o)))
  have h2 := FP.foldO_total (rnd := rnd) (.num 0) (lastIn kw o n x - firstIn o x) (fun i => c (firstIn o x + i))
  change Option.bind (foldO _ (FP.num 0) (fun i t => some (FP.add rnd t (FP.mul rnd _ _)))) (fun total =>
    Option.bind (foldO _ (FP.num 0) (fun i w => some (FP.add rnd w _))) _) = _
  rw [h1, Option.bind_some, h2]; rfl

/-- What is known of the average `out` at `x`: not-a-number under the kernel gives not-a-number, and any line with the same
values under the kernel has the same average. -/
structure FP.Local (rnd : K → Option K) (kw o : Nat) (c : Nat → FP K) (n : Nat) (v : Nat → FP K) (x : Nat) (out : FP K) : Prop where
  bad : (∃ j, Under kw o n x j ∧ v j = .nan) → out = .nan
  only : ∀ w : Nat → FP K, (∀ j, Under kw o n x j → v j = w j) → out = FP.average rnd kw o c n w x

theorem FP.average_local {kw o n x : Nat} {c v : Nat → FP K} (hx : x < n) :
    FP.Local rnd kw o c n v x (FP.average rnd kw o c n v x) := by
  constructor
  · rintro ⟨j, ⟨h1, h2, h3⟩, e⟩
    have : FP.dot rnd (lastIn kw o n x - firstIn o x) (fun i => c (firstIn o x + i)) (fun i => v (x + (firstIn o x + i) - o)) = .nan := by
      refine FP.total_nan (k := j + o - x - firstIn o x) ?_ ?_
      · unfold lastIn firstIn; omega
      · show FP.mul rnd _ (v (x + (firstIn o x + (j + o - x - firstIn o x)) - o)) = _
        rw [show x + (firstIn o x + (j + o - x - firstIn o x)) - o = j by unfold firstIn; omega, e, FP.mul_nan]
    show FP.div rnd (FP.dot rnd _ _ _) _ = _
    rw [this, FP.nan_div]
  · intro w hw
    have : ∀ k, k < lastIn kw o n x - firstIn o x → v (x + (firstIn o x + k) - o) = w (x + (firstIn o x + k) - o) := by
      intro k hk
      refine hw _ ?_
      unfold lastIn firstIn at *
      unfold Under
      omega
    unfold FP.average FP.dot
    show FP.div rnd (FP.total rnd _ _ _) _ = FP.div rnd (FP.total rnd _ _ _) _
    rw [FP.total_congr (w := fun k => FP.mul rnd (c (firstIn o x + k)) (w (x + (firstIn o x + k) - o)))
      (fun k hk => congrArg (FP.mul rnd _) (this k hk))]

/-- The rows of a float image are convolved with a normalised kernel whatever the values are, and only the values under the
kernel count: the Gaussian blur does not have the defect of the mean blur. -/
theorem C124_normalized_horizontal {k : Kernel (FP K)} {kw o : Nat} {c : Nat → FP K}
    {h : Heap (FP K)} {input output : Gray} {f : Nat → Nat → FP K}
    (hi : input.Valid h) (ho : output.Valid h) (hf : input.Shows h f) (hdis : input.Disjoint output)
    (ew : output.width = input.width) (eh : output.height = input.height)
    (hk : k.Is1D kw o c) (hok : o < kw) (hw : input.width + kw ≤ 2147483648) (hl : input.dataLength < 2147483648) :
    ∃ (F : Nat → Nat → FP K) (h' : Heap (FP K)),
      ConvolveNormalized.horizontalF (specialArith rnd) k input output h = .ok () h' ∧
      Painted h h' output (fun x y => some (F x y)) ∧ input.Shows h' f ∧
      ∀ x y, x < input.width → y < input.height → FP.Local rnd kw o c input.width (fun i => f i y) x (F x y) := by
  obtain ⟨h', e, p, -, s⟩ := C51_horizontal_float (specialArith rnd) (oneLaw_special rnd) hi ho hf hdis ew eh hk hok hw hl
    (fun x _ => weight_special _ _ _ _ _) (fun x y _ _ => average_special kw o c input.width (fun i => f i y) x)
  exact ⟨_, h', e, p, s, fun x y hx _ => FP.average_local hx⟩

/-- The same for columns. -/
theorem C124_normalized_vertical {k : Kernel (FP K)} {kw o : Nat} {c : Nat → FP K}
    {h : Heap (FP K)} {input output : Gray} {f : Nat → Nat → FP K}
    (hi : input.Valid h) (ho : output.Valid h) (hf : input.Shows h f) (hdis : input.Disjoint output)
    (ew : output.width = input.width) (eh : output.height = input.height)
    (hk : k.Is1D kw o c) (hok : o < kw) (hh : input.height + kw ≤ 2147483648) (hl : input.dataLength < 2147483648) :
    ∃ (F : Nat → Nat → FP K) (h' : Heap (FP K)),
      ConvolveNormalized.verticalF (specialArith rnd) k input output h = .ok () h' ∧
      Painted h h' output (fun x y => some (F x y)) ∧ input.Shows h' f ∧
      ∀ x y, x < input.width → y < input.height → FP.Local rnd kw o c input.height (fun i => f x i) y (F x y) := by
  obtain ⟨h', e, p, -, s⟩ := C51_vertical_float (specialArith rnd) (oneLaw_special rnd) hi ho hf hdis ew eh hk hok hh hl
    (fun _ _ _ => rfl) (fun x _ => weight_special _ _ _ _ _) (fun x y _ _ => average_special kw o c input.height (fun i => f x i) y)
  exact ⟨_, h', e, p, s, fun x y _ hy => FP.average_local hy⟩

/-! ## Histograms -/

/-- A program which does not change the heap: it is undefined or ends normally. -/
def ReadOnly {α : Type} (m : M V α) : Prop := ∀ h, m h = .ub ∨ ∃ a, m h = .ok a h

namespace ReadOnly
variable {α β : Type}

theorem pure (a : α) : ReadOnly (Pure.pure a : M V α) := fun _ => Or.inr ⟨a, rfl⟩
theorem ub : ReadOnly (M.ub : M V α) := fun _ => Or.inl rfl

theorem bind {m : M V α} {f : α → M V β} (hm : ReadOnly m) (hf : ∀ a, ReadOnly (f a)) : ReadOnly (m >>= f) := fun h => by
  rcases hm h with e | ⟨a, e⟩
  · exact Or.inl (M.bind_ub e)
  · rw [M.bind_ok e]; exact hf a h

theorem rd (b i : Nat) : ReadOnly (M.rd b i : M V V) := fun h => by
  unfold M.rd
  cases h.cell b i with
  | none => exact Or.inl rfl
  | some v => exact Or.inr ⟨v, rfl⟩

theorem loopS {n : Nat} {init : β} {body : Nat → β → M V β} (hb : ∀ i s, ReadOnly (body i s)) :
    ReadOnly (M.loopS n init body) := by
  induction n with
  | zero => exact ReadOnly.pure init
  | succ n ih => exact ReadOnly.bind (m := M.loopS n init body) ih (fun s => hb n s)

/-- A loop of such programs is undefined if one round is. -/
theorem loopS_ub {n k : Nat} {init : β} {body : Nat → β → M V β} (hb : ∀ i s, ReadOnly (body i s)) (hk : k < n) {h : Heap V}
    (hu : ∀ s, body k s h = .ub) : M.loopS n init body h = .ub := by
  induction n with
  | zero => omega
  | succ n ih =>
    by_cases e : k = n
    · subst e
      rcases ReadOnly.loopS (n := k) (init := init) hb h with e | ⟨s, e⟩
      · exact M.bind_ub (m := M.loopS k init body) e
      · exact (M.bind_ok (m := M.loopS k init body) e).trans (hu s)
    · exact M.bind_ub (m := M.loopS n init body) (ih (by omega))

theorem toU32 (a : FP K) : ReadOnly (FP.toU32 a : M V Nat) := by
  cases a with
  | num x =>
    show ReadOnly (if _ then _ else _)
    split
    · exact ReadOnly.pure _
    · exact ReadOnly.ub
  | inf s => exact ReadOnly.ub
  | nan => exact ReadOnly.ub

end ReadOnly

theorem histogram_bad {g : Gray} {minValue : FP K} {hist : GrowArray Int} {h : Heap (FP K)} {x y : Nat} {v : FP K}
    (hv : g.Valid h) (hx : x < g.width) (hy : y < g.height) (hp : h.px g x y = some v) (hbad : v = .nan ∨ ∃ s, v = .inf s) :
    ImageStatistics.histogramX rnd g minValue hist h = .ub := by
  have hro : ∀ (index k : Nat) (hist : GrowArray Int), ReadOnly (V := FP K) (do
      let v ← rd g.buf (index + k)
      let d ← FP.toU32 (.sub rnd v minValue)
      match hist.data[d]? with
      | some c => pure { hist with data := hist.data.set d (U32.cast (c + 1)) }
      | none => M.ub) := by
    intro index k hist
    refine .bind (.rd _ _) (fun v => .bind (.toU32 _) (fun d => ?_))
    split
    · exact .pure _
    · exact .ub
  unfold ImageStatistics.histogramX
  have hfill : ReadOnly (V := FP K) (match GrowArray.fill (intElem U32 (fun _ => 0)) 0 hist with
    | .ok _ a => (pure a : M (FP K) (GrowArray Int))
    | _ => M.ub) := by
    split
    · exact .pure _
    · exact .ub
  rcases hfill h with e | ⟨a, e⟩
  · exact M.bind_ub e
  refine (M.bind_ok e).trans ?_
  have r1 := hv.rowEnd_lt (y := y) hy
  have e1 : wrap32 (g.offset + y * g.stride) = g.offset + y * g.stride := wrap32_of_lt (by unfold P32 at *; omega)
  have e2 : wrap32 (g.offset + y * g.stride + g.width) = g.offset + y * g.stride + g.width :=
    wrap32_of_lt (by unfold P32 at *; omega)
  refine ReadOnly.loopS_ub (k := y) (fun i s => .loopS (fun k s => hro _ _ _)) hy (fun s => ?_)
  show M.loopS (wrap32 (wrap32 (g.offset + y * g.stride) + g.width) - wrap32 (g.offset + y * g.stride)) s _ h = .ub
  rw [e1, e2]
  refine ReadOnly.loopS_ub (k := x) (fun k s => hro _ _ _) (by omega) (fun s => ?_)
  have hc : h.cell g.buf (g.offset + y * g.stride + x) = some v := hp
  refine (M.bind_ok (M.rd_run hc)).trans (M.bind_ub ?_)
  rcases hbad with rfl | ⟨s, rfl⟩
  · rw [FP.nan_sub]; rfl
  · cases minValue with
    | num m => rfl
    | inf t => cases s <;> cases t <;> rfl
    | nan => rfl

/-- The histogram of a float image with a pixel which is infinite or not-a-number is undefined, and so is choosing a threshold
by Otsu's method: the difference of the pixel and the smallest value is converted to an integer. -/
theorem C124_otsu_refuted {input output : Gray} {h : Heap (FP K)} {x y : Nat} {v : FP K} (hv : input.Valid h)
    (hx : x < input.width) (hy : y < input.height) (hp : h.px input x y = some v) (hbad : v = .nan ∨ ∃ s, v = .inf s)
    (minValue maxValue : FP K) (junk : Nat → Int) (compute : GrowArray Int → Nat → M (FP K) (FP K)) (down : Bool) :
    (∀ hist, ImageStatistics.histogramX rnd input minValue hist h = .ub) ∧
    ThresholdOps.globalOtsuX rnd junk compute minValue maxValue down input output h = .ub := by
  have hh : ∀ hist, ImageStatistics.histogramX rnd input minValue hist h = .ub := fun hist => histogram_bad hv hx hy hp hbad
  refine ⟨hh, ?_⟩
  unfold ThresholdOps.globalOtsuX
  refine M.bind_ub ?_
  unfold ThresholdOps.computeOtsuX
  rcases ReadOnly.toU32 (V := FP K) (.sub rnd (.add rnd (.num 1) maxValue) minValue) h with e | ⟨range, e⟩
  · exact M.bind_ub e
  refine (M.bind_ok e).trans ?_
  have hnew : ReadOnly (V := FP K) (match GrowArray.new (intElem U32 junk) range with
    | .ok _ a => (pure a : M (FP K) (GrowArray Int))
    | _ => M.ub) := by
    split
    · exact .pure _
    · exact .ub
  rcases hnew h with e | ⟨a, e⟩
  · exact M.bind_ub e
  exact (M.bind_ok e).trans (M.bind_ub (hh a))

/-! ## Examples -/

/-- With ordinary pixels the same histogram is defined. -/
example : ImageStatistics.histogramX exactQ rowIn (.num 0) ⟨[0, 0, 0], 3, 0, true⟩
    (rowFP [.num 1, .num (1/2), .num 1, .num 2, .num 0, .num 1, .num 1]) =
    .ok ⟨[2, 4, 1], 3, 0, true⟩ (rowFP [.num 1, .num (1/2), .num 1, .num 2, .num 0, .num 1, .num 1]) := by decide +kernel

example : (rowFP [.num 1, .nan, .num 1, .num 2, .num 0, .num 1, .num 1]).px rowIn 1 0 = some .nan ∧
    Gray.Valid (rowFP [.num 1, .nan, .num 1, .num 2, .num 0, .num 1, .num 1]) rowIn := by decide +kernel

/-- A normalised kernel with coefficients 1, 2, 1: only the averages of the windows with the bad pixel are spoilt. -/
example : ConvolveNormalized.horizontalF (specialArith exactQ) ⟨3, 1, ⟨[.num 1, .num 2, .num 1], 3, .num 0, true⟩⟩ rowIn rowOut
    (rowFP [.num 1, .nan, .num 1, .num 1, .num 1, .inf true, .num 1]) =
    .ok () ⟨[some [.num 1, .nan, .num 1, .num 1, .num 1, .inf true, .num 1],
      some [.nan, .nan, .nan, .num 1, .inf true, .inf true, .inf true]]⟩ := by decide +kernel

end Boof
