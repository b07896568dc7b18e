import Verif.Props.Blur
import Verif.Props.Normalized
/-
C93: the mean blur, which keeps a running sum, and the normalised convolution with a box kernel, which adds up every window anew, leave
exactly the same memory.
-/
namespace Boof
open M

section
variable {t : IntTy} {h : Heap Int} {input output : Gray} {f : Nat → Nat → Int} {r : Nat} {P : Int} {k : Kernel Int}

/-- Along the rows, integral pixels. -/
theorem C93_horizontal (ht : t ∈ [U8, U16, S16, S32, S64]) (junk : Nat → Int) (hk : k.Is1D (2 * r + 1) r (fun _ => 1))
    (hi : input.Valid h) (ho : output.Valid h) (hf : input.Shows h f) (hdis : input.Disjoint output)
    (ew : output.width = input.width) (eh : output.height = input.height)
    (hb : input.width + (2 * r + 1) ≤ 2147483648) (hP : 0 ≤ P)
    (hpix : ∀ x y, x < input.width → y < input.height → t.InRange (f x y) ∧ |f x y| ≤ P)
    (hov : (2 * r + 1 : Nat) * (P + 1) ≤ t.signedType.hi) :
    ∃ h', ConvolveImageMean.horizontalInt t (intElem t junk) input output r h = .ok () h' ∧
      ConvolveNormalized.horizontal (intArith t t) k input output h = .ok () h' := by
  obtain ⟨h1, e1, p1, -⟩ := C54_horizontal ht junk hi ho hf hdis ew eh hb hP hpix hov
  have hk0 : ((2 * r + 1 : Nat) : Int) ≤ t.signedType.hi := by nlinarith
  obtain ⟨h2, e2, p2, -⟩ := C51_horizontal (intArith t t) (F := fun x y => roundedMean t r input.width (fun i => f i y) x)
    hi ho hf hdis ew eh hk (by omega) hb (fun x hx => weight_ones hx hk0)
    (fun x y hx hy => (avg_ones hx (fun i hi => (hpix i y hi hy).2) hov).1)
  exact ⟨h1, e1, by rw [p1.unique p2]; exact e2⟩

/-- Along the columns, integral pixels.  MISSING for the full property: the shapes for which the mean blur is undefined (`hshape`). -/
theorem C93_vertical_partial (ht : t ∈ [U8, U16, S16, S32, S64]) (junk : Nat → Int) (hk : k.Is1D (2 * r + 1) r (fun _ => 1))
    (hi : input.Valid h) (ho : output.Valid h) (hf : input.Shows h f) (hdis : input.Disjoint output)
    (ew : output.width = input.width) (eh : output.height = input.height) (hr : 0 < r)
    (hb : input.height + (2 * r + 1) ≤ 2147483648) (hl : input.dataLength < 2147483648)
    (hshape : 2 * r + 1 ≤ input.height ∨ input.width < 2 * r + 1) (hP : 0 ≤ P)
    (hpix : ∀ x y, x < input.width → y < input.height → t.InRange (f x y) ∧ |f x y| ≤ P)
    (hov : (2 * r + 1 : Nat) * (P + 1) ≤ t.signedType.hi) :
    ∃ h', ConvolveImageMean.verticalInt t (intElem t junk) input output r h = .ok () h' ∧
      ConvolveNormalized.vertical (intArith t t) k input output h = .ok () h' := by
  obtain ⟨h1, e1, p1, -⟩ := C54_vertical_partial ht junk hi ho hf hdis ew eh hr hb hl hshape hP hpix hov
  have hk0 : ((2 * r + 1 : Nat) : Int) ≤ t.signedType.hi := by nlinarith
  obtain ⟨h2, e2, p2, -⟩ := C51_vertical_partial (intArith t t) (F := fun x y => roundedMean t r input.height (fun i => f x i) y)
    hi ho hf hdis ew eh hk (by omega) hb (fun _ _ _ => (pix_types ht).2.1) (fun x hx => weight_ones hx hk0)
    (fun x y hx hy => (avg_ones hy (fun i hi => (hpix x i hx hi).2) hov).1)
  exact ⟨h1, e1, by rw [p1.unique p2]; exact e2⟩
end

section
variable {K : Type} [Field K] [LinearOrder K] [IsStrictOrderedRing K] [FloorRing K]
  {h : Heap K} {input output : Gray} {f : Nat → Nat → K} {r : Nat} {k : Kernel K} {d : K}

theorem avg_boxK {n x : Nat} (v : Nat → K) (hd : d ≠ 0) (hx : x < n) :
    avgAt (fieldArith K) (2 * r + 1) r (fun _ => d) n v x = some (exactMean r n v x) := by
  have hc : (localCount r n x : K) ≠ 0 := by
    have := localCount_pos (r := r) hx
    exact_mod_cast (by omega : localCount r n x ≠ 0)
  obtain ⟨e1, e2⟩ := winSum_constK (r := r) v d hx
  rw [avg_exact (by rw [e2]; exact mul_ne_zero hd hc), e1, e2]
  unfold exactMean
  rw [mul_div_mul_left _ _ hd]

/-- Along the rows, floating point pixels in exact arithmetic, any box kernel. -/
theorem C93_horizontal_float (E : GrowArray.Elem K) (hz : E.ms E.zero = E.zero) (hk : k.Is1D (2 * r + 1) r (fun _ => d)) (hd : d ≠ 0)
    (hi : input.Valid h) (ho : output.Valid h) (hf : input.Shows h f) (hdis : input.Disjoint output)
    (ew : output.width = input.width) (eh : output.height = input.height)
    (hb : input.width + (2 * r + 1) ≤ 2147483648) (hl : input.dataLength < 2147483648) :
    ∃ h', ConvolveImageMean.horizontalFloat E input output r h = .ok () h' ∧
      ConvolveNormalized.horizontalF (fieldArith K) k input output h = .ok () h' := by
  obtain ⟨h1, e1, p1, -⟩ := C54_horizontal_float E hz hi ho hf hdis ew eh hb hl
  obtain ⟨h2, e2, p2, -⟩ := C51_horizontal_float (fieldArith K) (oneLaw_exact K) (F := fun x y => exactMean r input.width (fun i => f i y) x)
    hi ho hf hdis ew eh hk (by omega) hb hl (fun _ _ => weight_exact) (fun x y hx hy => avg_boxK _ hd hx)
  exact ⟨h1, e1, by rw [p1.unique p2]; exact e2⟩

/-- Along the columns.  MISSING: `hshape`. -/
theorem C93_vertical_float_partial (E : GrowArray.Elem K) (hz : E.ms E.zero = E.zero) (hk : k.Is1D (2 * r + 1) r (fun _ => d)) (hd : d ≠ 0)
    (hi : input.Valid h) (ho : output.Valid h) (hf : input.Shows h f) (hdis : input.Disjoint output)
    (ew : output.width = input.width) (eh : output.height = input.height) (hr : 0 < r)
    (hb : input.height + (2 * r + 1) ≤ 2147483648) (hl : input.dataLength < 2147483648)
    (hshape : 2 * r + 1 ≤ input.height ∨ input.width < 2 * r + 1) :
    ∃ h', ConvolveImageMean.verticalFloat E input output r h = .ok () h' ∧
      ConvolveNormalized.verticalF (fieldArith K) k input output h = .ok () h' := by
  obtain ⟨h1, e1, p1, -⟩ := C54_vertical_float_partial E hz hi ho hf hdis ew eh hr hb hl hshape
  obtain ⟨h2, e2, p2, -⟩ := C51_vertical_float (fieldArith K) (oneLaw_exact K) (F := fun x y => exactMean r input.height (fun i => f x i) y)
    hi ho hf hdis ew eh hk (by omega) hb hl (fun _ _ _ => rfl) (fun _ _ => weight_exact) (fun x y hx hy => avg_boxK _ hd hy)
  exact ⟨h1, e1, by rw [p1.unique p2]; exact e2⟩
end

/-- The hypotheses hold: a 4 × 3 picture of 8-bit pixels, radius 1. -/
example : ConvolveImageMean.verticalInt U8 (intElem U8 (fun _ => 7)) ⟨0, 12, 4, 3, 0, 4, false⟩ ⟨1, 12, 4, 3, 0, 4, false⟩ 1
      ⟨[some [10, 20, 30, 40, 50, 60, 0, 90, 0, 255, 255, 255], some (List.replicate 12 0)]⟩ =
    ConvolveNormalized.vertical (intArith U8 U8) ⟨3, 1, ⟨[1, 1, 1], 3, 0, true⟩⟩ ⟨0, 12, 4, 3, 0, 4, false⟩ ⟨1, 12, 4, 3, 0, 4, false⟩
      ⟨[some [10, 20, 30, 40, 50, 60, 0, 90, 0, 255, 255, 255], some (List.replicate 12 0)]⟩ ∧
    ConvolveNormalized.vertical (intArith U8 U8) ⟨3, 1, ⟨[1, 1, 1], 3, 0, true⟩⟩ ⟨0, 12, 4, 3, 0, 4, false⟩ ⟨1, 12, 4, 3, 0, 4, false⟩
      ⟨[some [10, 20, 30, 40, 50, 60, 0, 90, 0, 255, 255, 255], some (List.replicate 12 0)]⟩ =
    .ok () ⟨[some [10, 20, 30, 40, 50, 60, 0, 90, 0, 255, 255, 255], some [30, 40, 15, 65, 20, 112, 95, 128, 25, 158, 128, 173]]⟩ := by
  decide +kernel

end Boof
