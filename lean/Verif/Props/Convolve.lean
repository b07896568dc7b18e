import Verif.Proofs.ConvolveRun
import Verif.Proofs.ImageOps
/-
C47-C50: convolution.

The specification is in Spec/Convolve.lean: `rowAt`, `colAt` and `boxAt` are the defining sums, `Border.ext` the extension of
the picture.  The theorems hold for any element arithmetic `A`; hypothesis `hF` says that the sum is defined at each pixel
(no signed overflow) and `F` is its value.  `C47_integer` and `C47_exact` say what that value is.
-/
namespace Boof
open M
variable {V S : Type}

theorem eq_some_getD {α : Type} {o : Option α} {z : α} (h : o.isSome) : o = some (o.getD z) := by
  cases o with
  | none => cases h
  | some a => rfl

/-! ## C47 -/

/-- `ConvolveImage::horizontal` writes `∑ₖ cₖ · input(x+k-o, y)`, the input being extended by the border, leaves the input
alone and writes only the output's pixels.  MISSING for the full property: reflecting and wrapping borders with a kernel that
reaches more than one period outside the image (`Reach`), for which it is false, see `C47_horizontal_refuted`. -/
theorem C47_horizontal_partial (z : V) (A : Arith V S) {k : Kernel S} {kw o : Nat} {c : Nat → S} (b : Border V)
    {h : Heap V} {input output : Gray} {f F : Nat → Nat → V}
    (hi : input.Valid h) (ho : output.Valid h) (hf : input.Shows h f)
    (hc : output.CanBe input.width input.height) (hs : input.Sep output input.width input.height)
    (hk : k.Is1D kw o c) (hok : o < kw) (hw : input.width + kw ≤ 2147483648) (hh : input.height < 2147483648)
    (hr : b.Reach input.width o (kw - 1 - o))
    (hF : ∀ x y, x < input.width → y < input.height →
      (rowAt A kw o c (b.ext input.width input.height f) x y).bind A.out = some (F x y)) :
    ∃ out h', ConvolveImage.horizontal z A k b input output h = .ok out h' ∧
      Produced h h' output out input.width input.height F ∧ input.Valid h' ∧ input.Shows h' f := by
  refine paint_run (m := fun g => if k.width ≥ g.width then ConvolveNaive.horizontal A A.out k b input g
      else do ConvolveInner.horizontal A A.out k input g; ConvolveBorder.horizontal A k b input g)
    hi ho hi.area_lt hi.widthLt hi.heightLt hc hs hf (fun h1 g' hre hpx => ?_)
  refine image_horizontal hre.valid hpx.valid hre.width hre.height hk hok hw (by omega) ?_ hF
  intro x y w0 h0 x0 x1 y0 y1
  have r0 : b.Reach input.height 0 0 := by cases b <;> simp [Border.Reach] <;> omega
  exact hpx.view hre.valid (by omega) hh hr r0 (by omega) (by omega) (by omega) (by omega) x y w0 h0 x0 (by omega)
    (by omega) (by omega)

/-- The full property for the borders that support every coordinate. -/
theorem C47_horizontal (z : V) (A : Arith V S) {k : Kernel S} {kw o : Nat} {c : Nat → S} (b : Border V)
    (hb : b = .extend ∨ ∃ v, b = .value v)
    {h : Heap V} {input output : Gray} {f F : Nat → Nat → V}
    (hi : input.Valid h) (ho : output.Valid h) (hf : input.Shows h f)
    (hc : output.CanBe input.width input.height) (hs : input.Sep output input.width input.height)
    (hk : k.Is1D kw o c) (hok : o < kw) (hw : input.width + kw ≤ 2147483648) (hh : input.height < 2147483648)
    (hF : ∀ x y, x < input.width → y < input.height →
      (rowAt A kw o c (b.ext input.width input.height f) x y).bind A.out = some (F x y)) :
    ∃ out h', ConvolveImage.horizontal z A k b input output h = .ok out h' ∧
      Produced h h' output out input.width input.height F ∧ input.Valid h' ∧ input.Shows h' f :=
  C47_horizontal_partial z A b hi ho hf hc hs hk hok hw hh (by rcases hb with rfl | ⟨v, rfl⟩ <;> trivial) hF

/-- For integral types the value written is the mathematical sum, converted to the output type, when the magnitudes of the
products add up to at most the largest `signed_type`. -/
theorem C47_integer {t r : IntTy} {kw o : Nat} {c : Nat → Int} {p : Int → Int → Int} {x y : Nat}
    (hb : sumF kw (fun k => |c k * p ((x : Int) + k - o) y|) ≤ t.signedType.hi) :
    (rowAt (intArith t r) kw o c p x y).bind (intArith t r).out =
      some (r.cast (sumF kw (fun k => c k * p ((x : Int) + k - o) y))) := by
  have := (foldO_mac (t := t) (r := r) (n := kw) (s0 := 0) (c := c) (v := fun k => p ((x : Int) + k - o) y)
    (by simpa using hb)).1
  unfold rowAt
  rw [show (intArith t r).zero = (0 : Int) from rfl, this, Option.bind_some, zero_add]
  rfl

/-- For exact arithmetic in a field the value written is the sum. -/
theorem C47_exact {K : Type} [Field K] [DecidableEq K] {kw o : Nat} {c : Nat → K} {p : Int → Int → K} {x y : Nat} :
    (rowAt (fieldArith K) kw o c p x y).bind (fieldArith K).out = some (sumF kw (fun k => c k * p ((x : Int) + k - o) y)) := by
  suffices ∀ n, foldO n (0 : K) (fun k s => (fieldArith K).mac s (c k) (p ((x : Int) + k - o) y)) =
      some (sumF n (fun k => c k * p ((x : Int) + k - o) y)) by
    unfold rowAt
    rw [show (fieldArith K).zero = (0 : K) from rfl, this]; rfl
  intro n
  induction n with
  | zero => rfl
  | succ n ih => unfold foldO; rw [ih]; rfl

/-- A reflecting border with a kernel that is wider than the image reads outside the image's array. -/
theorem C47_horizontal_refuted :
    ConvolveImage.horizontal 0 (intArith U8 S32) ⟨3, 2, ⟨[1, 2, 3], 3, 0, true⟩⟩ .reflect ⟨0, 2, 2, 1, 0, 2, false⟩
      ⟨1, 2, 2, 1, 0, 2, false⟩ ⟨[some [10, 20], some [0, 0]]⟩ = .ub ∧
    rowAt (intArith U8 S32) 3 2 (fun k => [1, 2, 3].getD k 0)
      ((Border.reflect).ext 2 1 (fun x _ => [10, 20].getD x 0)) 0 0 = some 80 := by
  decide +kernel

/-- A case that meets the hypotheses, by running the model: rows `[1,2,3,4]` and `[5,6,7,8]`, kernel `[1,10,100]` at
offset 1. -/
example : ConvolveImage.horizontal 0 (intArith U8 S32) ⟨3, 1, ⟨[1, 10, 100], 3, 0, true⟩⟩ .reflect ⟨0, 8, 4, 2, 0, 4, false⟩
    ⟨1, 1, 1, 1, 0, 1, false⟩ ⟨[some [1, 2, 3, 4, 5, 6, 7, 8], some [0]]⟩ =
    .ok ⟨2, 8, 4, 2, 0, 4, false⟩
      ⟨[some [1, 2, 3, 4, 5, 6, 7, 8], none, some [212, 321, 432, 343, 656, 765, 876, 787]]⟩ := by decide +kernel

example : Kernel.Is1D (S := Int) ⟨3, 1, ⟨[1, 10, 100], 3, 0, true⟩⟩ 3 1 (fun k => [1, 10, 100].getD k 0) ∧
    (Border.reflect : Border Int).Reach 4 1 1 ∧
    Gray.Valid (⟨[some [1, 2, 3, 4, 5, 6, 7, 8], some [0]]⟩ : Heap Int) ⟨0, 8, 4, 2, 0, 4, false⟩ ∧
    Gray.Valid (⟨[some [1, 2, 3, 4, 5, 6, 7, 8], some [0]]⟩ : Heap Int) ⟨1, 1, 1, 1, 0, 1, false⟩ ∧
    (∀ x : Nat, x < 4 → ∀ y : Nat, y < 2 → sumF 3 (fun k => |[1, 10, 100].getD k 0 *
      (Border.reflect).ext 4 2 (fun x y => [1, 2, 3, 4, 5, 6, 7, 8].getD (y * 4 + x) 0) ((x : Int) + k - 1) y|)
        ≤ U8.signedType.hi) := by
  refine ⟨⟨rfl, rfl, rfl, fun i hi => ?_⟩, ⟨by omega, by omega⟩, by decide, by decide, by decide +kernel⟩
  rcases i with _ | _ | _ | i <;> first | rfl | omega

/-! ## C48 -/

/-- `ConvolveImage::vertical` writes `∑ₖ cₖ · input(x, y+k-o)`.  MISSING for the full property: as for C47, see
`C48_vertical_refuted`. -/
theorem C48_vertical_partial (z : V) (A : Arith V S) {k : Kernel S} {kw o : Nat} {c : Nat → S} (b : Border V)
    {h : Heap V} {input output : Gray} {f F : Nat → Nat → V}
    (hi : input.Valid h) (ho : output.Valid h) (hf : input.Shows h f)
    (hc : output.CanBe input.width input.height) (hs : input.Sep output input.width input.height)
    (hk : k.Is1D kw o c) (hok : o < kw) (hh : input.height + kw ≤ 2147483648) (hw : input.width < 2147483648)
    (hr : b.Reach input.height o (kw - 1 - o))
    (hF : ∀ x y, x < input.width → y < input.height →
      (colAt A kw o c (b.ext input.width input.height f) x y).bind A.out = some (F x y)) :
    ∃ out h', ConvolveImage.vertical z A k b input output h = .ok out h' ∧
      Produced h h' output out input.width input.height F ∧ input.Valid h' ∧ input.Shows h' f := by
  refine paint_run (m := fun g => if k.width ≥ g.height then ConvolveNaive.vertical A A.out k b input g
      else do ConvolveInner.vertical A A.out k input g; ConvolveBorder.vertical A k b input g)
    hi ho hi.area_lt hi.widthLt hi.heightLt hc hs hf (fun h1 g' hre hpx => ?_)
  refine image_vertical hre.valid hpx.valid hre.width hre.height hk hok hh (by omega) ?_ hF
  intro x y w0 h0 x0 x1 y0 y1
  have r0 : b.Reach input.width 0 0 := by cases b <;> simp [Border.Reach] <;> omega
  exact hpx.view hre.valid hw (by omega) r0 hr (by omega) (by omega) (by omega) (by omega) x y w0 h0 (by omega) (by omega)
    y0 (by omega)

/-- The full property for the borders that support every coordinate. -/
theorem C48_vertical (z : V) (A : Arith V S) {k : Kernel S} {kw o : Nat} {c : Nat → S} (b : Border V)
    (hb : b = .extend ∨ ∃ v, b = .value v)
    {h : Heap V} {input output : Gray} {f F : Nat → Nat → V}
    (hi : input.Valid h) (ho : output.Valid h) (hf : input.Shows h f)
    (hc : output.CanBe input.width input.height) (hs : input.Sep output input.width input.height)
    (hk : k.Is1D kw o c) (hok : o < kw) (hh : input.height + kw ≤ 2147483648) (hw : input.width < 2147483648)
    (hF : ∀ x y, x < input.width → y < input.height →
      (colAt A kw o c (b.ext input.width input.height f) x y).bind A.out = some (F x y)) :
    ∃ out h', ConvolveImage.vertical z A k b input output h = .ok out h' ∧
      Produced h h' output out input.width input.height F ∧ input.Valid h' ∧ input.Shows h' f :=
  C48_vertical_partial z A b hi ho hf hc hs hk hok hh hw (by rcases hb with rfl | ⟨v, rfl⟩ <;> trivial) hF

theorem C48_integer {t r : IntTy} {kw o : Nat} {c : Nat → Int} {p : Int → Int → Int} {x y : Nat}
    (hb : sumF kw (fun k => |c k * p x ((y : Int) + k - o)|) ≤ t.signedType.hi) :
    (colAt (intArith t r) kw o c p x y).bind (intArith t r).out =
      some (r.cast (sumF kw (fun k => c k * p x ((y : Int) + k - o)))) := by
  have := (foldO_mac (t := t) (r := r) (n := kw) (s0 := 0) (c := c) (v := fun k => p x ((y : Int) + k - o))
    (by simpa using hb)).1
  unfold colAt
  rw [show (intArith t r).zero = (0 : Int) from rfl, this, Option.bind_some, zero_add]
  rfl

theorem C48_exact {K : Type} [Field K] [DecidableEq K] {kw o : Nat} {c : Nat → K} {p : Int → Int → K} {x y : Nat} :
    (colAt (fieldArith K) kw o c p x y).bind (fieldArith K).out = some (sumF kw (fun k => c k * p x ((y : Int) + k - o))) := by
  suffices ∀ n, foldO n (0 : K) (fun k s => (fieldArith K).mac s (c k) (p x ((y : Int) + k - o))) =
      some (sumF n (fun k => c k * p x ((y : Int) + k - o))) by
    unfold colAt
    rw [show (fieldArith K).zero = (0 : K) from rfl, this]; rfl
  intro n
  induction n with
  | zero => rfl
  | succ n ih => unfold foldO; rw [ih]; rfl

theorem C48_vertical_refuted :
    ConvolveImage.vertical 0 (intArith U8 S32) ⟨3, 2, ⟨[1, 2, 3], 3, 0, true⟩⟩ .wrap ⟨0, 1, 1, 1, 0, 1, false⟩
      ⟨1, 1, 1, 1, 0, 1, false⟩ ⟨[some [10], some [0]]⟩ = .ub ∧
    colAt (intArith U8 S32) 3 2 (fun k => [1, 2, 3].getD k 0) ((Border.wrap).ext 1 1 (fun _ _ => 10)) 0 0 = some 60 := by
  decide +kernel

example : ConvolveImage.vertical 0 (intArith U8 S32) ⟨3, 1, ⟨[1, 10, 100], 3, 0, true⟩⟩ (.value 9) ⟨0, 8, 2, 4, 0, 2, false⟩
    ⟨1, 1, 1, 1, 0, 1, false⟩ ⟨[some [1, 5, 2, 6, 3, 7, 4, 8], some [0]]⟩ =
    .ok ⟨2, 8, 2, 4, 0, 2, false⟩
      ⟨[some [1, 5, 2, 6, 3, 7, 4, 8], none, some [219, 659, 321, 765, 432, 876, 943, 987]]⟩ := by decide +kernel

/-! ## C49 -/

/-- `ConvolveImage::convolve` writes `∑ⱼ ∑ᵢ c(i,j) · input(x+i-o, y+j-o)`.  MISSING for the full property: as for C47, and
kernels of 65536 or more columns (whose coefficients the library cannot store, see C42). -/
theorem C49_convolve_partial (z : V) (A : Arith V S) {k : Kernel S} {kw o : Nat} {c : Nat → Nat → S} (b : Border V)
    {h : Heap V} {input output : Gray} {f F : Nat → Nat → V}
    (hi : input.Valid h) (ho : output.Valid h) (hf : input.Shows h f)
    (hc : output.CanBe input.width input.height) (hs : input.Sep output input.width input.height)
    (hk : k.Is2D kw o c) (hok : o < kw) (hkw : kw < 65536)
    (hw : input.width + kw ≤ 2147483648) (hh : input.height + kw ≤ 2147483648)
    (hrx : b.Reach input.width o (kw - 1 - o)) (hry : b.Reach input.height o (kw - 1 - o))
    (hF : ∀ x y, x < input.width → y < input.height →
      (boxAt A kw o c (b.ext input.width input.height f) x y).bind A.out = some (F x y)) :
    ∃ out h', ConvolveImage.convolve z A k b input output h = .ok out h' ∧
      Produced h h' output out input.width input.height F ∧ input.Valid h' ∧ input.Shows h' f := by
  refine paint_run (m := fun g => if k.width ≥ g.width ∨ k.width ≥ g.height then ConvolveNaive.convolve A A.out k b input g
      else do ConvolveInner.convolve A A.out k input g; ConvolveBorder.convolve A k b input g)
    hi ho hi.area_lt hi.widthLt hi.heightLt hc hs hf (fun h1 g' hre hpx => ?_)
  have hkk : kw * kw < P32 := by
    have := Nat.mul_le_mul (show kw ≤ 65535 by omega) (show kw ≤ 65535 by omega)
    show _ < (4294967296 : Nat); omega
  refine image_convolve hre.valid hpx.valid hre.width hre.height hk hok hkk hh hw ?_ hF
  intro x y w0 h0 x0 x1 y0 y1
  exact hpx.view hre.valid (by omega) (by omega) hrx hry (by omega) (by omega) (by omega) (by omega) x y w0 h0 x0
    (by omega) y0 (by omega)

/-- The full property for the borders that support every coordinate. -/
theorem C49_convolve (z : V) (A : Arith V S) {k : Kernel S} {kw o : Nat} {c : Nat → Nat → S} (b : Border V)
    (hb : b = .extend ∨ ∃ v, b = .value v)
    {h : Heap V} {input output : Gray} {f F : Nat → Nat → V}
    (hi : input.Valid h) (ho : output.Valid h) (hf : input.Shows h f)
    (hc : output.CanBe input.width input.height) (hs : input.Sep output input.width input.height)
    (hk : k.Is2D kw o c) (hok : o < kw) (hkw : kw < 65536)
    (hw : input.width + kw ≤ 2147483648) (hh : input.height + kw ≤ 2147483648)
    (hF : ∀ x y, x < input.width → y < input.height →
      (boxAt A kw o c (b.ext input.width input.height f) x y).bind A.out = some (F x y)) :
    ∃ out h', ConvolveImage.convolve z A k b input output h = .ok out h' ∧
      Produced h h' output out input.width input.height F ∧ input.Valid h' ∧ input.Shows h' f :=
  C49_convolve_partial z A b hi ho hf hc hs hk hok hkw hw hh (by rcases hb with rfl | ⟨v, rfl⟩ <;> trivial)
    (by rcases hb with rfl | ⟨v, rfl⟩ <;> trivial) hF

theorem C49_integer {t r : IntTy} {kw o : Nat} {c : Nat → Nat → Int} {p : Int → Int → Int} {x y : Nat}
    (hb : sumF kw (fun j => sumF kw (fun i => |c i j * p ((x : Int) + i - o) ((y : Int) + j - o)|)) ≤ t.signedType.hi) :
    (boxAt (intArith t r) kw o c p x y).bind (intArith t r).out =
      some (r.cast (sumF kw (fun j => sumF kw (fun i => c i j * p ((x : Int) + i - o) ((y : Int) + j - o))))) := by
  suffices ∀ n, n ≤ kw → sumF n (fun j => sumF kw (fun i => |c i j * p ((x : Int) + i - o) ((y : Int) + j - o)|)) ≤
        t.signedType.hi →
      foldO n (0 : Int) (fun j s => foldO kw s (fun i s => (intArith t r).mac s (c i j)
        (p ((x : Int) + i - o) ((y : Int) + j - o)))) =
      some (sumF n (fun j => sumF kw (fun i => c i j * p ((x : Int) + i - o) ((y : Int) + j - o)))) ∧
      |sumF n (fun j => sumF kw (fun i => c i j * p ((x : Int) + i - o) ((y : Int) + j - o)))| ≤
        sumF n (fun j => sumF kw (fun i => |c i j * p ((x : Int) + i - o) ((y : Int) + j - o)|)) by
    unfold boxAt
    rw [show (intArith t r).zero = (0 : Int) from rfl, (this kw (by omega) hb).1]; rfl
  intro n hn hb
  induction n with
  | zero => exact ⟨rfl, by simp [sumF]⟩
  | succ n ih =>
    have hb' : sumF n (fun j => sumF kw (fun i => |c i j * p ((x : Int) + i - o) ((y : Int) + j - o)|)) +
      sumF kw (fun i => |c i n * p ((x : Int) + i - o) ((y : Int) + n - o)|) ≤ t.signedType.hi := hb
    have h0 : 0 ≤ sumF kw (fun i => |c i n * p ((x : Int) + i - o) ((y : Int) + n - o)|) := by
      have : ∀ m, 0 ≤ sumF m (fun i => |c i n * p ((x : Int) + i - o) ((y : Int) + n - o)|) := by
        intro m
        induction m with
        | zero => exact Int.le_refl _
        | succ m ih => exact Int.add_nonneg ih (abs_nonneg _)
      exact this kw
    obtain ⟨e, e'⟩ := ih (by omega) (by omega)
    obtain ⟨a, a'⟩ := foldO_mac (t := t) (r := r) (n := kw)
      (s0 := sumF n (fun j => sumF kw (fun i => c i j * p ((x : Int) + i - o) ((y : Int) + j - o))))
      (c := fun i => c i n) (v := fun i => p ((x : Int) + i - o) ((y : Int) + n - o)) (by omega)
    refine ⟨?_, ?_⟩
    · unfold foldO
      rw [e, Option.bind_some]; beta_reduce; rw [a]; rfl
    · refine le_trans a' ?_
      show _ ≤ sumF n _ + sumF kw _
      omega

theorem C49_exact {K : Type} [Field K] [DecidableEq K] {kw o : Nat} {c : Nat → Nat → K} {p : Int → Int → K} {x y : Nat} :
    (boxAt (fieldArith K) kw o c p x y).bind (fieldArith K).out =
      some (sumF kw (fun j => sumF kw (fun i => c i j * p ((x : Int) + i - o) ((y : Int) + j - o)))) := by
  have row : ∀ (j n : Nat) (s : K), foldO n s (fun i s => (fieldArith K).mac s (c i j) (p ((x : Int) + i - o) ((y : Int) + j - o))) =
      some (s + sumF n (fun i => c i j * p ((x : Int) + i - o) ((y : Int) + j - o))) := by
    intro j n s
    induction n with
    | zero => simp [foldO, sumF]
    | succ n ih =>
      unfold foldO
      rw [ih]
      show some (s + sumF n _ + _) = some (s + (sumF n _ + _))
      rw [add_assoc]
  suffices ∀ n, foldO n (0 : K) (fun j s => foldO kw s (fun i s => (fieldArith K).mac s (c i j)
      (p ((x : Int) + i - o) ((y : Int) + j - o)))) =
      some (sumF n (fun j => sumF kw (fun i => c i j * p ((x : Int) + i - o) ((y : Int) + j - o)))) by
    unfold boxAt
    rw [show (fieldArith K).zero = (0 : K) from rfl, this]; rfl
  intro n
  induction n with
  | zero => rfl
  | succ n ih => unfold foldO; rw [ih, Option.bind_some]; beta_reduce; rw [row]; rfl

example : ConvolveImage.convolve 0 (intArith U8 S32) ⟨2, 1, ⟨[1, 10, 100, 1000], 4, 0, true⟩⟩ .extend ⟨0, 9, 3, 3, 0, 3, false⟩
    ⟨1, 9, 3, 3, 0, 3, false⟩ ⟨[some [1, 2, 3, 4, 5, 6, 7, 8, 9], some [0, 0, 0, 0, 0, 0, 0, 0, 0]]⟩ =
    .ok ⟨1, 9, 3, 3, 0, 3, false⟩
      ⟨[some [1, 2, 3, 4, 5, 6, 7, 8, 9], some [1111, 2121, 3232, 4411, 5421, 6532, 7744, 8754, 9865]]⟩ := by decide +kernel

example : Kernel.Is2D (S := Int) ⟨2, 1, ⟨[1, 10, 100, 1000], 4, 0, true⟩⟩ 2 1 (fun x y => [1, 10, 100, 1000].getD (y * 2 + x) 0) := by
  refine ⟨rfl, rfl, rfl, fun x y hx hy => ?_⟩
  rcases x with _ | _ | x <;> rcases y with _ | _ | y <;> first | rfl | omega

/-! ## C50 -/

/-- `ConvolveImage::horizontal` and `ConvolveNaive::horizontal` end in the same state, for every border (also where a
reflecting or wrapping border is used beyond one period) provided that the naive one is defined: each border read
(`p`) and each sum is. -/
theorem C50_horizontal (z : V) (A : Arith V S) {k : Kernel S} {kw o : Nat} {c : Nat → S} (b : Border V)
    {h : Heap V} {input output : Gray} {p : Int → Int → V}
    (hi : input.Valid h) (ho : output.Valid h)
    (hc : output.CanBe input.width input.height) (hs : input.buf ≠ output.buf)
    (hk : k.Is1D kw o c) (hok : o < kw) (hw : input.width + kw ≤ 2147483648) (hh : input.height < 2147483648)
    (hp : ∀ x y : Int, -(o : Int) ≤ x → x < input.width + kw - 1 - o → 0 ≤ y → y < input.height →
      b.get input x y h = .ok (p x y) h)
    (hF : ∀ x y, x < input.width → y < input.height → ((rowAt A kw o c p x y).bind A.out).isSome) :
    ∃ out h', ConvolveImage.horizontal z A k b input output h = .ok out h' ∧
      (do let output ← output.reshape z input.width input.height
          ConvolveNaive.horizontal A A.out k b input output
          pure output : M V Gray) h = .ok out h' := by
  refine paint_same (F := fun x y => ((rowAt A kw o c p x y).bind A.out).getD z)
    (m := fun g => if k.width ≥ g.width then ConvolveNaive.horizontal A A.out k b input g
      else do ConvolveInner.horizontal A A.out k input g; ConvolveBorder.horizontal A k b input g)
    ho hi.area_lt hi.widthLt hi.heightLt hc (fun h1 g' hre => ?_)
  have hF' : ∀ x y, x < input.width → y < input.height →
      (rowAt A kw o c p x y).bind A.out = some (((rowAt A kw o c p x y).bind A.out).getD z) :=
    fun x y hx hy => eq_some_getD (hF x y hx hy)
  have hview := view_of_reads (F := fun x y => ((rowAt A kw o c p x y).bind A.out).getD z) hi hre hs hp
  have hva : input.Valid h1 := (hre.input hi (Or.inl hs)).1
  exact ⟨image_horizontal hre.valid hva hre.width hre.height hk hok hw (by omega) hview hF',
    naive_horizontal hre.valid hre.width hre.height hk hok hw (by omega) hview hF'⟩

theorem C50_vertical (z : V) (A : Arith V S) {k : Kernel S} {kw o : Nat} {c : Nat → S} (b : Border V)
    {h : Heap V} {input output : Gray} {p : Int → Int → V}
    (hi : input.Valid h) (ho : output.Valid h)
    (hc : output.CanBe input.width input.height) (hs : input.buf ≠ output.buf)
    (hk : k.Is1D kw o c) (hok : o < kw) (hh : input.height + kw ≤ 2147483648) (hw : input.width < 2147483648)
    (hp : ∀ x y : Int, 0 ≤ x → x < input.width → -(o : Int) ≤ y → y < input.height + kw - 1 - o →
      b.get input x y h = .ok (p x y) h)
    (hF : ∀ x y, x < input.width → y < input.height → ((colAt A kw o c p x y).bind A.out).isSome) :
    ∃ out h', ConvolveImage.vertical z A k b input output h = .ok out h' ∧
      (do let output ← output.reshape z input.width input.height
          ConvolveNaive.vertical A A.out k b input output
          pure output : M V Gray) h = .ok out h' := by
  refine paint_same (F := fun x y => ((colAt A kw o c p x y).bind A.out).getD z)
    (m := fun g => if k.width ≥ g.height then ConvolveNaive.vertical A A.out k b input g
      else do ConvolveInner.vertical A A.out k input g; ConvolveBorder.vertical A k b input g)
    ho hi.area_lt hi.widthLt hi.heightLt hc (fun h1 g' hre => ?_)
  have hF' : ∀ x y, x < input.width → y < input.height →
      (colAt A kw o c p x y).bind A.out = some (((colAt A kw o c p x y).bind A.out).getD z) :=
    fun x y hx hy => eq_some_getD (hF x y hx hy)
  have hview := view_of_reads (F := fun x y => ((colAt A kw o c p x y).bind A.out).getD z) hi hre hs hp
  have hva : input.Valid h1 := (hre.input hi (Or.inl hs)).1
  exact ⟨image_vertical hre.valid hva hre.width hre.height hk hok hh (by omega) hview hF',
    naive_vertical hre.valid hre.width hre.height hk hok hh (by omega) hview hF'⟩

theorem C50_convolve (z : V) (A : Arith V S) {k : Kernel S} {kw o : Nat} {c : Nat → Nat → S} (b : Border V)
    {h : Heap V} {input output : Gray} {p : Int → Int → V}
    (hi : input.Valid h) (ho : output.Valid h)
    (hc : output.CanBe input.width input.height) (hs : input.buf ≠ output.buf)
    (hk : k.Is2D kw o c) (hok : o < kw) (hkw : kw < 65536) (hw : input.width + kw ≤ 2147483648)
    (hh : input.height + kw ≤ 2147483648)
    (hp : ∀ x y : Int, -(o : Int) ≤ x → x < input.width + kw - 1 - o → -(o : Int) ≤ y → y < input.height + kw - 1 - o →
      b.get input x y h = .ok (p x y) h)
    (hF : ∀ x y, x < input.width → y < input.height → ((boxAt A kw o c p x y).bind A.out).isSome) :
    ∃ out h', ConvolveImage.convolve z A k b input output h = .ok out h' ∧
      (do let output ← output.reshape z input.width input.height
          ConvolveNaive.convolve A A.out k b input output
          pure output : M V Gray) h = .ok out h' := by
  refine paint_same (F := fun x y => ((boxAt A kw o c p x y).bind A.out).getD z)
    (m := fun g => if k.width ≥ g.width ∨ k.width ≥ g.height then ConvolveNaive.convolve A A.out k b input g
      else do ConvolveInner.convolve A A.out k input g; ConvolveBorder.convolve A k b input g)
    ho hi.area_lt hi.widthLt hi.heightLt hc (fun h1 g' hre => ?_)
  have hF' : ∀ x y, x < input.width → y < input.height →
      (boxAt A kw o c p x y).bind A.out = some (((boxAt A kw o c p x y).bind A.out).getD z) :=
    fun x y hx hy => eq_some_getD (hF x y hx hy)
  have hview := view_of_reads (F := fun x y => ((boxAt A kw o c p x y).bind A.out).getD z) hi hre hs hp
  have hva : input.Valid h1 := (hre.input hi (Or.inl hs)).1
  have hkk : kw * kw < P32 := by
    have := Nat.mul_le_mul (show kw ≤ 65535 by omega) (show kw ≤ 65535 by omega)
    show _ < (4294967296 : Nat); omega
  exact ⟨image_convolve hre.valid hva hre.width hre.height hk hok hkk hh hw hview hF',
    naive_convolve hre.valid hre.width hre.height hk hok hkk hh hw hview hF'⟩

/-- The hypotheses can hold where the border leaves its period: this reflecting read goes to another row, and it is defined. -/
example : ∀ x y : Int, -2 ≤ x → x < 2 + 4 - 1 - 2 → 0 ≤ y → y < 2 → x ≠ -2 ∨ y ≠ 1 →
    ∃ v, (Border.reflect : Border Int).get ⟨0, 8, 2, 2, 2, 2, true⟩ x y ⟨[some [1, 2, 3, 4, 5, 6, 7, 8]]⟩ =
      .ok v ⟨[some [1, 2, 3, 4, 5, 6, 7, 8]]⟩ := by
  intro x y h1 h2 h3 h4 h5
  have hx : x = -2 ∨ x = -1 ∨ x = 0 ∨ x = 1 ∨ x = 2 := by omega
  have hy : y = 0 ∨ y = 1 := by omega
  rcases hx with rfl | rfl | rfl | rfl | rfl <;> rcases hy with rfl | rfl <;> exact ⟨_, rfl⟩

end Boof
