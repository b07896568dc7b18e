import Mathlib.Algebra.Order.BigOperators.Ring.Finset
import Verif.Props.Algebra
import Verif.Proofs.Arith
/-
C91 and C92 for integral pixels: no result may leave the type of the sums, then the laws hold exactly.
-/
namespace Boof
open M

theorem ext_bound {b : Border Int} (hb : b.Homogeneous) {w h : Nat} {f : Nat → Nat → Int} {P : Int} (hP : 0 ≤ P)
    (hf : ∀ x y, x < w → y < h → |f x y| ≤ P) (hw : 0 < w) (hh : 0 < h) (x y : Int) : |b.ext w h f x y| ≤ P := by
  rw [Border.ext_eq hb]
  cases hx : b.coord w x with
  | none => simpa using hP
  | some i =>
    cases hy : b.coord h y with
    | none => simpa using hP
    | some j => simpa using hf i j (b.coord_lt hw hx) (b.coord_lt hh hy)

theorem sum_bound {n : Nat} {c v : Nat → Int} {P : Int} (hv : ∀ i, i < n → |v i| ≤ P) :
    sumF n (fun i => |c i * v i|) ≤ sumF n (fun i => |c i|) * P ∧ |sumF n (fun i => c i * v i)| ≤ sumF n (fun i => |c i|) * P := by
  have h1 : sumF n (fun i => |c i * v i|) ≤ sumF n (fun i => |c i|) * P := by
    simp only [sumF_eq, Finset.sum_mul]
    exact Finset.sum_le_sum (fun i hi => by
      rw [abs_mul]; exact mul_le_mul_of_nonneg_left (hv i (Finset.mem_range.mp hi)) (abs_nonneg _))
  refine ⟨h1, le_trans ?_ h1⟩
  simp only [sumF_eq]
  exact Finset.abs_sum_le_sum_abs _ _

section
variable (z : Int) (b : Border Int) {h : Heap Int} {output input storage : Gray} {kw o : Nat} {k k' kk : Kernel Int}
  {f : Nat → Nat → Int} {c d : Nat → Int} {t : IntTy} {P : Int}

theorem cast32 {v : Int} (h : |v| ≤ S32.hi) : S32.cast v = v :=
  IntTy.cast_of_inRange (by decide) (by
    have := abs_le.mp h
    constructor
    · exact le_trans (by decide) this.1
    · exact this.2)

/-- Horizontal, then vertical convolution of integral pixels into 32-bit images is the convolution with the product kernel, when the sums
of magnitudes fit. -/
theorem C92_separable_int (ht : t ∈ [U8, U16, S16, S32]) (hb : b.Homogeneous) (hk : k.Is1D kw o c) (hk' : k'.Is1D kw o d)
    (hkk : kk.Is2D kw o (fun i j => c i * d j)) (hok : o < kw) (hkw : kw < 65536)
    (hi : input.Valid h) (hf : input.Shows h f) (ho : output.Valid h) (hst : storage.Valid h)
    (hc : output.CanBe input.width input.height) (hcs : storage.CanBe input.width input.height)
    (hs : input.Sep output input.width input.height) (hss : input.Sep storage input.width input.height) (hne : storage.buf ≠ output.buf)
    (hw : input.width + kw ≤ 2147483648) (hh : input.height + kw ≤ 2147483648)
    (hrx : b.Reach input.width o (kw - 1 - o)) (hry : b.Reach input.height o (kw - 1 - o))
    (hP0 : 0 ≤ P) (hP : ∀ x y, x < input.width → y < input.height → |f x y| ≤ P)
    (h1 : sumF kw (fun i => |c i|) * P ≤ 2147483647)
    (h2 : sumF kw (fun j => |d j|) * (sumF kw (fun i => |c i|) * P) ≤ 2147483647) :
    ∃ F, Makes (ConvolveImage.convolve z (intArith t S32) kk b input output h) h output input.width input.height F ∧
      MakesVia ((do
        let s ← ConvolveImage.horizontal z (intArith t S32) k b input storage
        ConvolveImage.vertical z (intArith S32 S32) k' b s output : M Int Gray) h) h storage output input.width input.height F := by
  have hst32 : t.signedType = S32 := by clear hP h1 h2; revert t; decide
  have hhi : S32.hi = 2147483647 := by decide
  have ex : ∀ x y, 0 < input.width → 0 < input.height → |b.ext input.width input.height f x y| ≤ P :=
    fun x y hx hy => ext_bound hb hP0 hP hx hy x y
  -- the rows
  have hG : ∀ x y : Nat, x < input.width → y < input.height →
      (rowAt (intArith t S32) kw o c (b.ext input.width input.height f) x y).bind (intArith t S32).out =
        some (sumF kw (fun k => c k * b.ext input.width input.height f ((x : Int) + k - o) y)) := fun x y hx hy => by
    have := sum_bound (n := kw) (c := c) (v := fun k => b.ext input.width input.height f ((x : Int) + k - o) y) (P := P)
      (fun i _ => ex _ _ (by omega) (by omega))
    rw [C47_integer (by rw [hst32, hhi]; exact le_trans this.1 h1), cast32 (by rw [hhi]; exact le_trans this.2 h1)]
  -- the whole
  have bd : ∀ x y : Nat, x < input.width → y < input.height →
      sumF kw (fun j => sumF kw (fun i => |c i * d j * b.ext input.width input.height f ((x : Int) + i - o) ((y : Int) + j - o)|)) ≤ 2147483647 :=
    fun x y hx hy => by
    refine le_trans ?_ h2
    simp only [sumF_eq, Finset.sum_mul]
    refine Finset.sum_le_sum (fun j _ => ?_)
    rw [Finset.mul_sum]
    refine Finset.sum_le_sum (fun i _ => ?_)
    rw [abs_mul, abs_mul]
    calc |c i| * |d j| * |b.ext input.width input.height f ((x : Int) + i - o) ((y : Int) + j - o)|
        ≤ |c i| * |d j| * P := mul_le_mul_of_nonneg_left (ex _ _ (by omega) (by omega)) (mul_nonneg (abs_nonneg _) (abs_nonneg _))
      _ = |d j| * (|c i| * P) := by ring
  have hF : ∀ x y : Nat, x < input.width → y < input.height →
      (boxAt (intArith t S32) kw o (fun i j => c i * d j) (b.ext input.width input.height f) x y).bind (intArith t S32).out =
        some (sumF kw (fun j => sumF kw (fun i => c i * d j * b.ext input.width input.height f ((x : Int) + i - o) ((y : Int) + j - o)))) :=
    fun x y hx hy => by
    rw [C49_integer (by rw [hst32, hhi]; exact bd x y hx hy), cast32]
    rw [hhi]
    refine le_trans ?_ (bd x y hx hy)
    simp only [sumF_eq]
    exact le_trans (Finset.abs_sum_le_sum_abs _ _) (Finset.sum_le_sum (fun j _ => Finset.abs_sum_le_sum_abs _ _))
  obtain ⟨out, h', e, p, -⟩ := C49_convolve_partial z (intArith t S32) b hi ho hf hc hs hkk hok hkw hw hh hrx hry hF
  refine ⟨_, ⟨out, h', e, p⟩, ?_⟩
  obtain ⟨st, h1', e1, p1, -⟩ := C47_horizontal_partial z (intArith t S32) b hi hst hf hcs hss hk hok hw (by omega) hrx hG
  refine Makes.next ⟨st, h1', e1, p1⟩ ho hne (fun s h1 sv sw sh sp ov hb' => ?_)
  obtain ⟨out, h', e, p, -⟩ := C48_vertical_partial (F := fun x y => sumF kw (fun j => sumF kw (fun i => c i * d j *
      b.ext input.width input.height f ((x : Int) + i - o) ((y : Int) + j - o)))) z (intArith S32 S32) b sv ov sp
    (by rw [sw, sh]; exact hc) (Or.inl hb') hk' hok (by omega) (by omega) (by rw [sh]; exact hry) (fun x y hx hy => by
      rw [sw] at hx
      rw [sh] at hy
      have gb : ∀ y' : Int, |sumF kw (fun k => c k * b.ext input.width input.height f ((x : Int) + k - o) y')| ≤ sumF kw (fun i => |c i|) * P :=
        fun y' => (sum_bound (fun i _ => ex _ _ (by omega) (by omega))).2
      have := sum_bound (n := kw) (c := d) (fun j _ => gb ((y : Int) + j - o))
      rw [C48_integer]
      · simp only [sw, sh, ext_rowSum hb hx (by omega : 0 < input.height)]
        rw [cast32 (by rw [hhi]; exact le_trans this.2 h2)]
        simp only [sumF_eq, Finset.mul_sum]
        exact congrArg some (Finset.sum_congr rfl (fun j _ => Finset.sum_congr rfl (fun i _ => by ring)))
      · simp only [sw, sh, ext_rowSum hb hx (by omega : 0 < input.height)]
        exact le_trans this.1 h2)
  rw [sw, sh] at p
  exact ⟨out, h', e, p⟩

/-- A one at position `m` shifts a picture of integral pixels; no restriction on the pixels but that their type can hold them. -/
theorem C91_shift_int (ht : t ∈ [U8, U16, S16, S32]) {m : Nat} (hk : k.Is1D kw o (impulse m)) (hok : o < kw) (hm : m < kw)
    (hi : input.Valid h) (hf : input.Shows h f) (ho : output.Valid h) (hc : output.CanBe input.width input.height)
    (hs : input.Sep output input.width input.height) (hw : input.width + kw ≤ 2147483648) (hh : input.height + kw ≤ 2147483648)
    (hv : ∀ x y, |b.ext input.width input.height f x y| ≤ 2147483647) :
    (b.Reach input.width o (kw - 1 - o) →
      Makes (ConvolveImage.horizontal z (intArith t S32) k b input output h) h output input.width input.height
        (fun x y => b.ext input.width input.height f ((x : Int) + m - o) y)) ∧
    (b.Reach input.height o (kw - 1 - o) →
      Makes (ConvolveImage.vertical z (intArith t S32) k b input output h) h output input.width input.height
        (fun x y => b.ext input.width input.height f x ((y : Int) + m - o))) := by
  have hst32 : t.signedType = S32 := by revert t; decide
  have hhi : S32.hi = 2147483647 := by decide
  have key : ∀ v : Nat → Int, sumF kw (fun k => |impulse m k * v k|) = |v m| := fun v => by
    have e : ∀ k, |impulse m k * v k| = impulse m k * |v k| := fun k => by
      unfold impulse; split <;> simp
    simp only [e]
    exact sumF_impulse hm (fun k => |v k|)
  refine ⟨fun hr => ?_, fun hr => ?_⟩
  · obtain ⟨out, h', e, p, -⟩ := C47_horizontal_partial z (intArith t S32) b hi ho hf hc hs hk hok hw (by omega) hr (fun x y _ _ => by
      rw [C47_integer (by rw [hst32, hhi, key]; exact hv _ _),
        sumF_impulse hm (fun k => b.ext input.width input.height f ((x : Int) + k - o) y), cast32 (by rw [hhi]; exact hv _ _)])
    exact ⟨out, h', e, p⟩
  · obtain ⟨out, h', e, p, -⟩ := C48_vertical_partial z (intArith t S32) b hi ho hf hc hs hk hok hh (by omega) hr (fun x y _ _ => by
      rw [C48_integer (by rw [hst32, hhi, key]; exact hv _ _),
        sumF_impulse hm (fun k => b.ext input.width input.height f x ((y : Int) + k - o)), cast32 (by rw [hhi]; exact hv _ _)])
    exact ⟨out, h', e, p⟩

end

/-- With a constant other than zero outside, rows then columns is not the product kernel: the constant is multiplied by the sum of the
row kernel before it reaches the columns only inside the picture. -/
theorem C92_separable_refuted :
    ConvolveImage.convolve 0 (intArith U8 S32) ⟨3, 1, ⟨[1, 1, 1, 1, 1, 1, 1, 1, 1], 9, 0, true⟩⟩ (.value 1)
      ⟨0, 1, 1, 1, 0, 1, false⟩ ⟨1, 1, 1, 1, 0, 1, false⟩ ⟨[some [1], some [0], some [0]]⟩ =
      .ok ⟨1, 1, 1, 1, 0, 1, false⟩ ⟨[some [1], some [9], some [0]]⟩ ∧
    (do let s ← ConvolveImage.horizontal 0 (intArith U8 S32) ⟨3, 1, ⟨[1, 1, 1], 3, 0, true⟩⟩ (.value 1)
          ⟨0, 1, 1, 1, 0, 1, false⟩ ⟨2, 1, 1, 1, 0, 1, false⟩
        ConvolveImage.vertical 0 (intArith S32 S32) ⟨3, 1, ⟨[1, 1, 1], 3, 0, true⟩⟩ (.value 1) s ⟨1, 1, 1, 1, 0, 1, false⟩ : M Int Gray)
      ⟨[some [1], some [0], some [0]]⟩ = .ok ⟨1, 1, 1, 1, 0, 1, false⟩ ⟨[some [1], some [5], some [3]]⟩ := by decide +kernel

/-- The hypotheses hold: an 8-bit picture, a shift by two columns into a wrapping picture. -/
example : ConvolveImage.horizontal 0 (intArith U8 S32) ⟨3, 0, ⟨[0, 0, 1], 3, 0, true⟩⟩ .wrap
      ⟨0, 4, 4, 1, 0, 4, false⟩ ⟨1, 1, 1, 1, 0, 1, false⟩ ⟨[some [10, 20, 30, 40], some [0]]⟩ =
    .ok ⟨2, 4, 4, 1, 0, 4, false⟩ ⟨[some [10, 20, 30, 40], none, some [30, 40, 10, 20]]⟩ ∧
    Kernel.Is1D (⟨3, 0, ⟨[0, 0, 1], 3, 0, true⟩⟩ : Kernel Int) 3 0 (impulse 2) ∧
    (∀ x y, |(Border.wrap : Border Int).ext 4 1 (fun x _ => [10, 20, 30, 40].getD x 0) x y| ≤ 2147483647) := by
  refine ⟨by decide +kernel, ⟨rfl, rfl, rfl, fun i hi => by
    have : i = 0 ∨ i = 1 ∨ i = 2 := by omega
    rcases this with rfl | rfl | rfl <;> rfl⟩, fun x y => ?_⟩
  refine le_trans (ext_bound (b := .wrap) (P := 40) trivial (by decide) (fun x y hx hy => ?_) (by decide) (by decide) x y) (by decide)
  have : x = 0 ∨ x = 1 ∨ x = 2 ∨ x = 3 := by omega
  rcases this with rfl | rfl | rfl | rfl <;> decide

end Boof
