import Verif.Model.ImageOps
import Verif.Proofs.Image
import Verif.Proofs.Sum
import Verif.Proofs.Arith
namespace Boof
variable {V : Type}

theorem Gray.Valid.rd {h : Heap V} {g : Gray} (hv : g.Valid h) {f : Nat → Nat → V} (hf : g.Shows h f) {x y : Nat}
    (hx : x < g.width) (hy : y < g.height) :
    M.rd g.buf (wrap32 (g.offset + y * g.stride) + x) h = .ok (f x y) h := by
  rw [hv.row_eq hy]; exact M.rd_run (hf x y hx hy)

/-- `index` and `end` of a row. -/
theorem Gray.Valid.row_len {h : Heap V} {g : Gray} (hv : g.Valid h) {y : Nat} (hy : y < g.height) :
    wrap32 (wrap32 (g.offset + y * g.stride) + g.width) - wrap32 (g.offset + y * g.stride) = g.width := by
  rw [hv.row_eq hy, wrap32_of_lt (hv.rowEnd_lt hy)]; omega

/-- Sum of the pixels that precede `(x,y)` in row-major order. -/
def prefixSum (w : Nat) (f : Nat → Nat → Int) (y x : Nat) : Int :=
  sumN y (fun y' => sumN w (fun x' => f x' y')) + sumN x (fun x' => f x' y)

theorem sum_run {t : IntTy} (hb : 0 < t.sumType.bits) {h : Heap Int} {g : Gray} (hv : g.Valid h)
    {f : Nat → Nat → Int} (hf : g.Shows h f)
    (hpre : t.sumType.signed = true → ∀ y x, y < g.height → x ≤ g.width →
      t.sumType.InRange (prefixSum g.width f y x)) :
    ImageStatistics.sum t g h = .ok (t.sumType.cast (pixelSum g.width g.height f)) h := by
  suffices Spec (ImageStatistics.sum t g) h
      (fun s h' => s = t.sumType.cast (pixelSum g.width g.height f) ∧ h' = h) by
    obtain ⟨_, _, e, rfl, rfl⟩ := this; exact e
  unfold ImageStatistics.sum
  have h00 : t.sumType.cast 0 = 0 := IntTy.cast_of_inRange hb IntTy.inRange_zero
  refine Spec.conseq (Spec.loopS (fun y s h' => s = t.sumType.cast (sumN y (fun y' => sumN g.width (fun x' => f x' y')))
      ∧ h' = h) ⟨by simp [sumN, h00], rfl⟩ ?_) (fun _ _ p => p)
  rintro y s h' hy ⟨rfl, rfl⟩
  simp only [hv.row_len hy]
  refine Spec.conseq (Spec.loopS (fun x s h1 => s = t.sumType.cast (prefixSum g.width f y x) ∧ h1 = h') ⟨?_, rfl⟩ ?_) ?_
  · simp [prefixSum, sumN]
  · rintro x s h1 hx ⟨rfl, rfl⟩
    refine Spec.bind_eq (hv.rd hf hx hy) ?_
    refine Spec.of_eq (IntTy.arith_acc hb (fun hs => ⟨hpre hs y x hy (by omega), ?_⟩) _) ⟨?_, rfl⟩
    · have := hpre hs y (x+1) hy (by omega)
      simp only [prefixSum, sumN] at this ⊢
      rw [Int.add_assoc]; exact this
    · simp only [prefixSum, sumN]; rw [Int.add_assoc]
  · rintro _ _ ⟨rfl, rfl⟩
    exact ⟨rfl, rfl⟩

theorem sumType_bits {t : IntTy} (ht : t = U8 ∨ t = U16 ∨ t = S16 ∨ t = S32 ∨ t = S64) : 0 < t.sumType.bits := by
  rcases ht with rfl | rfl | rfl | rfl | rfl <;> decide

theorem prefixSum_le {w ht : Nat} {f : Nat → Nat → Int} {lo hi : Int} (hlo : lo ≤ 0) (hhi : 0 ≤ hi)
    (hr : ∀ x y, x < w → y < ht → lo ≤ f x y ∧ f x y ≤ hi) {y x : Nat} (hy : y < ht) (hx : x ≤ w) :
    (w * ht : Nat) * lo ≤ prefixSum w f y x ∧ prefixSum w f y x ≤ (w * ht : Nat) * hi := by
  have a1 : prefixSum w f y x ≤ ((w * y : Nat) : Int) * hi + (x : Int) * hi :=
    Int.add_le_add (pixelSum_le (w := w) (h := y) (fun a b ha hb => (hr a b ha (by omega)).2))
      (sumN_le (fun a ha => (hr a y (by omega) hy).2))
  have a2 : ((w * y : Nat) : Int) * lo + (x : Int) * lo ≤ prefixSum w f y x :=
    Int.add_le_add (le_pixelSum (w := w) (h := y) (fun a b ha hb => (hr a b ha (by omega)).1))
      (le_sumN (fun a ha => (hr a y (by omega) hy).1))
  have hle : w * y + x ≤ w * ht := by
    have := Nat.mul_le_mul_left w (Nat.succ_le_of_lt hy)
    rw [Nat.mul_succ] at this; omega
  have hle' : ((w * y : Nat) : Int) + (x : Int) ≤ ((w * ht : Nat) : Int) := by omega
  rw [← Int.add_mul] at a1 a2
  have b1 := Int.mul_le_mul_of_nonneg_right hle' hhi
  have b2 := Int.mul_le_mul_of_nonpos_right hle' hlo
  exact ⟨Int.le_trans b2 a2, Int.le_trans a1 b1⟩

theorem divU32_run {st : IntTy} {a : Int} {n : Nat} (hn : 0 < n) (ha : st = S64 ∨ (0 ≤ a ∧ a < P32)) (h : Heap Int) :
    ImageStatistics.divU32 st a n h = .ok (a.tdiv n) h := by
  unfold ImageStatistics.divU32
  rw [if_neg (by omega)]
  by_cases hs : st = S64
  · rw [if_pos hs]; rfl
  · rw [if_neg hs]
    rcases ha with e | ⟨h0, h1⟩
    · exact absurd e hs
    · rw [toU32_of_nonneg h0 h1, Int.tdiv_eq_ediv_of_nonneg h0]
      show Res.ok _ h = _
      rw [Int.natCast_ediv, Int.toNat_of_nonneg h0]

end Boof
