import Mathlib.Tactic.Linarith
import Mathlib.Tactic.Ring
import Mathlib.Data.Rat.Floor
import Verif.Model.Config
import Verif.Proofs.Arith
/-
C56, C57: lengths and points.
-/
namespace Boof
variable {K : Type} [Field K] [LinearOrder K] [IsStrictOrderedRing K] [FloorRing K] {V : Type}

/-! ## C56 ConfigLength -/

/-- A fixed length is that length, whatever the total. -/
theorem C56_fixed (pixels total : K) : (ConfigLength.fixed pixels).compute total = pixels := by
  unfold ConfigLength.compute ConfigLength.fixed
  rw [if_neg (by simp)]

/-- A relative length (`fraction >= 0`) is the larger of `fraction*total` and the minimum. -/
theorem C56_relative {fraction : K} (hf : 0 ≤ fraction) (minimum : Int) (total : K) :
    let s := (ConfigLength.relative fraction minimum).compute total
    (minimum : K) ≤ s ∧ fraction * total ≤ s ∧ (s = minimum ∨ s = fraction * total) := by
  unfold ConfigLength.compute ConfigLength.relative
  simp only [ge_iff_le, hf, if_true]
  refine ⟨le_max_right _ _, le_max_left _ _, ?_⟩
  rcases max_choice (fraction * total) (minimum : K) with e | e
  · exact Or.inr e
  · exact Or.inl e

/-- `checkValidity` throws exactly when neither a length nor a fraction is set (both negative). -/
theorem C56_checkValidity (c : ConfigLength K) (h : Heap V) :
    (c.length < 0 ∧ c.fraction < 0 → c.checkValidity h = .throw h) ∧
    (0 ≤ c.length ∨ 0 ≤ c.fraction → c.checkValidity h = .ok () h) := by
  unfold ConfigLength.checkValidity
  constructor
  · intro hc; rw [if_pos hc]; rfl
  · intro hc; rw [if_neg]
    · rfl
    · rintro ⟨a, b⟩
      rcases hc with hc | hc
      · exact absurd hc (not_le.mpr a)
      · exact absurd hc (not_le.mpr b)

theorem truncK_nonneg {v : K} (hv : 0 ≤ v) : truncK v = ⌊v⌋ := by unfold truncK; rw [if_pos hv]

/-- `computeI` rounds to nearest: for a configuration that passes `checkValidity` and a total `>= 0`, if the result fits
in an `int` it is the non-negative integer `n` with `n - 1/2 <= size < n + 1/2`. -/
theorem C56_computeI {c : ConfigLength K} (hc : 0 ≤ c.length ∨ 0 ≤ c.fraction) {total : K} (ht : 0 ≤ total)
    (hb : c.compute total ≤ 2147483647) (h : Heap V) :
    ∃ n : Int, c.computeI total h = .ok n h ∧ 0 ≤ n ∧ (n : K) - 1/2 ≤ c.compute total ∧ c.compute total < n + 1/2 := by
  have hs : 0 ≤ c.compute total := by
    unfold ConfigLength.compute
    split
    · rename_i hf
      exact le_trans (mul_nonneg hf ht) (le_max_left _ _)
    · rename_i hf
      exact hc.resolve_right hf
  have h2 : (0 : K) ≤ c.compute total + 1/2 := by linarith
  have hr : S32.InRange ⌊c.compute total + 1/2⌋ := by
    constructor
    · exact le_trans (by decide : S32.lo ≤ 0) (Int.floor_nonneg.mpr h2)
    · have : ⌊c.compute total + 1/2⌋ < 2147483648 := by
        rw [Int.floor_lt]; push_cast; linarith
      exact Int.le_of_lt_add_one this
  refine ⟨⌊c.compute total + 1/2⌋, ?_, Int.floor_nonneg.mpr h2, ?_, ?_⟩
  · unfold ConfigLength.computeI M.toInt
    simp only [ge_iff_le, hs, if_true, truncK_nonneg h2, hr]
    rfl
  · have := Int.floor_le (c.compute total + 1/2); linarith
  · have := Int.lt_floor_add_one (c.compute total + 1/2); linarith

/-- Without any length the result is -1. -/
theorem C56_computeI_unset {c : ConfigLength K} (h1 : c.length < 0) (h2 : c.fraction < 0) (total : K) (h : Heap V) :
    c.computeI total h = .ok (-1) h := by
  have : c.compute total = c.length := by
    unfold ConfigLength.compute; rw [if_neg (not_le.mpr h2)]
  unfold ConfigLength.computeI
  simp only [this, ge_iff_le, not_le.mpr h1, if_false]
  rfl

/-- `ConfigLength()` is such an unset length, and is refused by `checkValidity`. -/
theorem C56_empty (total : K) (h : Heap V) : (ConfigLength.empty : ConfigLength K).compute total = -1 ∧
    (ConfigLength.empty : ConfigLength K).computeI total h = .ok (-1) h ∧
    (ConfigLength.empty : ConfigLength K).isFixed = true ∧ (ConfigLength.empty : ConfigLength K).checkValidity h = .throw h := by
  refine ⟨?_, C56_computeI_unset (by unfold ConfigLength.empty; norm_num) (by unfold ConfigLength.empty; norm_num) total h, ?_, ?_⟩
  · unfold ConfigLength.compute ConfigLength.empty
    rw [if_neg (by norm_num)]
  · unfold ConfigLength.isFixed ConfigLength.empty
    norm_num
  · unfold ConfigLength.checkValidity ConfigLength.empty
    rw [if_pos (by norm_num)]; rfl

theorem C56_mode (c : ConfigLength K) : c.isRelative = !c.isFixed := by
  unfold ConfigLength.isRelative ConfigLength.isFixed
  by_cases e : 0 ≤ c.fraction
  · simp [e, not_lt.mpr e]
  · simp [e, not_le.mp e]

/-- Accessors round the fixed length to the nearest integer. -/
theorem C56_getLengthI {c : ConfigLength K} (h0 : 0 ≤ c.length) (hb : c.length ≤ 2147483647) (h : Heap V) :
    ∃ n : Int, c.getLengthI h = .ok n h ∧ 0 ≤ n ∧ (n : K) - 1/2 ≤ c.length ∧ c.length < n + 1/2 := by
  have := C56_computeI (c := ConfigLength.fixed c.length) (Or.inl h0) (le_refl (0 : K)) (by rw [C56_fixed]; exact hb) h
  rw [C56_fixed] at this
  obtain ⟨n, e, r⟩ := this
  refine ⟨n, ?_, r⟩
  rw [← e]
  unfold ConfigLength.getLengthI ConfigLength.computeI
  rw [C56_fixed]; simp only [ge_iff_le, h0, if_true]

example : (ConfigLength.relative (1/3 : ℚ) 5).computeI 100 (⟨[]⟩ : Heap Int) = .ok 33 ⟨[]⟩ ∧
    (ConfigLength.relative (1/3 : ℚ) 5).computeI 10 (⟨[]⟩ : Heap Int) = .ok 5 ⟨[]⟩ := by decide +kernel

/-! ## C57 Point2D -/

/-- For every integer element type: if the exact squared distance (and each coordinate difference) is representable in
the signed type, `distanceSq` returns it. -/
theorem C57_distanceSq {t : IntTy} (ht : t = U8 ∨ t = U16 ∨ t = S16 ∨ t = S32 ∨ t = S64) (p : Point2D) (x y : Int)
    (hx : t.signedType.InRange (x - p.x)) (hy : t.signedType.InRange (y - p.y))
    (hd : (x - p.x)^2 + (y - p.y)^2 ≤ t.signedType.hi) (h : Heap V) :
    p.distanceSq t x y h = .ok ((x - p.x)^2 + (y - p.y)^2) h := by
  have hx0 := sq_nonneg (x - p.x)
  have hy0 := sq_nonneg (y - p.y)
  have hlo : t.signedType.lo ≤ 0 := by rcases ht with rfl | rfl | rfl | rfl | rfl <;> decide
  have hp : t.promote = t.signedType := by rcases ht with rfl | rfl | rfl | rfl | rfl <;> decide
  have hpp : t.signedType.promote = t.signedType := by rcases ht with rfl | rfl | rfl | rfl | rfl <;> decide
  have hb : 0 < t.signedType.bits := by rcases ht with rfl | rfl | rfl | rfl | rfl <;> decide
  have hsum : t.sumType.InRange ((x - p.x)^2 + (y - p.y)^2) := by
    have h1 : t.signedType.hi ≤ t.sumType.hi := by rcases ht with rfl | rfl | rfl | rfl | rfl <;> decide
    have h2 : t.sumType.lo ≤ 0 := by rcases ht with rfl | rfl | rfl | rfl | rfl <;> decide
    exact ⟨by omega, by omega⟩
  have hsb : 0 < t.sumType.bits := by rcases ht with rfl | rfl | rfl | rfl | rfl <;> decide
  unfold Point2D.distanceSq
  rw [hp, hpp]
  refine (M.bind_ok (IntTy.arith_run hb hx h)).trans ?_
  refine (M.bind_ok (IntTy.arith_run hb hy h)).trans ?_
  simp only [IntTy.cast_of_inRange hb hx, IntTy.cast_of_inRange hb hy]
  refine (M.bind_ok (IntTy.arith_run (v := (x - p.x) * (x - p.x)) hb ⟨by nlinarith, by nlinarith⟩ h)).trans ?_
  refine (M.bind_ok (IntTy.arith_run (v := (y - p.y) * (y - p.y)) hb ⟨by nlinarith, by nlinarith⟩ h)).trans ?_
  refine (M.bind_ok (IntTy.arith_run (v := (x - p.x) * (x - p.x) + (y - p.y) * (y - p.y)) hb
    ⟨by nlinarith, by nlinarith⟩ h)).trans ?_
  rw [show (x - p.x) * (x - p.x) + (y - p.y) * (y - p.y) = (x - p.x)^2 + (y - p.y)^2 by ring]
  rw [IntTy.cast_of_inRange hsb hsum]
  rfl

/-- 8-bit coordinates never overflow; 16-bit ones are safe up to a difference of 32767 per axis. -/
theorem C57_no_overflow {t : IntTy} (ht : t = U8 ∨ t = U16 ∨ t = S16) (p : Point2D) (x y : Int)
    (hr : t.InRange x ∧ t.InRange y ∧ t.InRange p.x ∧ t.InRange p.y)
    (hd : t = U8 ∨ (-32767 ≤ x - p.x ∧ x - p.x ≤ 32767 ∧ -32767 ≤ y - p.y ∧ y - p.y ≤ 32767)) (h : Heap V) :
    p.distanceSq t x y h = .ok ((x - p.x)^2 + (y - p.y)^2) h := by
  have hb : -32767 ≤ x - p.x ∧ x - p.x ≤ 32767 ∧ -32767 ≤ y - p.y ∧ y - p.y ≤ 32767 := by
    rcases hd with rfl | hd
    · obtain ⟨⟨a1, a2⟩, ⟨b1, b2⟩, ⟨c1, c2⟩, ⟨d1, d2⟩⟩ := hr
      have hl : U8.lo = 0 := rfl
      have hh : U8.hi = 255 := rfl
      omega
    · exact hd
  have hst : t.signedType = S32 := by rcases ht with rfl | rfl | rfl <;> decide
  have e1 : (x - p.x)^2 ≤ 32767^2 := sq_le_sq' (by omega) (by omega)
  have e2 : (y - p.y)^2 ≤ 32767^2 := sq_le_sq' (by omega) (by omega)
  refine C57_distanceSq (by tauto) p x y ?_ ?_ ?_ h
  · rw [hst]; exact ⟨le_trans (by decide : S32.lo ≤ -32767) hb.1, le_trans hb.2.1 (by decide : (32767 : Int) ≤ S32.hi)⟩
  · rw [hst]; exact ⟨le_trans (by decide : S32.lo ≤ -32767) hb.2.2.1, le_trans hb.2.2.2 (by decide : (32767 : Int) ≤ S32.hi)⟩
  · rw [hst]; show _ ≤ (2147483647 : Int); linarith

/-- The distance is symmetric and zero exactly for equal points. -/
theorem C57_metric {t : IntTy} (ht : t = U8 ∨ t = U16 ∨ t = S16 ∨ t = S32 ∨ t = S64) (p q : Point2D)
    (hx : t.signedType.InRange (q.x - p.x)) (hy : t.signedType.InRange (q.y - p.y))
    (hx' : t.signedType.InRange (p.x - q.x)) (hy' : t.signedType.InRange (p.y - q.y))
    (hd : (q.x - p.x)^2 + (q.y - p.y)^2 ≤ t.signedType.hi) (h : Heap V) :
    p.distanceSqP t q h = q.distanceSqP t p h ∧ (p.distanceSqP t q h = .ok 0 h ↔ p = q) := by
  have e1 := C57_distanceSq ht p q.x q.y hx hy hd h
  have e2 := C57_distanceSq ht q p.x p.y hx' hy' (by
    have : (p.x - q.x)^2 + (p.y - q.y)^2 = (q.x - p.x)^2 + (q.y - p.y)^2 := by ring
    rw [this]; exact hd) h
  unfold Point2D.distanceSqP
  rw [e1, e2]
  constructor
  · congr 1; ring
  · constructor
    · intro e
      have e' : (q.x - p.x)^2 + (q.y - p.y)^2 = 0 := by injection e
      have h1 : (q.x - p.x)^2 = 0 := by nlinarith [sq_nonneg (q.x - p.x), sq_nonneg (q.y - p.y)]
      have h2 : (q.y - p.y)^2 = 0 := by nlinarith [sq_nonneg (q.x - p.x), sq_nonneg (q.y - p.y)]
      have h1' := pow_eq_zero_iff (two_ne_zero) |>.mp h1
      have h2' := pow_eq_zero_iff (two_ne_zero) |>.mp h2
      cases p; cases q; simp only [Point2D.mk.injEq] at *; constructor <;> omega
    · rintro rfl; simp

/-- Unsigned 16-bit points can be so far apart that the square overflows `int`. -/
theorem C57_u16_overflow : Point2D.distanceSq U16 ⟨0, 0⟩ 65535 0 (⟨[]⟩ : Heap Int) = .ub := rfl

example : Point2D.distanceSq U8 ⟨255, 3⟩ 0 7 (⟨[]⟩ : Heap Int) = .ok 65041 ⟨[]⟩ := rfl

end Boof
