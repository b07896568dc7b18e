import Verif.Cpp.Logic
/-
Integer types: conversion and arithmetic.
-/
namespace Boof
variable {V : Type}

namespace IntTy

theorem pow_split {n : Nat} (h : 0 < n) : (2 ^ n : Nat) = 2 * 2 ^ (n - 1) := by
  have : n = (n - 1) + 1 := by omega
  rw [this, Nat.pow_succ]; simp; omega

theorem cast_of_inRange {t : IntTy} (hb : 0 < t.bits) {v : Int} (hr : t.InRange v) : t.cast v = v := by
  obtain ⟨h1, h2⟩ := hr
  have hp := pow_split hb
  unfold cast lo hi at *
  rcases hs : t.signed with _ | _
  · simp only [hs, Bool.false_eq_true, if_false, false_and] at *
    exact Int.emod_eq_of_lt h1 (by omega)
  · simp only [hs, if_true, true_and] at *
    rw [hp]
    by_cases hneg : v < 0
    · have e : v % ((2 * 2 ^ (t.bits - 1) : Nat) : Int) = v + (2 * 2 ^ (t.bits - 1) : Nat) := by
        rw [← Int.add_emod_right]
        exact Int.emod_eq_of_lt (by omega) (by omega)
      rw [e, if_pos (by omega)]; omega
    · have e : v % ((2 * 2 ^ (t.bits - 1) : Nat) : Int) = v := Int.emod_eq_of_lt (by omega) (by omega)
      rw [e, if_neg (by omega)]

theorem cast_unsigned {t : IntTy} (hs : t.signed = false) (v : Int) : t.cast v = v % ((2 ^ t.bits : Nat) : Int) := by
  unfold cast; simp [hs]

theorem cast_add_unsigned {t : IntTy} (hs : t.signed = false) (a b : Int) : t.cast (t.cast a + b) = t.cast (a + b) := by
  rw [cast_unsigned hs, cast_unsigned hs, cast_unsigned hs]
  exact Int.emod_add_emod _ _ _

theorem arith_run {t : IntTy} (hb : 0 < t.bits) {v : Int} (hr : t.InRange v) (h : Heap V) :
    t.arith v h = .ok v h := by
  unfold arith
  by_cases hs : t.signed = true
  · rw [if_pos hs, if_pos hr]; rfl
  · rw [if_neg hs, cast_of_inRange hb hr]; rfl

theorem arith_ub {t : IntTy} (hs : t.signed = true) {v : Int} (hr : ¬t.InRange v) (h : Heap V) :
    (t.arith v : M V Int) h = .ub := by
  unfold arith; rw [if_pos hs, if_neg hr]; rfl

/-- Accumulating in a type: exact as long as every value is representable, modular for unsigned types. -/
theorem arith_acc {t : IntTy} (hb : 0 < t.bits) {a b : Int}
    (hr : t.signed = true → t.InRange a ∧ t.InRange (a + b)) (h : Heap V) :
    (t.arith (t.cast a + b) : M V Int) h = .ok (t.cast (a + b)) h := by
  rcases hs : t.signed with _ | _
  · unfold arith; rw [if_neg (by simp [hs]), cast_add_unsigned hs]; rfl
  · obtain ⟨h1, h2⟩ := hr hs
    rw [cast_of_inRange hb h1, cast_of_inRange hb h2]
    exact arith_run hb h2 h

theorem inRange_zero {t : IntTy} : t.InRange 0 := by
  have h1 := Nat.two_pow_pos (t.bits - 1)
  have h2 := Nat.two_pow_pos t.bits
  unfold InRange lo hi
  split <;> omega

end IntTy

/-- Division rounding toward zero stays between bounds of the average. -/
theorem tdiv_between {s n lo hi : Int} (hn : 0 < n) (h1 : n * lo ≤ s) (h2 : s ≤ n * hi) :
    lo ≤ s.tdiv n ∧ s.tdiv n ≤ hi := by
  constructor
  · have : (n * lo).tdiv n ≤ s.tdiv n := Int.tdiv_le_tdiv hn h1
    rwa [Int.mul_tdiv_cancel_left _ (by omega)] at this
  · have : s.tdiv n ≤ (n * hi).tdiv n := Int.tdiv_le_tdiv hn h2
    rwa [Int.mul_tdiv_cancel_left _ (by omega)] at this

end Boof
