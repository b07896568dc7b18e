import Verif.Model.Rounded
import Verif.Spec.Rounding
import Mathlib.Tactic.Linarith
import Mathlib.Tactic.Positivity
import Mathlib.Tactic.Ring
/-
Rounding to `float`.
-/
namespace Boof
variable {K : Type} [Field K] [LinearOrder K] [IsStrictOrderedRing K] [FloorRing K]

theorem roundEven_near (q : K) : |(roundEven q : K) - q| ≤ 1 / 2 := by
  have h1 := Int.floor_le q
  have h2 := Int.lt_floor_add_one q
  unfold roundEven
  rw [abs_le]
  split
  · constructor <;> linarith
  · split
    · push_cast; constructor <;> linarith
    · split
      · constructor <;> linarith
      · push_cast; constructor <;> linarith

theorem roundEven_int (z : Int) : roundEven (z : K) = z := by
  unfold roundEven
  rw [Int.floor_intCast, if_pos (by rw [sub_self]; norm_num)]

section
variable {p q w : Nat}

theorem ieee_near (hp : 0 < p) (x : K) :
    |(roundEven (x / (2 : K) ^ (max (Int.log 2 |x| - (p - 1 : Nat)) (-(q : Int)))) : K) *
      (2 : K) ^ (max (Int.log 2 |x| - (p - 1 : Nat)) (-(q : Int))) - x| ≤ |x| / 2 ^ p + 1 / 2 ^ (q + 1) := by
  by_cases hx : x = 0
  · subst hx
    have : roundEven (0 : K) = 0 := by simpa using roundEven_int (K := K) 0
    rw [zero_div, this, Int.cast_zero, zero_mul, sub_self, abs_zero]
    positivity
  generalize he : max (Int.log 2 |x| - (p - 1 : Nat)) (-(q : Int)) = e
  have hpos2 : (0 : K) < (2 : K) ^ e := zpow_pos two_pos e
  have h1 := roundEven_near (x / (2 : K) ^ e)
  have h2 : (roundEven (x / (2 : K) ^ e) : K) * (2 : K) ^ e - x = ((roundEven (x / (2 : K) ^ e) : K) - x / (2 : K) ^ e) * (2 : K) ^ e := by
    rw [sub_mul, div_mul_cancel₀ _ (ne_of_gt hpos2)]
  rw [h2, abs_mul, abs_of_pos hpos2]
  have h3 : |(roundEven (x / (2 : K) ^ e) : K) - x / (2 : K) ^ e| * (2 : K) ^ e ≤ 1 / 2 * (2 : K) ^ e :=
    mul_le_mul_of_nonneg_right h1 (le_of_lt hpos2)
  refine le_trans h3 ?_
  rcases le_total (Int.log 2 |x| - (p - 1 : Nat)) (-(q : Int)) with h | h
  · rw [max_eq_right h] at he
    subst he
    have : (1 : K) / 2 * (2 : K) ^ (-(q : Int)) = 1 / 2 ^ (q + 1) := by
      rw [zpow_neg, zpow_natCast, one_div, ← mul_inv, ← pow_succ', one_div]
    rw [this]
    have : 0 ≤ |x| / 2 ^ p := by positivity
    linarith
  · rw [max_eq_left h] at he
    have hη : (0 : K) ≤ 1 / 2 ^ (q + 1) := by positivity
    have hpos : 0 < |x| := abs_pos.mpr hx
    have hl : (2 : K) ^ Int.log 2 |x| ≤ |x| := by
      have := Int.zpow_log_le_self (b := 2) (r := |x|) (by norm_num) hpos
      simpa using this
    have : (1 : K) / 2 * (2 : K) ^ e = (2 : K) ^ Int.log 2 |x| / 2 ^ p := by
      obtain ⟨p', rfl⟩ : ∃ p', p = p' + 1 := ⟨p - 1, by omega⟩
      rw [← he, zpow_sub₀ two_ne_zero, Nat.add_sub_cancel, zpow_natCast, pow_succ]
      field_simp
    rw [this]
    have := div_le_div_of_nonneg_right hl (by positivity : (0 : K) ≤ 2 ^ p)
    linarith

theorem ieee_rounds (hp : 1 < p) (hw : 0 < w) :
    Rounds (ieee p q w : K → Option K) (1 / 2 ^ p) (1 / 2 ^ (q + 1)) (2 ^ (w - 1)) := by
  refine ⟨by positivity, by positivity, fun x hx => ?_⟩
  have h := ieee_near (q := q) (by omega : 0 < p) x
  have hlt : |(roundEven (x / (2 : K) ^ (max (Int.log 2 |x| - (p - 1 : Nat)) (-(q : Int)))) : K) *
      (2 : K) ^ (max (Int.log 2 |x| - (p - 1 : Nat)) (-(q : Int)))| < 2 ^ w := by
    generalize (roundEven (x / (2 : K) ^ (max (Int.log 2 |x| - (p - 1 : Nat)) (-(q : Int)))) : K) *
      (2 : K) ^ (max (Int.log 2 |x| - (p - 1 : Nat)) (-(q : Int))) = y at h ⊢
    have h1 : |y| ≤ |y - x| + |x| := by
      have := abs_add_le (y - x) x
      rwa [sub_add_cancel] at this
    have e4 : (4 : K) ≤ 2 ^ p := by
      have := pow_le_pow_right₀ (by norm_num : (1 : K) ≤ 2) (by omega : 2 ≤ p)
      norm_num at this; exact this
    have e2 : (2 : K) ≤ 2 ^ (q + 1) := by
      have := pow_le_pow_right₀ (by norm_num : (1 : K) ≤ 2) (by omega : 1 ≤ q + 1)
      norm_num at this; exact this
    have e1 : (1 : K) ≤ 2 ^ (w - 1) := one_le_pow₀ (by norm_num)
    have ew : (2 : K) ^ w = 2 * 2 ^ (w - 1) := by
      rw [← pow_succ']; congr 1; omega
    have h2 : |x| / 2 ^ p ≤ 2 ^ (w - 1) / 4 :=
      div_le_div₀ (by positivity) hx (by norm_num) e4
    have h3 : (1 : K) / 2 ^ (q + 1) ≤ 1 / 2 := div_le_div₀ (by norm_num) (le_refl _) (by norm_num) e2
    linarith
  refine ⟨_, if_pos hlt, ?_⟩
  rw [div_mul_eq_mul_div, one_mul]
  exact h

theorem ieee_exact (hp : 0 < p) (hw : p < w) : ExactTo (ieee p q w : K → Option K) (2 ^ p) := by
  intro i hi
  have key : ∃ z : Int, (i : K) / (2 : K) ^ (max (Int.log 2 |(i : K)| - (p - 1 : Nat)) (-(q : Int))) = (z : K) := by
    rw [abs_of_nonneg (Nat.cast_nonneg i), Int.log_natCast]
    rcases Nat.lt_or_ge i (2 ^ p) with h | h
    · have hl : Nat.log 2 i ≤ p - 1 := by
        rcases Nat.eq_zero_or_pos i with h0 | h0
        · subst h0; simp
        · have := Nat.log_lt_of_lt_pow (b := 2) (by omega) h
          omega
      obtain ⟨d, hd⟩ : ∃ d : Nat, max ((Nat.log 2 i : Int) - (p - 1 : Nat)) (-(q : Int)) = -(d : Int) :=
        ⟨(-(max ((Nat.log 2 i : Int) - (p - 1 : Nat)) (-(q : Int)))).toNat, by omega⟩
      rw [hd, zpow_neg, zpow_natCast, div_inv_eq_mul]
      exact ⟨i * 2 ^ d, by push_cast; rfl⟩
    · have : i = 2 ^ p := by omega
      subst this
      rw [Nat.log_pow (by norm_num), show max ((p : Int) - (p - 1 : Nat)) (-(q : Int)) = 1 by omega]
      refine ⟨2 ^ (p - 1), ?_⟩
      obtain ⟨p', rfl⟩ : ∃ p', p = p' + 1 := ⟨p - 1, by omega⟩
      push_cast
      rw [zpow_one, pow_succ, mul_div_cancel_right₀ _ two_ne_zero]
  obtain ⟨z, hz⟩ := key
  have hp : (2 : K) ^ (max (Int.log 2 |(i : K)| - (p - 1 : Nat)) (-(q : Int))) ≠ 0 := zpow_ne_zero _ two_ne_zero
  have e1 : (roundEven ((i : K) / (2 : K) ^ (max (Int.log 2 |(i : K)| - (p - 1 : Nat)) (-(q : Int)))) : K) *
      (2 : K) ^ (max (Int.log 2 |(i : K)| - (p - 1 : Nat)) (-(q : Int))) = i := by
    rw [hz, roundEven_int, ← hz, div_mul_cancel₀ _ hp]
  show (if |_| < _ then some _ else none) = _
  rw [e1, if_pos]
  rw [abs_of_nonneg (Nat.cast_nonneg i)]
  have h1 : (i : K) ≤ ((2 ^ p : Nat) : K) := by exact_mod_cast hi
  have h2 : (2 : K) ^ p < 2 ^ w := pow_lt_pow_right₀ (by norm_num) hw
  push_cast at h1
  linarith

theorem roundEven_nearest (x : K) (z : Int) : |(roundEven x : K) - x| ≤ |(z : K) - x| := by
  have h1 := Int.floor_le x
  have h2 := Int.lt_floor_add_one x
  have hz : z ≤ ⌊x⌋ ∨ ⌊x⌋ + 1 ≤ z := by omega
  have hz' : x - ⌊x⌋ ≤ |(z : K) - x| ∨ ⌊x⌋ + 1 - x ≤ |(z : K) - x| := by
    rcases hz with h | h
    · left
      have : (z : K) ≤ (⌊x⌋ : K) := by exact_mod_cast h
      have h3 := neg_abs_le ((z : K) - x)
      linarith
    · right
      have : (⌊x⌋ : K) + 1 ≤ (z : K) := by exact_mod_cast h
      have h3 := le_abs_self ((z : K) - x)
      linarith
  have hn := roundEven_near x
  have a1 : |(⌊x⌋ : K) - x| = x - ⌊x⌋ := by rw [abs_of_nonpos (by linarith)]; ring
  have a2 : |((⌊x⌋ + 1 : Int) : K) - x| = ⌊x⌋ + 1 - x := by push_cast; rw [abs_of_nonneg (by linarith)]
  unfold roundEven
  split
  · rw [a1]; rcases hz' with h | h <;> linarith
  · split
    · rw [a2]; rcases hz' with h | h <;> linarith
    · split
      · rw [a1]; rcases hz' with h | h <;> linarith
      · rw [a2]; rcases hz' with h | h <;> linarith

theorem ieee_nearest (hp : 0 < p) {x y : K} (h : ieee p q w x = some y) :
    Representable p q y ∧ ∀ z, Representable p q z → |y - x| ≤ |z - x| := by
  unfold ieee at h
  simp only at h
  split at h
  rotate_left
  · cases h
  replace h := Option.some.inj h
  have hx2 : x ≠ 0 → (2 : K) ^ Int.log 2 |x| ≤ |x| ∧ |x| < (2 : K) ^ (Int.log 2 |x| + 1) := fun hx => by
    have h1 := Int.zpow_log_le_self (b := 2) (r := |x|) (by norm_num) (abs_pos.mpr hx)
    have h2 := Int.lt_zpow_succ_log_self (b := 2) (by norm_num) |x|
    exact ⟨by simpa using h1, by simpa using h2⟩
  generalize hl : Int.log 2 |x| = l at h hx2
  generalize he : max (l - (p - 1 : Nat)) (-(q : Int)) = e at h
  generalize hm : roundEven (x / (2 : K) ^ e) = m at h
  have hpos : (0 : K) < (2 : K) ^ e := zpow_pos two_pos e
  -- all multiples of the unit in the last place are at least as far away
  have near : ∀ k : Int, |y - x| ≤ |(k : K) * (2 : K) ^ e - x| := fun k => by
    have h1 := mul_le_mul_of_nonneg_right (roundEven_nearest (x / (2 : K) ^ e) k) (le_of_lt hpos)
    have h2 : ∀ a : K, |a - x / (2 : K) ^ e| * (2 : K) ^ e = |a * (2 : K) ^ e - x| := fun a => by
      conv_lhs => rw [← abs_of_pos hpos]
      rw [← abs_mul, sub_mul, abs_of_pos hpos, div_mul_cancel₀ _ (ne_of_gt hpos)]
    rw [h2, h2, hm, h] at h1
    exact h1
  have hmle : |m| ≤ 2 ^ p := by
    by_cases hx : x = 0
    · subst hx
      have : roundEven (0 : K) = 0 := by simpa using roundEven_int (K := K) 0
      rw [zero_div, this] at hm
      subst hm
      simp
    · obtain ⟨-, h2⟩ := hx2 hx
      have h3 : |x / (2 : K) ^ e| ≤ 2 ^ p := by
        rw [abs_div, abs_of_pos hpos, div_le_iff₀ hpos]
        refine le_trans (le_of_lt h2) ?_
        rw [← zpow_natCast, ← zpow_add₀ two_ne_zero]
        exact zpow_le_zpow_right₀ (by norm_num) (by omega)
      have h3' := abs_le.mp h3
      have n1 := roundEven_nearest (x / (2 : K) ^ e) (2 ^ p)
      have n2 := roundEven_nearest (x / (2 : K) ^ e) (-2 ^ p)
      rw [hm] at n1 n2
      push_cast at n1 n2
      rw [abs_of_nonneg (by linarith : (0 : K) ≤ 2 ^ p - x / (2 : K) ^ e)] at n1
      rw [abs_of_nonpos (by linarith : -(2 : K) ^ p - x / (2 : K) ^ e ≤ 0)] at n2
      have b1 := le_trans (le_abs_self _) n1
      have b2 := le_trans (neg_le_abs _) n2
      have c1 : (m : K) ≤ ((2 ^ p : Int) : K) := by push_cast; linarith
      have c2 : ((-2 ^ p : Int) : K) ≤ (m : K) := by push_cast; linarith
      rw [abs_le]
      exact ⟨by exact_mod_cast c2, by exact_mod_cast c1⟩
  refine ⟨?_, ?_⟩
  · rcases lt_or_eq_of_le hmle with hlt | heq
    · exact ⟨m, e, hlt, by omega, h.symm⟩
    · obtain ⟨p', rfl⟩ : ∃ p', p = p' + 1 := ⟨p - 1, by omega⟩
      have hpp : (0 : Int) < 2 ^ p' := by positivity
      rcases abs_choice m with hc | hc
      · refine ⟨2 ^ p', e + 1, ?_, by omega, ?_⟩
        · rw [abs_of_pos hpp, pow_succ]; omega
        · have : m = 2 ^ p' * 2 := by rw [← pow_succ]; omega
          rw [← h, this, zpow_add₀ two_ne_zero, zpow_one]; push_cast; ring
      · refine ⟨-2 ^ p', e + 1, ?_, by omega, ?_⟩
        · rw [abs_neg, abs_of_pos hpp, pow_succ]; omega
        · have : m = -(2 ^ p' * 2) := by rw [← pow_succ]; omega
          rw [← h, this, zpow_add₀ two_ne_zero, zpow_one]; push_cast; ring
  · rintro z ⟨k, f, hk, hf, rfl⟩
    rcases le_total e f with hef | hef
    · obtain ⟨d, hd⟩ : ∃ d : Nat, f = e + d := ⟨(f - e).toNat, by omega⟩
      have := near (k * 2 ^ d)
      rw [hd, zpow_add₀ two_ne_zero, zpow_natCast]
      push_cast at this
      rwa [show (k : K) * ((2 : K) ^ e * 2 ^ d) = (k : K) * 2 ^ d * (2 : K) ^ e by ring]
    · by_cases hfe : f = e
      · subst hfe; exact near k
      have hele : e = l - (p - 1 : Nat) := by omega
      by_cases hx : x = 0
      · subst hx
        have := near 0
        rw [Int.cast_zero, zero_mul, sub_self, abs_zero] at this
        exact le_trans this (abs_nonneg _)
      obtain ⟨h1, -⟩ := hx2 hx
      have hzl : |(k : K) * (2 : K) ^ f| ≤ (2 : K) ^ l := by
        have hk' : |(k : K)| ≤ (2 : K) ^ p := by
          have : ((|k| : Int) : K) ≤ ((2 ^ p : Int) : K) := by exact_mod_cast le_of_lt hk
          push_cast at this; exact this
        have hf0 : (0 : K) < (2 : K) ^ f := zpow_pos two_pos f
        rw [abs_mul, abs_of_pos hf0]
        refine le_trans (mul_le_mul_of_nonneg_right hk' (le_of_lt (zpow_pos two_pos f))) ?_
        rw [← zpow_natCast, ← zpow_add₀ two_ne_zero]
        exact zpow_le_zpow_right₀ (by norm_num) (by omega)
      have hpow : ((2 ^ (p - 1) : Int) : K) * (2 : K) ^ e = (2 : K) ^ l := by
        push_cast
        rw [← zpow_natCast, ← zpow_add₀ two_ne_zero]; congr 1; omega
      rcases le_total 0 x with h0 | h0
      · rw [abs_of_nonneg h0] at h1
        have n1 := near (2 ^ (p - 1))
        rw [hpow, abs_of_nonpos (by linarith : (2 : K) ^ l - x ≤ 0)] at n1
        have := (abs_le.mp hzl).2
        have h3 := neg_abs_le ((k : K) * (2 : K) ^ f - x)
        linarith
      · rw [abs_of_nonpos h0] at h1
        have n1 := near (-2 ^ (p - 1))
        rw [Int.cast_neg, neg_mul, hpow, abs_of_nonneg (by linarith : 0 ≤ -(2 : K) ^ l - x)] at n1
        have := (abs_le.mp hzl).1
        have h3 := le_abs_self ((k : K) * (2 : K) ^ f - x)
        linarith

end

theorem float32_rounds : Rounds (float32 : K → Option K) (1 / 2 ^ 24) (1 / 2 ^ 150) (2 ^ 127) :=
  ieee_rounds (by omega) (by omega)

theorem float32_exact : ExactTo (float32 : K → Option K) (2 ^ 24) := ieee_exact (by omega) (by omega)

theorem float64_rounds : Rounds (float64 : K → Option K) (1 / 2 ^ 53) (1 / 2 ^ 1075) (2 ^ 1023) :=
  ieee_rounds (by omega) (by omega)

theorem float64_exact : ExactTo (float64 : K → Option K) (2 ^ 53) := ieee_exact (by omega) (by omega)

end Boof
