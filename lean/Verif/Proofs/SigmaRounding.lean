import Verif.Model.RoundedGauss
import Verif.Proofs.Ieee
import Mathlib.Tactic.FieldSimp
/-
Division and multiplication by five with rounding.
-/
namespace Boof
variable {K : Type} [Field K] [LinearOrder K] [IsStrictOrderedRing K] [FloorRing K]

theorem roundEven_even {q : K} {n : Int} (h : |q - n| ≤ 1 / 2) (hn : n % 2 = 0) : roundEven q = n := by
  have h1 := Int.floor_le q
  have h2 := Int.lt_floor_add_one q
  rw [abs_le] at h
  have a : n ≤ ⌊q⌋ + 1 := by
    have : (n : K) < ((⌊q⌋ + 2 : Int) : K) := by push_cast; linarith
    have : n < ⌊q⌋ + 2 := by exact_mod_cast this
    omega
  have b : ⌊q⌋ ≤ n := by
    have : (⌊q⌋ : K) < ((n + 1 : Int) : K) := by push_cast; linarith
    have : ⌊q⌋ < n + 1 := by exact_mod_cast this
    omega
  rcases (by omega : n = ⌊q⌋ ∨ n = ⌊q⌋ + 1) with c | c
  · have hc : (n : K) = (⌊q⌋ : K) := by exact_mod_cast c
    unfold roundEven
    split
    · exact c.symm
    · rw [if_neg (by linarith), if_pos (by omega)]; exact c.symm
  · have hc : (n : K) = (⌊q⌋ : K) + 1 := by rw [c]; push_cast; rfl
    unfold roundEven
    rw [if_neg (by linarith)]
    split
    · exact c.symm
    · rw [if_neg (by omega)]; exact c.symm

theorem log2_bounds {x : K} (hx : 0 < x) : (2 : K) ^ Int.log 2 |x| ≤ x ∧ x < (2 : K) ^ (Int.log 2 |x| + 1) := by
  rw [abs_of_pos hx]
  have h1 := Int.zpow_log_le_self (b := 2) (r := x) (by norm_num) hx
  have h2 := Int.lt_zpow_succ_log_self (b := 2) (by norm_num) x
  exact ⟨by simpa using h1, by simpa using h2⟩

theorem le_log2 {x : K} (hx : 0 < x) {l : Int} (h : (2 : K) ^ l ≤ x) : l ≤ Int.log 2 |x| := by
  by_contra hc
  have := zpow_le_zpow_right₀ (by norm_num : (1 : K) ≤ 2) (by omega : Int.log 2 |x| + 1 ≤ l)
  have := (log2_bounds hx).2
  linarith

theorem log2_lt {x : K} (hx : 0 < x) {l : Int} (h : x < (2 : K) ^ l) : Int.log 2 |x| < l := by
  by_contra hc
  have := zpow_le_zpow_right₀ (by norm_num : (1 : K) ≤ 2) (by omega : l ≤ Int.log 2 |x|)
  have := (log2_bounds hx).1
  linarith

/-- The rounded fifth of a natural number, times five and rounded, is that number. -/
theorem ieee_fifth {p q w m : Nat} (hp : 4 ≤ p) (hq : p + 2 ≤ q) (hw : p < w) (hm : 0 < m) (hm2 : m ≤ 2 ^ (p - 2)) :
    ∃ s : K, ieee p q w ((m : K) / 5) = some s ∧ 0 < s ∧ ieee p q w (5 * s) = some (m : K) := by
  have hmK : (1 : K) ≤ (m : K) := by exact_mod_cast hm
  have hm2K : (m : K) ≤ 2 ^ (p - 2) := by exact_mod_cast hm2
  have hpw : (2 : K) ^ (p - 1) ≤ 2 ^ (w - 1) := pow_le_pow_right₀ (by norm_num) (by omega)
  have hp1 : (2 : K) ^ (p - 1) = 2 * 2 ^ (p - 2) := by rw [← pow_succ']; congr 1; omega
  have hx0 : (0 : K) < (m : K) / 5 := by positivity
  obtain ⟨s, es, -⟩ := (ieee_rounds (K := K) (p := p) (q := q) (w := w) (by omega) (by omega)).near ((m : K) / 5) (by
    rw [abs_of_pos hx0]; have : (0 : K) < m := by linarith
    linarith)
  have hs : s = (roundEven ((m : K) / 5 / (2 : K) ^ (max (Int.log 2 |(m : K) / 5| - (p - 1 : Nat)) (-(q : Int)))) : K) *
      (2 : K) ^ (max (Int.log 2 |(m : K) / 5| - (p - 1 : Nat)) (-(q : Int))) := by
    have h := es
    unfold ieee at h
    simp only at h
    split at h
    · exact (Option.some.inj h).symm
    · cases h
  obtain ⟨l1, l2⟩ := log2_bounds hx0
  have hL : -3 ≤ Int.log 2 |(m : K) / 5| := le_log2 hx0 (by norm_num; linarith)
  rw [max_eq_left (by omega)] at hs
  generalize Int.log 2 |(m : K) / 5| = L at *
  generalize he : L - (p - 1 : Nat) = e at *
  have hpos : (0 : K) < (2 : K) ^ e := zpow_pos two_pos e
  have hLe : (2 : K) ^ L = 2 ^ (p - 1) * (2 : K) ^ e := by
    rw [← zpow_natCast, ← zpow_add₀ two_ne_zero]; congr 1; omega
  have hk := roundEven_near ((m : K) / 5 / (2 : K) ^ e)
  have hke := roundEven_nearest ((m : K) / 5 / (2 : K) ^ e) (2 ^ (p - 1))
  generalize roundEven ((m : K) / 5 / (2 : K) ^ e) = k at *
  have hxe : (2 : K) ^ (p - 1) ≤ (m : K) / 5 / (2 : K) ^ e := by rw [le_div_iff₀ hpos, ← hLe]; exact l1
  have hk1 : (2 : K) ^ (p - 1) ≤ (k : K) := by
    have h1 := (abs_le.mp hk).1
    have h2 : ((2 ^ (p - 1) - 1 : Int) : K) < (k : K) := by push_cast; linarith
    have h3 : (2 ^ (p - 1) - 1 : Int) < k := by exact_mod_cast h2
    have h4 : (2 ^ (p - 1) : Int) ≤ k := by omega
    exact_mod_cast h4
  have hs0 : 0 < s := by
    rw [hs]; exact mul_pos (lt_of_lt_of_le (by positivity) hk1) hpos
  have h5s : (0 : K) < 5 * s := by linarith
  -- the error of the fifth is at most half a unit in the last place
  have herr : |5 * s - m| ≤ 5 / 2 * (2 : K) ^ e := by
    have : 5 * s - m = 5 * (((k : K) - (m : K) / 5 / (2 : K) ^ e) * (2 : K) ^ e) := by
      rw [hs, sub_mul, div_mul_cancel₀ _ (ne_of_gt hpos)]; ring
    rw [this, abs_mul, abs_mul, abs_of_pos hpos, abs_of_pos (by norm_num : (0 : K) < 5)]
    have := mul_le_mul_of_nonneg_right hk (le_of_lt hpos)
    linarith
  have hsmall : (2 : K) ^ e ≤ (m : K) / 40 := by
    have h8 : (8 : K) ≤ 2 ^ (p - 1) := by
      have := pow_le_pow_right₀ (by norm_num : (1 : K) ≤ 2) (by omega : 3 ≤ p - 1)
      norm_num at this; exact this
    have := mul_le_mul_of_nonneg_right h8 (le_of_lt hpos)
    rw [← hLe] at this
    linarith
  have hL1 : L + 2 ≤ Int.log 2 |5 * s| := le_log2 h5s (by
    rw [zpow_add₀ two_ne_zero, hLe, hs]
    have := mul_le_mul_of_nonneg_right hk1 (le_of_lt hpos)
    have h3 : (0 : K) < 2 ^ (p - 1) * (2 : K) ^ e := by positivity
    norm_num
    linarith)
  have hL2 : Int.log 2 |5 * s| < (p - 1 : Nat) := log2_lt h5s (by
    rw [zpow_natCast, hp1]
    have := (abs_le.mp herr).2
    linarith)
  -- an integer multiple of the unit
  obtain ⟨d, hd⟩ : ∃ d : Nat, e = -(d : Int) := ⟨(-e).toNat, by omega⟩
  have hint : |5 * k - (m : Int) * 2 ^ d| ≤ 2 := by
    have h1 : (5 * s - m) = ((5 * k - (m : Int) * 2 ^ d : Int) : K) * (2 : K) ^ e := by
      rw [hs, hd, zpow_neg, zpow_natCast]; push_cast; field_simp
    rw [h1, abs_mul, abs_of_pos hpos] at herr
    have h2 := le_of_mul_le_mul_right herr hpos
    have h3 : ((|5 * k - (m : Int) * 2 ^ d| : Int) : K) < ((3 : Int) : K) := by push_cast; push_cast at h2; linarith
    have h4 : |5 * k - (m : Int) * 2 ^ d| < 3 := by exact_mod_cast h3
    omega
  have herr2 : |5 * s - m| ≤ 2 * (2 : K) ^ e := by
    have h1 : (5 * s - m) = ((5 * k - (m : Int) * 2 ^ d : Int) : K) * (2 : K) ^ e := by
      rw [hs, hd, zpow_neg, zpow_natCast]; push_cast; field_simp
    rw [h1, abs_mul, abs_of_pos hpos]
    refine mul_le_mul_of_nonneg_right ?_ (le_of_lt hpos)
    have : ((|5 * k - (m : Int) * 2 ^ d| : Int) : K) ≤ ((2 : Int) : K) := by exact_mod_cast hint
    push_cast at this ⊢; exact this
  refine ⟨s, es, hs0, ?_⟩
  unfold ieee
  simp only
  rw [max_eq_left (by omega)]
  generalize Int.log 2 |5 * s| = L' at *
  obtain ⟨d', hd', hd1⟩ : ∃ d' : Nat, L' - (p - 1 : Nat) = -((d' + 1 : Nat) : Int) ∧ e + 2 ≤ -((d' + 1 : Nat) : Int) :=
    ⟨((p - 1 : Nat) - L' - 1).toNat, by omega, by omega⟩
  rw [hd']
  have hpos' : (0 : K) < (2 : K) ^ (-((d' + 1 : Nat) : Int)) := zpow_pos two_pos _
  have h4 : 4 * (2 : K) ^ e ≤ (2 : K) ^ (-((d' + 1 : Nat) : Int)) := by
    have := zpow_le_zpow_right₀ (by norm_num : (1 : K) ≤ 2) hd1
    rw [zpow_add₀ two_ne_zero] at this
    norm_num at this ⊢
    linarith
  have hmul : ((m * 2 ^ (d' + 1) : Int) : K) * (2 : K) ^ (-((d' + 1 : Nat) : Int)) = m := by
    rw [zpow_neg, zpow_natCast]; push_cast; field_simp
  have hr : roundEven (5 * s / (2 : K) ^ (-((d' + 1 : Nat) : Int))) = (m * 2 ^ (d' + 1) : Int) := by
    refine roundEven_even ?_ (by rw [pow_succ, ← mul_assoc]; omega)
    have h1 : 5 * s / (2 : K) ^ (-((d' + 1 : Nat) : Int)) - ((m * 2 ^ (d' + 1) : Int) : K) =
        (5 * s - m) / (2 : K) ^ (-((d' + 1 : Nat) : Int)) := by
      rw [sub_div, sub_right_inj, eq_div_iff (ne_of_gt hpos'), hmul]
    rw [h1, abs_div, abs_of_pos hpos', div_le_iff₀ hpos']
    linarith
  rw [hr, hmul, if_pos]
  rw [abs_of_pos (by linarith)]
  have : (2 : K) ^ (w - 1) < 2 ^ w := pow_lt_pow_right₀ (by norm_num) (by omega)
  linarith

end Boof
