import Mathlib.Tactic.Linarith
import Mathlib.Tactic.Ring
import Mathlib.Tactic.FieldSimp
import Mathlib.Tactic.Positivity
import Verif.Model.Otsu
import Verif.Spec.Otsu
import Verif.Proofs.Sum
import Verif.Proofs.Arith
import Verif.Cpp.Logic
namespace Boof
open OtsuSpec
variable {K : Type} [Field K] [LinearOrder K] [IsStrictOrderedRing K] [FloorRing K] {V : Type}

/-- The first `size` entries of the array are `hist`. -/
def GrowArray.Is (a : GrowArray Int) (hist : Nat → Int) : Prop := ∀ k, k < a.size → a.data[k]? = some (hist k)

theorem GrowArray.Is.get {a : GrowArray Int} {hist : Nat → Int} (ha : a.Is hist) {i : Nat} (hi : i < a.size) (h : Heap V) :
    (a.get i : M V Int) h = .ok (hist i) h := by
  unfold GrowArray.get; rw [ha i hi]; rfl

theorem sumN_split (f : Nat → Int) {m n : Nat} (hmn : m ≤ n) : sumN n f = sumN m f + sumN (n - m) (fun k => f (m + k)) := by
  obtain ⟨d, rfl⟩ := Nat.exists_eq_add_of_le hmn
  rw [Nat.add_sub_cancel_left]
  induction d with
  | zero => simp [sumN]
  | succ d ih =>
    rw [Nat.add_succ]
    simp only [sumN]
    rw [ih (by omega)]; ring

theorem above_eq (n : Nat) (hist : Nat → Int) {i : Nat} (hi : i < n) : above n hist i = sumN n hist - sumN (i+1) hist := by
  rw [sumN_split hist (show i + 1 ≤ n by omega)]; unfold above; ring

theorem total_run {a : GrowArray Int} {hist : Nat → Int} (ha : a.Is hist) (h : Heap V) :
    (ComputeOtsu.total a : M V K) h = .ok ((sumN a.size (fun k => k * hist k) : Int) / (a.size : K)) h := by
  unfold ComputeOtsu.total
  have : Spec (M.loopS a.size (0 : K) (fun i sum => do
      let c ← a.get i
      pure (sum + ((i : K) / (a.size : K)) * (c : K)))) h
      (fun s h' => h' = h ∧ s = (sumN a.size (fun k => k * hist k) : Int) / (a.size : K)) := by
    refine Spec.loopS (fun i s h' => h' = h ∧ s = (sumN i (fun k => k * hist k) : Int) / (a.size : K)) ?_ ?_
    · exact ⟨rfl, by simp [sumN]⟩
    · rintro i s h' hi ⟨rfl, rfl⟩
      refine Spec.bind_eq (ha.get hi _) (Spec.pure ⟨rfl, ?_⟩)
      simp only [sumN]; push_cast; ring
  obtain ⟨s, h', e, rfl, rfl⟩ := this
  exact e

/-- The variance of a split is positive. -/
theorem variance_pos {n : Nat} {hist : Nat → Int} (h0 : ∀ k, k < n → 0 ≤ hist k) {i : Nat} (hs : IsSplit n hist i) :
    (0 : K) < variance n hist i ∧ (meanBelow hist i : K) ≤ i ∧ (i + 1 : K) ≤ meanAbove n hist i ∧
    (0 : K) ≤ meanBelow hist i ∧ (meanAbove n hist i : K) ≤ (n : K) - 1 := by
  obtain ⟨hi, hb, ha⟩ := hs
  have hbK : (0 : K) < (below hist i : Int) := by exact_mod_cast hb
  have haK : (0 : K) < (above n hist i : Int) := by exact_mod_cast ha
  have m1 : (meanBelow hist i : K) ≤ i := by
    unfold meanBelow
    rw [div_le_iff₀ hbK]
    have : sumN (i+1) (fun k => k * hist k) ≤ i * below hist i := by
      unfold below
      rw [← sumN_mul]
      exact sumN_le_sumN (fun k hk => mul_le_mul_of_nonneg_right (by omega) (h0 k (by omega)))
    exact_mod_cast this
  have m2 : (i + 1 : K) ≤ meanAbove n hist i := by
    unfold meanAbove
    rw [le_div_iff₀ haK]
    have : ((i : Int) + 1) * above n hist i ≤ sumN (n - (i+1)) (fun k => ((i + 1 + k : Nat) : Int) * hist (i + 1 + k)) := by
      unfold above
      rw [← sumN_mul]
      exact sumN_le_sumN (fun k hk => mul_le_mul_of_nonneg_right (by push_cast; omega) (h0 _ (by omega)))
    exact_mod_cast this
  have m3 : (0 : K) ≤ meanBelow hist i := by
    unfold meanBelow
    apply div_nonneg _ hbK.le
    have : 0 ≤ sumN (i+1) (fun k => k * hist k) := sumN_nonneg (fun k hk => mul_nonneg (by omega) (h0 k (by omega)))
    exact_mod_cast this
  have m4 : (meanAbove n hist i : K) ≤ (n : K) - 1 := by
    unfold meanAbove
    rw [div_le_iff₀ haK]
    have : sumN (n - (i+1)) (fun k => ((i + 1 + k : Nat) : Int) * hist (i + 1 + k)) ≤ ((n : Int) - 1) * above n hist i := by
      unfold above
      rw [← sumN_mul]
      exact sumN_le_sumN (fun k hk => mul_le_mul_of_nonneg_right (by push_cast; omega) (h0 _ (by omega)))
    exact_mod_cast this
  refine ⟨?_, m1, m2, m3, m4⟩
  unfold variance
  have : (meanBelow hist i - meanAbove n hist i : K) ≠ 0 := by
    intro e; linarith
  positivity

/-- What the scan has found after `i` levels. -/
structure Best (n : Nat) (hist : Nat → Int) (i : Nat) (s : ComputeOtsu.Scan K) : Prop where
  best : (∃ t : Nat, t < i ∧ IsSplit n hist t ∧ s.threshold = t ∧ s.variance = variance n hist t / (n : K)^2 ∧
      s.selectedMB = meanBelow hist t / n ∧ s.selectedMF = meanAbove n hist t / n ∧
      (∀ j, j < i → IsSplit n hist j → (variance n hist j : K) ≤ variance n hist t) ∧
      (∀ j, j < t → IsSplit n hist j → (variance n hist j : K) < variance n hist t)) ∨
    ((∀ j, j < i → ¬IsSplit n hist j) ∧ s.threshold = 0 ∧ s.variance = 0 ∧ s.selectedMB = 0 ∧ s.selectedMF = 0)

theorem scan_run {a : GrowArray Int} {hist : Nat → Int} (ha : a.Is hist) (h0 : ∀ k, k < a.size → 0 ≤ hist k)
    {T : Nat} (hT : sumN a.size hist = T) (hT32 : T < P32) (h : Heap V) :
    ∃ s : ComputeOtsu.Scan K, (ComputeOtsu.scan a ((sumN a.size (fun k => k * hist k) : Int) / (a.size : K)) T : M V _) h
      = .ok s h ∧ Best a.size hist a.size s := by
  set sum : K := (sumN a.size (fun k => k * hist k) : Int) / (a.size : K) with hsum
  have hmono : ∀ {i}, i ≤ a.size → sumN i hist ≤ T := fun hi => by
    rw [← hT]; exact sumN_mono_n hi h0
  have hnn : ∀ {i}, i ≤ a.size → 0 ≤ sumN i hist := fun hi => sumN_nonneg (fun k hk => h0 k (by omega))
  suffices hspec : Spec (ComputeOtsu.scan a sum T : M V (ComputeOtsu.Scan K)) h
      (fun s h' => h' = h ∧ Best a.size hist a.size s) by
    obtain ⟨s, h', e, rfl, hb⟩ := hspec
    exact ⟨s, e, hb⟩
  unfold ComputeOtsu.scan
  refine Spec.conseq (Spec.loopS
    (fun i (s : ComputeOtsu.Scan K) h' => h' = h ∧ Best a.size hist i s ∧
      (s.done = true → ∀ j, i ≤ j → ¬IsSplit a.size hist j) ∧
      (s.done = false → (s.wB : Int) = sumN i hist ∧ s.sumB = (sumN i (fun k => k * hist k) : Int) / (a.size : K))) ?_ ?_) ?_
  · refine ⟨rfl, ⟨Or.inr ⟨fun j hj => by omega, rfl, rfl, rfl, rfl⟩⟩, by simp, fun _ => ⟨by simp [sumN], by simp [sumN]⟩⟩
  · rintro i s h' hi ⟨rfl, hb, hd1, hd2⟩
    -- a level that is no split does not change what was found
    have keep : ∀ {s' : ComputeOtsu.Scan K}, ¬IsSplit a.size hist i → s'.threshold = s.threshold → s'.variance = s.variance →
        s'.selectedMB = s.selectedMB → s'.selectedMF = s.selectedMF → Best a.size hist (i+1) s' := by
      intro s' hns e1 e2 e3 e4
      constructor
      rcases hb.best with ⟨t, ht, hsp, b1, b2, b3, b4, b5, b6⟩ | ⟨b0, b1, b2, b3, b4⟩
      · left
        refine ⟨t, by omega, hsp, by rw [e1, b1], by rw [e2, b2], by rw [e3, b3], by rw [e4, b4], fun j hj hs => ?_, b6⟩
        by_cases e : j = i
        · subst e; exact absurd hs hns
        · exact b5 j (by omega) hs
      · right
        refine ⟨fun j hj => ?_, by rw [e1, b1], by rw [e2, b2], by rw [e3, b3], by rw [e4, b4]⟩
        by_cases e : j = i
        · subst e; exact hns
        · exact b0 j (by omega)
    by_cases hdone : s.done = true
    · rw [if_pos hdone]
      refine Spec.pure ⟨rfl, keep (hd1 hdone i (Nat.le_refl _)) rfl rfl rfl rfl, fun hh j hj => hd1 hdone j (by omega),
        fun hh => by rw [hdone] at hh; simp at hh⟩
    rw [if_neg hdone]
    obtain ⟨hw, hsB⟩ := hd2 (by simpa using hdone)
    refine Spec.bind_eq (ha.get hi _) ?_
    have hci := h0 i hi
    have hsucc : sumN (i+1) hist = sumN i hist + hist i := rfl
    have hle := hmono (show i + 1 ≤ a.size by omega)
    have hwB : wrap32 (s.wB + (hist i).toNat) = (sumN (i+1) hist).toNat := by
      rw [wrap32_of_lt]
      · omega
      · omega
    have hge := hnn (show i + 1 ≤ a.size by omega)
    simp only [hwB]
    have hab := above_eq a.size hist hi
    have hbl : below hist i = sumN (i+1) hist := rfl
    by_cases hz : (sumN (i+1) hist).toNat = 0
    · rw [if_pos hz]
      have hz' : sumN (i+1) hist = 0 := by omega
      refine Spec.pure ⟨rfl, keep ?_ rfl rfl rfl rfl, fun hh => absurd hh hdone, fun _ => ⟨Int.toNat_of_nonneg hge, ?_⟩⟩
      · rintro ⟨_, hb', _⟩; omega
      · have hc0 : hist i = 0 := by have := hnn (show i ≤ a.size by omega); omega
        show s.sumB = _
        rw [hsB]; simp only [sumN, hc0]; push_cast; ring
    rw [if_neg hz]
    have hwF : sub32 T (sumN (i+1) hist).toNat = (above a.size hist i).toNat := by
      rw [sub32_of_le (by omega) hT32]; omega
    simp only [hwF]
    have hab0 : 0 ≤ above a.size hist i := by omega
    by_cases hzF : (above a.size hist i).toNat = 0
    · rw [if_pos hzF]
      have hstop : ∀ j, i ≤ j → ¬IsSplit a.size hist j := by
        rintro j hj ⟨hj1, _, hj3⟩
        rw [above_eq _ _ hj1] at hj3
        have := sumN_mono_n (f := hist) (show i + 1 ≤ j + 1 by omega) (fun k hk => h0 k (by omega))
        omega
      exact Spec.pure ⟨rfl, keep (hstop i (Nat.le_refl _)) rfl rfl rfl rfl, fun _ j hj => hstop j (by omega),
        fun hh => by simp at hh⟩
    rw [if_neg hzF]
    have hsplit : IsSplit a.size hist i := ⟨hi, by omega, by omega⟩
    have hsB' : s.sumB + (i : K) / (a.size : K) * (hist i : K) = (sumN (i+1) (fun k => k * hist k) : Int) / (a.size : K) := by
      rw [hsB]; simp only [sumN]; push_cast; ring
    have hbK : (((sumN (i+1) hist).toNat : Nat) : K) = (below hist i : Int) := by
      rw [hbl]
      have : (((sumN (i+1) hist).toNat : Nat) : Int) = sumN (i+1) hist := Int.toNat_of_nonneg hge
      exact_mod_cast congrArg (Int.cast (R := K)) this
    have haK : (((above a.size hist i).toNat : Nat) : K) = (above a.size hist i : Int) := by
      have : (((above a.size hist i).toNat : Nat) : Int) = above a.size hist i := Int.toNat_of_nonneg hab0
      exact_mod_cast congrArg (Int.cast (R := K)) this
    have hnK : (a.size : K) ≠ 0 := by
      have : 0 < a.size := by omega
      exact_mod_cast this.ne'
    have hmB : ((sumN (i+1) (fun k => k * hist k) : Int) : K) / (a.size : K) / (below hist i : Int) =
        meanBelow hist i / (a.size : K) := by unfold meanBelow; rw [div_right_comm]
    have hmF : (sum - ((sumN (i+1) (fun k => k * hist k) : Int) : K) / (a.size : K)) / (above a.size hist i : Int) =
        meanAbove a.size hist i / (a.size : K) := by
      unfold meanAbove
      rw [hsum, ← sub_div, div_right_comm]
      congr 2
      rw [sumN_split (fun k => k * hist k) (show i + 1 ≤ a.size by omega)]
      push_cast; ring
    have hvar : (below hist i : K) * (above a.size hist i : K) * (meanBelow hist i / (a.size : K) - meanAbove a.size hist i / (a.size : K)) *
        (meanBelow hist i / (a.size : K) - meanAbove a.size hist i / (a.size : K)) = variance a.size hist i / (a.size : K)^2 := by
      unfold variance; field_simp
    simp only [hsB', hbK, haK, hmB, hmF, hvar]
    have hn2 : (0 : K) < (a.size : K)^2 := by positivity
    by_cases hgt : variance a.size hist i / (a.size : K)^2 > s.variance
    · rw [if_pos hgt]
      refine Spec.pure ⟨rfl, ⟨Or.inl ⟨i, by omega, hsplit, rfl, rfl, rfl, rfl, ?_, ?_⟩⟩, fun hh => absurd hh hdone,
        fun _ => ⟨Int.toNat_of_nonneg hge, rfl⟩⟩
      · intro j hj hs
        by_cases e : j = i
        · subst e; exact le_refl _
        · rcases hb.best with ⟨t, ht, hsp, b1, b2, b3, b4, b5, b6⟩ | ⟨b0, _⟩
          · rw [b2, gt_iff_lt, div_lt_div_iff_of_pos_right hn2] at hgt
            exact le_trans (b5 j (by omega) hs) hgt.le
          · exact absurd hs (b0 j (by omega))
      · intro j hj hs
        rcases hb.best with ⟨t, ht, hsp, b1, b2, b3, b4, b5, b6⟩ | ⟨b0, _⟩
        · rw [b2, gt_iff_lt, div_lt_div_iff_of_pos_right hn2] at hgt
          exact lt_of_le_of_lt (b5 j (by omega) hs) hgt
        · exact absurd hs (b0 j (by omega))
    · rw [if_neg hgt]
      refine Spec.pure ⟨rfl, ⟨?_⟩, fun hh => absurd hh hdone, fun _ => ⟨Int.toNat_of_nonneg hge, rfl⟩⟩
      rcases hb.best with ⟨t, ht, hsp, b1, b2, b3, b4, b5, b6⟩ | ⟨b0, b1, b2, b3, b4⟩
      · left
        refine ⟨t, by omega, hsp, b1, b2, b3, b4, fun j hj hs => ?_, b6⟩
        by_cases e : j = i
        · subst e
          rw [b2, gt_iff_lt, div_lt_div_iff_of_pos_right hn2] at hgt
          exact not_lt.mp hgt
        · exact b5 j (by omega) hs
      · exfalso
        rw [b2] at hgt
        exact hgt (div_pos (variance_pos h0 hsplit).1 hn2)
  · rintro s h' ⟨rfl, hb, _⟩
    exact ⟨rfl, hb⟩

end Boof
