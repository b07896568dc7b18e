import Verif.Proofs.Blur
import Verif.Spec.Blur
import Verif.Props.Kernel
namespace Boof
open M

/-- The pixel types of the library. -/
theorem sumArith {t : IntTy} (ht : t ∈ [U8, U16, S16, S32, S64]) {s : Int} (h0 : t.signed = false → 0 ≤ s)
    (hb : |s| ≤ t.signedType.hi) : t.sumType.arithO s = some s := by
  have hs := abs_le.mp hb
  simp only [List.mem_cons, List.not_mem_nil, or_false] at ht
  unfold IntTy.arithO
  rcases ht with rfl | rfl | rfl | rfl | rfl
  · have h0 := h0 rfl
    rw [if_neg (by decide)]
    congr 1
    rw [show U8.signedType.hi = 2147483647 from rfl] at hs
    exact IntTy.cast_of_inRange (by decide) ⟨by rw [show U8.sumType.lo = 0 from rfl]; omega,
      by rw [show U8.sumType.hi = 4294967295 from rfl]; omega⟩
  · have h0 := h0 rfl
    rw [if_neg (by decide)]
    congr 1
    rw [show U16.signedType.hi = 2147483647 from rfl] at hs
    exact IntTy.cast_of_inRange (by decide) ⟨by rw [show U16.sumType.lo = 0 from rfl]; omega,
      by rw [show U16.sumType.hi = 4294967295 from rfl]; omega⟩
  all_goals
    rw [if_pos (by decide), if_pos]
    have l := lo_le_neg_hi (signedType_signed S32)
    have l' := lo_le_neg_hi (signedType_signed S64)
    exact ⟨by first | (show S32.lo ≤ s; exact le_trans l hs.1) | (show S64.lo ≤ s; exact le_trans l' hs.1), hs.2⟩

theorem localCount_inner {r n p : Nat} (h : p + (2 * r + 1) ≤ n) : localCount r n (p + r) = 2 * r + 1 := by
  unfold localCount; omega

theorem win_local {K : Type} [Ring K] {r n x : Nat} (v : Nat → K) (hx : x < n) :
    lastIn (2 * r + 1) r n x - firstIn r x = localCount r n x ∧
    ∀ i, x + (firstIn r x + i) - r = x - r + i := by
  constructor
  · unfold lastIn firstIn localCount; omega
  · intro i; unfold firstIn; omega

theorem winSum_ones {r n x : Nat} (v : Nat → Int) (hx : x < n) :
    winSum (2 * r + 1) r (fun _ => 1) n v x = localSum r n v x ∧
    winWeight (2 * r + 1) r (fun _ => (1 : Int)) n x = (localCount r n x : Int) := by
  obtain ⟨e1, e2⟩ := win_local (r := r) v hx
  unfold winSum winWeight localSum
  rw [e1]
  constructor
  · congr 1
    funext i
    rw [e2, one_mul]
  · generalize localCount r n x = m
    induction m with
    | zero => rfl
    | succ m ih => simp only [sumF]; rw [ih]; push_cast; rfl

theorem sumF_bound {n : Nat} {v : Nat → Int} {P : Int} (hv : ∀ i, i < n → |v i| ≤ P) :
    |sumF n v| ≤ n * P := by
  induction n with
  | zero => simp [sumF]
  | succ n ih =>
    have h1 := ih (fun i hi => hv i (by omega))
    have h2 := hv n (by omega)
    have h3 := abs_add_le (sumF n v) (v n)
    simp only [sumF]
    push_cast
    rw [add_mul, one_mul]
    omega

theorem sumF_nonneg {n : Nat} {v : Nat → Int} (hv : ∀ i, i < n → 0 ≤ v i) : 0 ≤ sumF n v := by
  induction n with
  | zero => exact le_refl _
  | succ n ih => exact add_nonneg (ih (fun i hi => hv i (by omega))) (hv n (by omega))

/-- Moving the window by one sample. -/
theorem sumF_slide {K : Type} [Ring K] (m p : Nat) (v : Nat → K) :
    sumF m (fun i => v (p + i)) - v p + v (p + m) = sumF m (fun i => v (p + 1 + i)) := by
  induction m with
  | zero => simp [sumF]
  | succ m ih =>
    simp only [sumF]
    rw [← ih, show p + 1 + m = p + (m + 1) by omega]
    abel

theorem foldO_addTo {t : IntTy} (ht : t ∈ [U8, U16, S16, S32, S64]) {n : Nat} {v : Nat → Int} {P : Int}
    (h0 : t.signed = false → ∀ i, i < n → 0 ≤ v i) (hv : ∀ i, i < n → |v i| ≤ P) (hb : n * P ≤ t.signedType.hi) :
    foldO n (intMean t).zero (fun i s => (intMean t).add s (v i)) = some (sumF n v) := by
  induction n with
  | zero => rfl
  | succ n ih =>
    have hP : 0 ≤ P := le_trans (abs_nonneg _) (hv n (by omega))
    have hle : (n : Int) * P ≤ ((n + 1 : Nat) : Int) * P := by push_cast; nlinarith
    unfold foldO
    rw [ih (fun h i hi => h0 h i (by omega)) (fun i hi => hv i (by omega)) (by omega), Option.bind_some]
    show t.sumType.arithO _ = _
    exact sumArith ht (fun h => add_nonneg (sumF_nonneg (fun i hi => h0 h i (by omega))) (h0 h n (by omega)))
      (le_trans (sumF_bound (n := n + 1) hv) hb)

theorem slides_int {t : IntTy} (ht : t ∈ [U8, U16, S16, S32, S64]) {r n : Nat} {v : Nat → Int} {P : Int}
    (hr : 2 * r + 1 ≤ n) (h0 : t.signed = false → ∀ i, i < n → 0 ≤ v i) (hv : ∀ i, i < n → |v i| ≤ P)
    (hb : (2 * r + 1 : Nat) * (P + 1) ≤ t.signedType.hi) :
    Slides (intMean t) (2 * r + 1) n v (fun p => sumF (2 * r + 1) (fun i => v (p + i)))
      (fun p => roundedMean t r n v (p + r)) := by
  have hP : 0 ≤ P := le_trans (abs_nonneg _) (hv 0 (by omega))
  have hb' : ((2 * r + 1 : Nat) : Int) * P + (2 * r + 1 : Nat) ≤ t.signedType.hi := by
    rwa [mul_add, mul_one] at hb
  have hk : (0 : Int) ≤ ((2 * r + 1 : Nat) : Int) * P := by positivity
  refine ⟨?_, ?_, ?_⟩
  · have := foldO_addTo ht (n := 2 * r + 1) (v := v) (P := P) (fun h i hi => h0 h i (by omega)) (fun i hi => hv i (by omega))
      (by omega)
    simpa using this
  · intro p hp
    have s1 : |sumF (2 * r + 1) (fun i => v (p + i)) - v p| ≤ ((2 * r + 1 : Nat) : Int) * P := by
      have e : sumF (2 * r + 1) (fun i => v (p + i)) - v p = sumF (2 * r) (fun i => v (p + 1 + i)) := by
        have := sumF_slide (2 * r) p v
        simp only [sumF]
        rw [← this]; ring
      rw [e]
      have := sumF_bound (n := 2 * r) (v := fun i => v (p + 1 + i)) (P := P) (fun i hi => hv _ (by omega))
      push_cast at this ⊢
      nlinarith
    have n1 : t.signed = false → 0 ≤ sumF (2 * r + 1) (fun i => v (p + i)) - v p := by
      intro h
      have e : sumF (2 * r + 1) (fun i => v (p + i)) - v p = sumF (2 * r) (fun i => v (p + 1 + i)) := by
        have := sumF_slide (2 * r) p v
        simp only [sumF]
        rw [← this]; ring
      rw [e]
      exact sumF_nonneg (fun i hi => h0 h _ (by omega))
    have e1 : (intMean t).sub (sumF (2 * r + 1) (fun i => v (p + i))) (v p) =
        some (sumF (2 * r + 1) (fun i => v (p + i)) - v p) := sumArith ht n1 (by omega)
    simp only [e1, Option.bind_some]
    show t.sumType.arithO _ = _
    rw [sumF_slide]
    refine sumArith ht (fun h => sumF_nonneg (fun i hi => h0 h _ (by omega))) ?_
    exact le_trans (sumF_bound (P := P) (fun i hi => hv _ (by omega))) (by omega)
  · intro p hp
    show (intMean t).fin (2 * r + 1) (sumF (2 * r + 1) (fun i => v (p + i))) = some (roundedMean t r n v (p + r))
    have hS : |sumF (2 * r + 1) (fun i => v (p + i))| ≤ ((2 * r + 1 : Nat) : Int) * P :=
      sumF_bound (fun i hi => hv _ (by omega))
    have hS0 : t.signed = false → 0 ≤ sumF (2 * r + 1) (fun i => v (p + i)) := fun h => sumF_nonneg (fun i hi => h0 h _ (by omega))
    have hd : t.sumType.cast ((2 * r + 1 : Nat) : Int) = ((2 * r + 1 : Nat) : Int) := by
      have hkh : ((2 * r + 1 : Nat) : Int) ≤ t.signedType.hi := by omega
      have := sumArith ht (s := ((2 * r + 1 : Nat) : Int)) (fun _ => by omega) (by rw [abs_of_nonneg (by omega)]; exact hkh)
      unfold IntTy.arithO at this
      split at this
      · rename_i hsg
        split at this
        · rename_i hin
          refine IntTy.cast_of_inRange ?_ hin
          simp only [List.mem_cons, List.not_mem_nil, or_false] at ht
          rcases ht with rfl | rfl | rfl | rfl | rfl <;> decide
        · cases this
      · exact Option.some.inj this
    have h2 : ((2 * r + 1 : Nat) : Int).tdiv 2 = r := by
      rw [Int.tdiv_eq_ediv_of_nonneg (by omega)]; omega
    unfold intMean
    simp only [hd, h2]
    rw [if_neg (by omega)]
    have a1 := abs_le.mp hS
    rw [sumArith ht (fun h => by have := hS0 h; omega) (abs_le.mpr ⟨by omega, by omega⟩), Option.bind_some]
    have hq : |(sumF (2 * r + 1) (fun i => v (p + i)) + r).tdiv ((2 * r + 1 : Nat) : Int)| ≤ t.signedType.hi :=
      le_trans (abs_tdiv_le _ _) (abs_le.mpr ⟨by omega, by omega⟩)
    rw [sumArith ht (fun h => Int.tdiv_nonneg (by have := hS0 h; omega) (by omega)) hq, Option.bind_some]
    unfold roundedMean localSum
    rw [localCount_inner hp, h2, show p + r - r = p by omega]

theorem slides_exact {K : Type} [Field K] [LinearOrder K] [IsStrictOrderedRing K] {r n : Nat} {v : Nat → K} :
    Slides (fieldMean K) (2 * r + 1) n v (fun p => sumF (2 * r + 1) (fun i => v (p + i)))
      (fun p => exactMean r n v (p + r)) := by
  refine ⟨?_, ?_, ?_⟩
  · have : ∀ m, foldO m (0 : K) (fun i t => (fieldMean K).add t (v i)) = some (sumF m v) := by
      intro m
      induction m with
      | zero => rfl
      | succ m ih => unfold foldO; rw [ih]; rfl
    simp only [Nat.zero_add]
    exact this (2 * r + 1)
  · intro p hp
    show some _ = some _
    rw [← sumF_slide]
  · intro p hp
    show (if _ then _ else _) = _
    have : ((2 * r + 1 : Nat) : K) ≠ 0 := by exact_mod_cast (by omega : 2 * r + 1 ≠ 0)
    rw [if_neg this]
    unfold exactMean localSum
    rw [localCount_inner hp, show p + r - r = p by omega]

end Boof
