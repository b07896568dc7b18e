import Verif.Spec.RoundedBlocksFloat
import Verif.Proofs.RoundedBlocksFloat
import Verif.Props.BlocksFloat
import Verif.Props.RoundedBlocks
import Verif.Props.BlockOtsuFloat
/-
C114 for images of `float`.
-/
namespace Boof
open M OtsuSpec
variable {K : Type} [Field K] [LinearOrder K] [IsStrictOrderedRing K] [FloorRing K] {rnd rndD : K → Option K} {u η big : K}

theorem blockArea_pos {w ht req : Nat} (h1 : 1 ≤ req) (hw : req ≤ w) (hh : req ≤ ht) {i j : Nat} (hi : i < Grid.count w req)
    (hj : j < Grid.count ht req) : 0 < blockArea w ht req i j ∧ Grid.hi w req i ≤ w ∧ Grid.hi ht req j ≤ ht := by
  obtain ⟨a1, a2⟩ := Grid.lo_le h1 hw hi
  obtain ⟨b1, b2⟩ := Grid.lo_le h1 hh hj
  have c := Grid.le_size h1 hw
  have d := Grid.le_size h1 hh
  exact ⟨Nat.mul_pos (by omega) (by omega), a2, b2⟩

/-- At most nine blocks determine a threshold. -/
theorem groupSize_le {u : Bool} {w ht req i j : Nat} (hi : i < Grid.count w req) (hj : j < Grid.count ht req) :
    1 ≤ groupSize u w ht req i j ∧ groupSize u w ht req i j ≤ 9 ∧ Grid.last u w req i < Grid.count w req ∧
      Grid.last u ht req j < Grid.count ht req := by
  unfold groupSize Grid.last Grid.first
  cases u
  · simp only [Bool.false_eq_true, if_false]
    rw [Nat.add_sub_cancel_left, Nat.add_sub_cancel_left]
    omega
  · simp only [if_true]
    have a : 1 ≤ min (i + 1) (Grid.count w req - 1) + 1 - (i - 1) ∧ min (i + 1) (Grid.count w req - 1) + 1 - (i - 1) ≤ 3 := by omega
    have b : 1 ≤ min (j + 1) (Grid.count ht req - 1) + 1 - (j - 1) ∧ min (j + 1) (Grid.count ht req - 1) + 1 - (j - 1) ≤ 3 := by omega
    refine ⟨Nat.mul_pos a.1 b.1, ?_, by omega, by omega⟩
    exact Nat.mul_le_mul a.2 b.2

/-- The threshold of a block, computed with rounding. -/
theorem meanF_near (R : Rounds rnd u η big) {scale : K} {c N : Nat} (hc : 1 ≤ c) (hsc : |scale| ≤ c) (hex : ExactTo rnd (N + 9))
    {w ht req : Nat} (h1 : 1 ≤ req) (hw : req ≤ w) (hh : req ≤ ht) {f : Nat → Nat → K} {Mx : K} (hM : 0 ≤ Mx)
    (hf : ∀ x y, x < w → y < ht → |f x y| ≤ Mx)
    (hN : ∀ i j, i < Grid.count w req → j < Grid.count ht req → blockArea w ht req i j ≤ N)
    (hbig : grown u η (N + 12) (9 * (c * N + 3) + 1) ((9 * c * N : Nat) * Mx) ≤ big) {useLocal : Bool} {i j : Nat}
    (hi : i < Grid.count w req) (hj : j < Grid.count ht req) :
    Within u η (N + 12) (9 * (c * N + 3) + 1) (|scale| * Mx)
      (groupMean useLocal w ht req (scaledMean scale w ht req f) i j)
      (localMeanF (roundMeanF rnd scale).add (roundMeanF rnd scale).zero (roundMeanF rnd scale).divide useLocal w ht req
        (meanStatF (roundMeanF rnd scale).add (roundMeanF rnd scale).zero (roundMeanF rnd scale).scaled w ht req f) i j) := by
  have hu := R.rel
  have hη := R.abs
  have hs0 := abs_nonneg scale
  have hcK : (1 : K) ≤ c := by exact_mod_cast hc
  have hsM : 0 ≤ |scale| * Mx := mul_nonneg hs0 hM
  -- everything stays below the limit
  have small : ∀ (n m : Nat) (A : K), n ≤ N + 12 → m ≤ 9 * (c * N + 3) + 1 → 0 ≤ A → A ≤ (9 * c * N : Nat) * Mx → grown u η n m A ≤ big :=
    fun n m A hn hm hA hA2 => le_trans (grown_mono hu hη hA hA2 hn hm) hbig
  have stat : ∀ i j, i < Grid.count w req → j < Grid.count ht req →
      Within u η (N + 2) (c * N + 2) (|scale| * Mx) (scaledMean scale w ht req f i j)
        (meanStatF (roundMeanF rnd scale).add (roundMeanF rnd scale).zero (roundMeanF rnd scale).scaled w ht req f i j) := fun i j hi hj => by
    obtain ⟨p0, wx, wy⟩ := blockArea_pos h1 hw hh hi hj
    have pN := hN i j hi hj
    have ea : blockArea w ht req i j = (Grid.hi ht req j - Grid.lo ht req j) * (Grid.hi w req i - Grid.lo w req i) := Nat.mul_comm _ _
    have hfold := fun hb => rectFold_round R (f := f) (g := f) (x0 := Grid.lo w req i) (x1 := Grid.hi w req i) (y0 := Grid.lo ht req j)
      (y1 := Grid.hi ht req j) (n0 := 0) (m0 := 0) hM (fun x y _ hx _ hy => Within.exact R (hf x y (by omega) (by omega))) hb
    rw [← ea, Nat.zero_add, Nat.zero_add, Nat.mul_one] at hfold
    have es : meanStatF (roundMeanF rnd scale).add (roundMeanF rnd scale).zero (roundMeanF rnd scale).scaled w ht req f i j =
        (roundMeanF rnd scale).scaled (rectFold (fun a b => (rnd (a + b)).getD 0) 0 f (Grid.lo w req i) (Grid.hi w req i) (Grid.lo ht req j)
          (Grid.hi ht req j)) (blockArea w ht req i j) := rfl
    rw [es]
    unfold scaledMean
    generalize rectFold (fun a b => (rnd (a + b)).getD 0) 0 f (Grid.lo w req i) (Grid.hi w req i) (Grid.lo ht req j) (Grid.hi ht req j) = s at *
    generalize rectSumK f (Grid.lo w req i) (Grid.hi w req i) (Grid.lo ht req j) (Grid.hi ht req j) = S at *
    generalize blockArea w ht req i j = a at *
    have aK : (1 : K) ≤ a := by exact_mod_cast p0
    have aN : (a : K) ≤ N := by exact_mod_cast pN
    have ca : a ≤ c * N := le_trans pN (Nat.le_mul_of_pos_left _ hc)
    have caN : c * a ≤ c * N := Nat.mul_le_mul_left _ pN
    have aM : (a : K) * Mx ≤ (9 * c * N : Nat) * Mx := by
      refine mul_le_mul_of_nonneg_right ?_ hM
      have : a ≤ 9 * c * N := by rw [Nat.mul_assoc]; omega
      exact_mod_cast this
    have saM : |scale| * (a * Mx) ≤ (9 * c * N : Nat) * Mx := by
      rw [← mul_assoc]
      refine mul_le_mul_of_nonneg_right (le_trans (mul_le_mul_of_nonneg_right hsc (Nat.cast_nonneg _)) ?_) hM
      have : c * a ≤ 9 * c * N := by rw [Nat.mul_assoc]; omega
      exact_mod_cast this
    have sM9 : |scale| * Mx ≤ |scale| * (a * Mx) := mul_le_mul_of_nonneg_left (le_mul_of_one_le_left hM aK) hs0
    have a0 : 0 ≤ (a : K) * Mx := mul_nonneg (Nat.cast_nonneg _) hM
    have w1 := hfold (small _ _ _ (by omega) (by omega) a0 aM)
    have w2 := w1.times R (s := scale) hsc
    obtain ⟨p, ep, w3⟩ := w2.round R (small _ _ _ (by omega) (by omega) (mul_nonneg hs0 a0) saM)
    have w4 := w3.quot R (d := (a : K)) aK
    have eA : |scale| * (a * Mx) / a = |scale| * Mx := by
      have : (a : K) ≠ 0 := by linarith
      field_simp
    rw [eA] at w4
    obtain ⟨q, eq, w5⟩ := w4.round R (small _ _ _ (by omega) (by omega) hsM (le_trans sM9 saM))
    have : (roundMeanF rnd scale).scaled s a = q := by
      show ((rnd (scale * s)).bind fun p => (rnd (a : K)).bind fun b => rnd (p / b)).getD 0 = q
      rw [ep, Option.bind_some, hex a (by omega), Option.bind_some, eq, Option.getD_some]
    rw [this]
    exact w5.mono R (by omega) (by omega)
  obtain ⟨g1, g9, lx, ly⟩ := groupSize_le (u := useLocal) hi hj
  have ea : groupSize useLocal w ht req i j = (Grid.last useLocal ht req j + 1 - Grid.first useLocal j) *
      (Grid.last useLocal w req i + 1 - Grid.first useLocal i) := Nat.mul_comm _ _
  have hfold := fun hb => rectFold_round R (f := meanStatF (roundMeanF rnd scale).add (roundMeanF rnd scale).zero (roundMeanF rnd scale).scaled w ht req f)
    (g := scaledMean scale w ht req f) (x0 := Grid.first useLocal i) (x1 := Grid.last useLocal w req i + 1) (y0 := Grid.first useLocal j)
    (y1 := Grid.last useLocal ht req j + 1) hsM (fun x y _ hx _ hy => stat x y (by omega) (by omega)) hb
  rw [← ea] at hfold
  have es : localMeanF (roundMeanF rnd scale).add (roundMeanF rnd scale).zero (roundMeanF rnd scale).divide useLocal w ht req
      (meanStatF (roundMeanF rnd scale).add (roundMeanF rnd scale).zero (roundMeanF rnd scale).scaled w ht req f) i j =
      (roundMeanF rnd scale).divide (rectFold (fun a b => (rnd (a + b)).getD 0) 0
        (meanStatF (roundMeanF rnd scale).add (roundMeanF rnd scale).zero (roundMeanF rnd scale).scaled w ht req f)
        (Grid.first useLocal i) (Grid.last useLocal w req i + 1) (Grid.first useLocal j) (Grid.last useLocal ht req j + 1))
        (groupSize useLocal w ht req i j) := rfl
  rw [es]
  unfold groupMean
  have hN1 : 1 ≤ N := le_trans (blockArea_pos h1 hw hh hi hj).1 (hN i j hi hj)
  generalize rectFold (fun a b => (rnd (a + b)).getD 0) 0
    (meanStatF (roundMeanF rnd scale).add (roundMeanF rnd scale).zero (roundMeanF rnd scale).scaled w ht req f)
    (Grid.first useLocal i) (Grid.last useLocal w req i + 1) (Grid.first useLocal j) (Grid.last useLocal ht req j + 1) = s at *
  generalize rectSumK (scaledMean scale w ht req f) (Grid.first useLocal i) (Grid.last useLocal w req i + 1) (Grid.first useLocal j)
    (Grid.last useLocal ht req j + 1) = S at *
  generalize groupSize useLocal w ht req i j = k at *
  have kK : (1 : K) ≤ k := by exact_mod_cast g1
  have k9 : (k : K) ≤ 9 := by exact_mod_cast g9
  have kc : k * (c * N + 2 + 1) ≤ 9 * (c * N + 3) := Nat.mul_le_mul_right _ g9
  have kM : (k : K) * (|scale| * Mx) ≤ (9 * c * N : Nat) * Mx := by
    rw [← mul_assoc]
    refine mul_le_mul_of_nonneg_right ?_ hM
    push_cast
    have hNK : (1 : K) ≤ N := by exact_mod_cast hN1
    have q1 : (k : K) * |scale| ≤ 9 * c := mul_le_mul k9 hsc hs0 (by norm_num)
    have q2 : (9 : K) * c ≤ 9 * c * N := le_mul_of_one_le_right (by positivity) hNK
    linarith
  have w1 := hfold (small _ _ _ (by omega) (by omega) (mul_nonneg (Nat.cast_nonneg _) hsM) kM)
  have w2 := w1.quot R (d := (k : K)) kK
  have eA : (k : K) * (|scale| * Mx) / k = |scale| * Mx := by
    have : (k : K) ≠ 0 := by linarith
    field_simp
  rw [eA] at w2
  obtain ⟨q, eq, w3⟩ := w2.round R (small _ _ _ (by omega) (by omega) hsM (le_trans (le_mul_of_one_le_left hsM kK) kM))
  have : (roundMeanF rnd scale).divide s k = q := by
    show ((rnd (k : K)).bind fun b => rnd (s / b)).getD 0 = q
    rw [hex k (by omega), Option.bind_some, eq, Option.getD_some]
  rw [this]
  exact w3.mono R (by omega) (by omega)

/-- Block mean filter on images of `float` with rounded arithmetic, for blocks of at most `N` pixels of size at most `Mx` and scales of size at
most `c`: `process` succeeds, and a pixel is decided by comparing it with the mean over the local blocks of the scaled block means, unless it is so
close to this threshold that rounding errors matter: about `(N+12)*u*|scale|*Mx`. -/
theorem C114_mean_float (R : Rounds rnd u η big) {scale : K} {c N : Nat} (hc : 1 ≤ c) (hsc : |scale| ≤ c) (hex : ExactTo rnd (N + 9))
    {useLocal down : Bool} {z : K} {config : ConfigLength K} {h : Heap K} {st : Interleaved}
    {input output : Gray} {f : Nat → Nat → K} (ha : BlockArgs h st input output f) (hnb : st.numBands = 1)
    {req : Nat} (h1 : 1 ≤ req) (hw : req ≤ input.width) (hh : req ≤ input.height)
    (hreq : config.computeIR rndD ((min input.width input.height : Nat) : K) h = .ok (req : Int) h)
    {Mx : K} (hM : 0 ≤ Mx) (hf : ∀ x y, x < input.width → y < input.height → |f x y| ≤ Mx)
    (hN : ∀ i j, i < Grid.count input.width req → j < Grid.count input.height req → blockArea input.width input.height req i j ≤ N)
    (hbig : grown u η (N + 12) (9 * (c * N + 3) + 1) ((9 * c * N : Nat) * Mx) ≤ big) :
    ∃ b h', ∃ S F : Nat → Nat → K,
      Blocks.processR rndD (BlockMeanF.ops (roundMeanF rnd scale) useLocal down) z config st input output h = .ok b h' ∧
      Filtered h h' st b.stats output (Grid.count input.width req) (Grid.count input.height req) (fun i j _ => S i j) F ∧
      ∀ x y, x < input.width → y < input.height →
        let mean := groupMean useLocal input.width input.height req (scaledMean scale input.width input.height req f)
          (Grid.blockOf input.width req x) (Grid.blockOf input.height req y)
        let E := roundError u η (N + 12) (9 * (c * N + 3) + 1) (|scale| * Mx)
        (F x y = 0 ∨ F x y = 1) ∧
        (f x y ≤ mean - E → F x y = if down then 1 else 0) ∧
        (mean + E < f x y → F x y = if down then 0 else 1) := by
  obtain ⟨e0, hr⟩ := processR_fixed (ops := BlockMeanF.ops (roundMeanF rnd scale) useLocal down) (z := z) (st := st) ha.width ha.height hw
    ha.inValid.widthLt hreq
  obtain ⟨b, h', e, hF⟩ := C39_mean_float (roundMeanF rnd scale) (useLocal := useLocal) (down := down) (z := z) ha hnb h1 hw hh hr
  refine ⟨b, h', _, _, by rw [e0, e], hF, fun x y hx hy => ?_⟩
  have bx := (Grid.has_blockOf h1 hw hx).1
  have by' := (Grid.has_blockOf h1 hh hy).1
  have hn := (meanF_near R hc hsc hex h1 hw hh hM hf hN hbig (useLocal := useLocal) bx by').error
  intro mean E
  have hn' := abs_le.1 hn
  generalize localMeanF _ _ _ _ _ _ _ _ _ _ = t at *
  have el : ∀ a b : K, (roundMeanF rnd scale).le a b = decide (a ≤ b) := fun _ _ => rfl
  have eb : ∀ b : Bool, (roundMeanF rnd scale).bit b = if b = true then 1 else 0 := fun _ => rfl
  rw [el, eb]
  refine ⟨?_, fun q => ?_, fun q => ?_⟩
  · split <;> simp
  · rw [decide_eq_true (show f x y ≤ t by linarith)]
    cases down <;> simp
  · rw [decide_eq_false (show ¬ f x y ≤ t by push Not; linarith)]
    cases down <;> simp

/-- `(1+u)^n` is about `1 + n*u`. -/
theorem pow_near {u : K} (hu : 0 ≤ u) {n : Nat} (h : n * u ≤ 1 / 100) : (1 + u) ^ n ≤ 1 + 102 / 100 * (n * u) := by
  have key : (1 + u) ^ n * (1 - n * u) ≤ 1 := by
    induction n with
    | zero => simp
    | succ n ih =>
      push_cast at h ⊢
      have hn : 0 ≤ (n : K) * u := mul_nonneg (Nat.cast_nonneg _) hu
      have h0 := ih (by linarith)
      have e : (1 + u) ^ (n + 1) * (1 - (n + 1) * u) = (1 + u) ^ n * ((1 - n * u) - (n * u * u + u * u)) := by ring
      rw [e]
      refine le_trans (mul_le_mul_of_nonneg_left ?_ (by positivity)) h0
      have : 0 ≤ (n : K) * u * u + u * u := by positivity
      linarith
  have hn : 0 ≤ (n : K) * u := mul_nonneg (Nat.cast_nonneg _) hu
  generalize (n : K) * u = t at *
  generalize (1 + u) ^ n = p at *
  have q : 1 ≤ (1 + 102 / 100 * t) * (1 - t) := by nlinarith
  have : p * (1 - t) ≤ (1 + 102 / 100 * t) * (1 - t) := le_trans key q
  exact le_of_mul_le_mul_right this (by linarith)

theorem grown_near {u η A w : K} {n m : Nat} (hu : 0 ≤ u) (hη : 0 ≤ η) (hA : 0 ≤ A) (h1 : n * u ≤ 1 / 1670) (h2 : m * η ≤ 1 / 2 * w)
    (hw : 0 ≤ w) : grown u η n m A ≤ A + A / 1600 + w := by
  unfold grown
  have hp := pow_near hu (le_trans h1 (by norm_num))
  have h0 : 0 ≤ m * η := mul_nonneg (Nat.cast_nonneg _) hη
  have hp2 : (1 + u) ^ n ≤ 1 + 1 / 1630 := by linarith
  have := mul_le_mul_of_nonneg_right hp2 (add_nonneg hA h0)
  linarith

/-- With `float`, blocks of at most 10000 pixels and a scale of at most 4 the threshold is exact up to one part in 1600 of the largest pixel
(times the scale). -/
theorem C114_mean_float32 {scale : K} (hsc : |scale| ≤ 4) {useLocal down : Bool} {z : K} {config : ConfigLength K} {h : Heap K} {st : Interleaved}
    {input output : Gray} {f : Nat → Nat → K} (ha : BlockArgs h st input output f) (hnb : st.numBands = 1)
    {req : Nat} (h1 : 1 ≤ req) (hw : req ≤ input.width) (hh : req ≤ input.height)
    (hreq : config.computeIR float64 ((min input.width input.height : Nat) : K) h = .ok (req : Int) h)
    {Mx : K} (hM : 0 ≤ Mx) (hM2 : Mx ≤ 2 ^ 64) (hf : ∀ x y, x < input.width → y < input.height → |f x y| ≤ Mx)
    (hN : ∀ i j, i < Grid.count input.width req → j < Grid.count input.height req → blockArea input.width input.height req i j ≤ 10000) :
    ∃ b h', ∃ S F : Nat → Nat → K,
      Blocks.processR float64 (BlockMeanF.ops (roundMeanF (float32 : K → Option K) scale) useLocal down) z config st input output h = .ok b h' ∧
      Filtered h h' st b.stats output (Grid.count input.width req) (Grid.count input.height req) (fun i j _ => S i j) F ∧
      ∀ x y, x < input.width → y < input.height →
        let mean := groupMean useLocal input.width input.height req (scaledMean scale input.width input.height req f)
          (Grid.blockOf input.width req x) (Grid.blockOf input.height req y)
        let E := |scale| * Mx / 1600 + 1 / 2 ^ 130
        (F x y = 0 ∨ F x y = 1) ∧
        (f x y ≤ mean - E → F x y = if down then 1 else 0) ∧
        (mean + E < f x y → F x y = if down then 0 else 1) := by
  have e : (((9 * (4 * 10000 + 3) + 1 : Nat) : K)) * (1 / 2 ^ 150) ≤ (1 / 2 : K) * (1 / 2 ^ 130) := by
    rw [show (2 : K) ^ 150 = 2 ^ 130 * 2 ^ 20 by rw [← pow_add]]
    have : (0 : K) < 2 ^ 130 := by positivity
    generalize (2 : K) ^ 130 = P at *
    have e2 : ((9 * (4 * 10000 + 3) + 1 : Nat) : K) * (1 / (P * 2 ^ 20)) = (((9 * (4 * 10000 + 3) + 1 : Nat) : K) / 2 ^ 20) * (1 / P) := by field_simp
    rw [e2]
    exact mul_le_mul_of_nonneg_right (by norm_num) (by positivity)
  have grows : ∀ A : K, 0 ≤ A → grown (1 / 2 ^ 24 : K) (1 / 2 ^ 150) (10000 + 12) (9 * (4 * 10000 + 3) + 1) A ≤ A + A / 1600 + 1 / 2 ^ 130 :=
    fun A hA => grown_near (by positivity) (by positivity) hA (by norm_num) e (by positivity)
  obtain ⟨b, h', S, F, e, hF, hp⟩ := C114_mean_float (rndD := float64) (float32_rounds (K := K)) (scale := scale) (c := 4) (N := 10000) (by norm_num)
    (by exact_mod_cast hsc) (fun i hi => float32_exact i (by omega)) (useLocal := useLocal) (down := down) (z := z) ha hnb h1 hw hh hreq hM hf hN (by
      refine le_trans (grows _ (mul_nonneg (Nat.cast_nonneg _) hM)) ?_
      have h1 : ((9 * 4 * 10000 : Nat) : K) * Mx ≤ 2 ^ 19 * 2 ^ 64 := mul_le_mul (by norm_num) hM2 hM (by positivity)
      have h2 : (1 : K) / 2 ^ 130 ≤ 1 := by rw [div_le_one (by positivity)]; exact one_le_pow₀ (by norm_num)
      have h3 : (2 : K) ^ 127 = 2 ^ 19 * 2 ^ 64 * 2 ^ 44 := by rw [← pow_add, ← pow_add]
      rw [h3]
      generalize ((9 * 4 * 10000 : Nat) : K) * Mx = a at *
      have h4 : (1 : K) ≤ 2 ^ 19 * 2 ^ 64 := by norm_num
      generalize (2 : K) ^ 19 * 2 ^ 64 = P at *
      generalize (1 : K) / 2 ^ 130 = w at *
      have : P * 4 ≤ P * 2 ^ 44 := mul_le_mul_of_nonneg_left (by norm_num) (by linarith)
      linarith)
  have hE : roundError (1 / 2 ^ 24 : K) (1 / 2 ^ 150) (10000 + 12) (9 * (4 * 10000 + 3) + 1) (|scale| * Mx) ≤ |scale| * Mx / 1600 + 1 / 2 ^ 130 := by
    unfold roundError
    have := grows (|scale| * Mx) (mul_nonneg (abs_nonneg _) hM)
    linarith
  refine ⟨b, h', S, F, e, hF, fun x y hx hy => ?_⟩
  obtain ⟨q1, q2, q3⟩ := hp x y hx hy
  intro mean E
  exact ⟨q1, fun q => q2 (le_trans q (sub_le_sub_left hE mean)), fun q => q3 (lt_of_le_of_lt (add_le_add (le_refl mean) hE) q)⟩

/-- The 5x2 image of C39 (its `BlockArgs` are shown there) with blocks of 2 meets the remaining hypotheses, and this is what the filter does: the
mean 35/3 of the second block is rounded. -/
example : (ConfigLength.fixed (2 : ℚ)).computeIR float64 ((min 5 2 : Nat) : ℚ) (⟨[]⟩ : Heap ℚ) = .ok ((2 : Nat) : Int) ⟨[]⟩ ∧
    (∀ x, x < 5 → ∀ y, y < 2 → |([1/2, -2, 30, 10, 10, 3, 4, -10, 10, 20] : List ℚ).getD (y * 5 + x) 0| ≤ 30) ∧
    (∀ i, i < Grid.count 5 2 → ∀ j, j < Grid.count 2 2 → blockArea 5 2 2 i j ≤ 10000) ∧
    Blocks.processR float64 (BlockMeanF.ops (roundMeanF (float32 : ℚ → Option ℚ) 1) false true) 0 (ConfigLength.fixed (2 : ℚ))
      ⟨2, 0, 0, 0, 1, 0, 0, false⟩ ⟨0, 10, 5, 2, 0, 5, false⟩ ⟨1, 10, 5, 2, 0, 5, false⟩
      (⟨[some [1/2, -2, 30, 10, 10, 3, 4, -10, 10, 20], some (List.replicate 10 9), some []]⟩ : Heap ℚ) =
      .ok ⟨⟨3, 2, 2, 1, 1, 0, 2, false⟩, 2, 2⟩
        ⟨[some [1/2, -2, 30, 10, 10, 3, 4, -10, 10, 20], some [1,1,0,1,1, 0,0,1,1,0], none, some [11/8, 12233387/1048576]]⟩ := by decide +kernel

/-- Rounding errors do matter: the computed mean of nine equal pixels can be less than the pixels, so that a constant image is marked as above its
own mean. -/
theorem C114_float_limit : ∃ v t : ℚ, float32 v = some v ∧
    meanStatF (roundMeanF (float32 : ℚ → Option ℚ) 1).add 0 (roundMeanF (float32 : ℚ → Option ℚ) 1).scaled 3 3 3 (fun _ _ => v) 0 0 = t ∧ t < v :=
  ⟨11184811/16777216, _, by decide +kernel, rfl, by decide +kernel⟩

/-! ## Min-max -/

/-- Block min-max filter on images of `float` with rounded arithmetic.  With `mn` and `mx` the smallest and the largest pixel of the local blocks
(`mx` at least `tiny`, see `C40_float_refuted`): where the spread `mx-mn` is at most `minimumSpread` all pixels are marked; where it is larger, and
not only by a rounding error, a pixel is decided by comparing it with `scale*(mx+mn)/2`, unless it is so close to this threshold that rounding errors
matter. -/
theorem C114_minmax_float (G : Format rnd) (R : Rounds rnd u η big) {minimumSpread scale huge tiny : K} (hms : rnd minimumSpread = some minimumSpread)
    {c : Nat} (hsc : |scale| ≤ c) {useLocal down : Bool}
    {z : K} {config : ConfigLength K} {h : Heap K} {st : Interleaved} {input output : Gray} {f : Nat → Nat → K}
    (ha : BlockArgs h st input output f) (hnb : st.numBands = 2)
    {req : Nat} (h1 : 1 ≤ req) (hw : req ≤ input.width) (hh : req ≤ input.height)
    (hreq : config.computeIR rndD ((min input.width input.height : Nat) : K) h = .ok (req : Int) h)
    (hhuge : ∀ x y, x < input.width → y < input.height → f x y ≤ huge)
    (hsize : Grid.count input.width req * Grid.count input.height req * 2 < 4294967296)
    {Mx : K} (hf : ∀ x y, x < input.width → y < input.height → |f x y| ≤ Mx) (htiny : |tiny| ≤ Mx)
    (hbig : grown u η 3 (2 * c + 2) ((c + 1 : Nat) * (2 * Mx)) ≤ big) :
    ∃ b h' S, ∃ mn mx F : Nat → Nat → K,
      Blocks.processR rndD (BlockMinMaxF.ops (roundMinMaxF rnd scale huge tiny) minimumSpread useLocal down) z config st input output h = .ok b h' ∧
      (∀ i j, i < Grid.count input.width req → j < Grid.count input.height req →
        IsRectMin f (localLo useLocal input.width req i) (localHi useLocal input.width req i)
          (localLo useLocal input.height req j) (localHi useLocal input.height req j) (mn i j) ∧
        IsRectMax f (localLo useLocal input.width req i) (localHi useLocal input.width req i)
          (localLo useLocal input.height req j) (localHi useLocal input.height req j) (mx i j)) ∧
      Filtered h h' st b.stats output (Grid.count input.width req) (Grid.count input.height req) S F ∧
      ∀ x y, x < input.width → y < input.height →
        let lo := mn (Grid.blockOf input.width req x) (Grid.blockOf input.height req y)
        let hi := max (mx (Grid.blockOf input.width req x) (Grid.blockOf input.height req y)) tiny
        let T := scale * ((hi + lo) / 2)
        let E := roundError u η 3 (2 * c + 1) |T|
        (F x y = 0 ∨ F x y = 1) ∧
        (hi - lo ≤ minimumSpread → F x y = 1) ∧
        (minimumSpread + (u * |hi - lo| + η) < hi - lo →
          (f x y ≤ T - E → F x y = if down then 1 else 0) ∧ (T + E < f x y → F x y = if down then 0 else 1)) := by
  have hu := R.rel
  have hη := R.abs
  obtain ⟨e0, hr⟩ := processR_fixed (ops := BlockMinMaxF.ops (roundMinMaxF rnd scale huge tiny) minimumSpread useLocal down) (z := z) (st := st)
    ha.width ha.height hw ha.inValid.widthLt hreq
  obtain ⟨b, h', S, mn, mx, e, hm, hF⟩ := C40_minmax_float_all (roundMinMaxF rnd scale huge tiny) (minimumSpread := minimumSpread) (useLocal := useLocal)
    (down := down) (z := z) ha hnb h1 hw hh hr hhuge hsize
  refine ⟨b, h', S, mn, mx, _, by rw [e0, e], hm, hF, fun x y hx hy => ?_⟩
  have bx := (Grid.has_blockOf h1 hw hx).1
  have by' := (Grid.has_blockOf h1 hh hy).1
  obtain ⟨⟨-, x1, y1, a1, a2, a3, a4, a5⟩, -, x2, y2, b1, b2, b3, b4, b5⟩ := hm _ _ bx by'
  have bound : ∀ n i, i < Grid.count n req → req ≤ n → localHi useLocal n req i ≤ n := fun n i hi hn => by
    unfold localHi
    refine (Grid.lo_le h1 hn (b := Grid.last useLocal n req i) ?_).2
    unfold Grid.last
    cases useLocal <;> simp <;> omega
  have qx := bound _ _ bx hw
  have qy := bound _ _ by' hh
  have l1 : |mn (Grid.blockOf input.width req x) (Grid.blockOf input.height req y)| ≤ Mx := by
    rw [← a5]; exact hf _ _ (by omega) (by omega)
  have l2 : |max (mx (Grid.blockOf input.width req x) (Grid.blockOf input.height req y)) tiny| ≤ Mx := by
    rcases max_choice (mx (Grid.blockOf input.width req x) (Grid.blockOf input.height req y)) tiny with q | q
    · rw [q, ← b5]; exact hf _ _ (by omega) (by omega)
    · rw [q]; exact htiny
  intro lo hi T E
  change |lo| ≤ Mx at l1
  change |hi| ≤ Mx at l2
  have eb : ∀ b : Bool, (roundMinMaxF rnd scale huge tiny).bit b = if b = true then 1 else 0 := fun _ => rfl
  suffices key : ∀ v : K, v = (if (roundMinMaxF rnd scale huge tiny).sub hi lo ≤ minimumSpread then (roundMinMaxF rnd scale huge tiny).bit true
      else (roundMinMaxF rnd scale huge tiny).bit (down == decide (f x y ≤ (roundMinMaxF rnd scale huge tiny).mid hi lo))) →
      (v = 0 ∨ v = 1) ∧ (hi - lo ≤ minimumSpread → v = 1) ∧ (minimumSpread + (u * |hi - lo| + η) < hi - lo →
        (f x y ≤ T - E → v = if down then 1 else 0) ∧ (T + E < f x y → v = if down then 0 else 1)) from key _ rfl
  intro v hv
  rw [eb, eb] at hv
  have hT : T = scale * ((hi + lo) / 2) := rfl
  have hE : E = roundError u η 3 (2 * c + 1) |T| := rfl
  clear_value E T
  clear_value lo hi
  have hM0 : 0 ≤ Mx := le_trans (abs_nonneg _) l1
  have s1 : |hi + lo| ≤ 2 * Mx := le_trans (abs_add_le _ _) (by linarith)
  have s2 : |hi - lo| ≤ 2 * Mx := le_trans (abs_sub _ _) (by linarith)
  have c0 : (0 : K) ≤ c := Nat.cast_nonneg _
  have hc1 : (2 * Mx : K) ≤ (c + 1 : Nat) * (2 * Mx) := by push_cast; nlinarith
  have small : ∀ (n m : Nat) (A : K), n ≤ 3 → m ≤ 2 * c + 2 → 0 ≤ A → A ≤ (c + 1 : Nat) * (2 * Mx) → grown u η n m A ≤ big :=
    fun n m A hn hm hA hA2 => le_trans (grown_mono hu hη hA hA2 hn hm) hbig
  -- the spread
  obtain ⟨d, ed, hd⟩ := R.near (hi - lo) (le_trans (le_trans s2 hc1) (le_trans (grown_ge hu hη (by positivity)) hbig))
  have es : (roundMinMaxF rnd scale huge tiny).sub hi lo = d := by
    show (rnd (hi - lo)).getD 0 = d
    rw [ed, Option.getD_some]
  -- the threshold
  have w0 : Within u η 0 0 |hi + lo| (hi + lo) (hi + lo) := Within.exact R (le_refl _)
  obtain ⟨s, e1, w1⟩ := w0.round R (small _ _ _ (by omega) (by omega) (abs_nonneg _) (le_trans s1 hc1))
  have w2 := w1.quot R (d := 2) (by norm_num)
  have s3 : |hi + lo| / 2 ≤ 2 * Mx := by linarith [abs_nonneg (hi + lo)]
  obtain ⟨m, e2, w3⟩ := w2.round R (small _ _ _ (by omega) (by omega) (by positivity) (le_trans s3 hc1))
  have w4 := w3.times R (s := scale) hsc
  have s4 : |scale| * (|hi + lo| / 2) ≤ (c + 1 : Nat) * (2 * Mx) := by
    push_cast
    exact mul_le_mul (by linarith) s3 (by positivity) (by linarith)
  obtain ⟨t, e3, w5⟩ := w4.round R (small _ _ _ (by omega) (by omega) (by positivity) s4)
  have em : (roundMinMaxF rnd scale huge tiny).mid hi lo = t := by
    show ((rnd (hi + lo)).bind fun s => (rnd (s / 2)).bind fun m => rnd (scale * m)).getD 0 = t
    rw [e1, Option.bind_some, e2, Option.bind_some, e3, Option.getD_some]
  have hn : |t - T| ≤ E := by
    have h5 := w5.error
    rw [← hT] at h5
    rw [hE, hT, abs_mul, abs_div, abs_two, ← hT]
    refine le_trans h5 (le_of_eq ?_)
    rw [show 0 + 1 + 1 + 1 = 3 by rfl, show c * (0 + 1 + 1) + 1 = 2 * c + 1 by ring]
  rw [es, em] at hv
  have hn' := abs_le.1 hn
  have hd' := abs_le.1 hd
  refine ⟨?_, fun q => ?_, fun q => ?_⟩
  · rw [hv]
    split
    · right; rfl
    · split <;> simp
  · rw [hv, if_pos (G.mono _ _ _ _ q ed hms)]; rfl
  · rw [if_neg (show ¬ d ≤ minimumSpread by push Not; linarith)] at hv
    refine ⟨fun q => ?_, fun q => ?_⟩
    · rw [hv, decide_eq_true (show f x y ≤ t by linarith)]
      cases down <;> simp
    · rw [hv, decide_eq_false (show ¬ f x y ≤ t by push Not; linarith)]
      cases down <;> simp

/-- The hypotheses about the arithmetic hold for `float` with a texture limit of 0 or 10, a scale of at most 4, pixels up to 2^100. -/
example (Mx : ℚ) (h : 0 ≤ Mx) (hM : Mx ≤ 2 ^ 100) : float32 (0 : ℚ) = some 0 ∧ float32 (10 : ℚ) = some 10 ∧
    grown (1 / 2 ^ 24 : ℚ) (1 / 2 ^ 150) 3 (2 * 4 + 2) ((4 + 1 : Nat) * (2 * Mx)) ≤ 2 ^ 127 := by
  refine ⟨by decide +kernel, by decide +kernel, ?_⟩
  unfold grown
  norm_num at hM ⊢
  linarith

/-- The filter on the image of C40. -/
example : Blocks.processR float64 (BlockMinMaxF.ops (roundMinMaxF (float32 : ℚ → Option ℚ) 1 1000 (1 / 2 ^ 126)) (-1 : ℚ) false true) 0
    (ConfigLength.fixed (2 : ℚ)) ⟨2, 0, 0, 0, 2, 0, 0, false⟩ ⟨0, 10, 5, 2, 0, 5, false⟩ ⟨1, 10, 5, 2, 0, 5, false⟩
    (⟨[some [1/2, -2, 30, 10, 10, 3, 4, -10, 10, 20], some (List.replicate 10 9), some []]⟩ : Heap ℚ) =
    .ok ⟨⟨3, 4, 2, 1, 2, 0, 4, false⟩, 2, 2⟩
      ⟨[some [1/2, -2, 30, 10, 10, 3, 4, -10, 10, 20], some [1,1,0,1,1, 0,0,1,1,0], none, some [-2, 4, -10, 30]]⟩ := by decide +kernel

/-! ## Otsu -/

/-- Block Otsu filter on images of `float`, with the threshold computed in double precision: pixels between -1 and 256 (all others make the call
undefined, `C41_float_undefined`) are truncated to integers, which is exact; the threshold of each block is Otsu's threshold of these integers in
the local blocks up to the rounding errors stated in `NearTuned`. -/
theorem C114_otsu_float {otsu2 useLocal down : Bool} {tuning scale : K} (ht : |tuning| ≤ 1) (hs : 0 ≤ scale) (hs4 : scale ≤ 4)
    {z : K} {config : ConfigLength K} {h : Heap K} {st : Interleaved} {input output : Gray} {f : Nat → Nat → K}
    (ha : BlockArgs h st input output f) (hnb : st.numBands = 256)
    {req : Nat} (h1 : 1 ≤ req) (hw : req ≤ input.width) (hh : req ≤ input.height)
    (hreq : config.computeIR float64 ((min input.width input.height : Nat) : K) h = .ok (req : Int) h)
    (hr : ∀ x y, x < input.width → y < input.height → -1 < f x y ∧ f x y < 256)
    (harea : input.width * input.height < 2147483648)
    (hsize : Grid.count input.width req * Grid.count input.height req * 256 < 4294967296)
    (hlocal : ∀ i j, i < Grid.count input.width req → j < Grid.count input.height req →
      (localHi useLocal input.width req i - localLo useLocal input.width req i) *
        (localHi useLocal input.height req j - localLo useLocal input.height req j) ≤ 1048576) :
    ∃ b h' S, ∃ th : Nat → Nat → Int,
      Blocks.processR float64 (BlockOtsuF.opsWith exactOtsuF (fun a T => (ComputeOtsu.mk otsu2 tuning down scale).computeR float64 a T) down useLocal) z config st input output h = .ok b h' ∧
      (∀ i j, i < Grid.count input.width req → j < Grid.count input.height req →
        NearTuned K otsu2 down tuning scale 256
          ((localHi useLocal input.width req i - localLo useLocal input.width req i) *
            (localHi useLocal input.height req j - localLo useLocal input.height req j))
          (fun k => rectCount (fun x y => truncK (f x y)) k (localLo useLocal input.width req i) (localHi useLocal input.width req i)
            (localLo useLocal input.height req j) (localHi useLocal input.height req j)) (th i j)) ∧
      Filtered h h' st b.stats output (Grid.count input.width req) (Grid.count input.height req) S
        (fun x y => if down = decide (truncK (f x y) ≤ th (Grid.blockOf input.width req x) (Grid.blockOf input.height req y)) then 1 else 0) := by
  obtain ⟨p, hpf⟩ : ∃ p : Nat → Nat → Int, p = fun x y => truncK (f x y) := ⟨_, rfl⟩
  have hf : ∀ x y, x < input.width → y < input.height → 0 ≤ p x y ∧ p x y ≤ 255 := fun x y hx hy => by
    rw [hpf]; exact truncK_u8.mpr (hr x y hx hy)
  have hcv : ∀ x y, x < input.width → y < input.height → (exactOtsuF (K := K)).toU8 (f x y) = some (p x y) := fun x y hx hy => by
    have := hf x y hx hy
    rw [hpf] at this ⊢
    exact if_pos this
  have ep : ∀ x y, truncK (f x y) = p x y := fun x y => by rw [hpf]
  simp only [ep]
  have key : ∀ (i j : Nat), i < Grid.count input.width req → j < Grid.count input.height req →
      ∃ r : Int, (∀ h : Heap K, (ComputeOtsu.mk otsu2 tuning down scale).computeR float64 ⟨(List.range 256).map (fun k : Nat => rectCount p k
          (localLo useLocal input.width req i) (localHi useLocal input.width req i)
          (localLo useLocal input.height req j) (localHi useLocal input.height req j)), 256, 0, true⟩
        ((localHi useLocal input.width req i - localLo useLocal input.width req i) *
          (localHi useLocal input.height req j - localLo useLocal input.height req j)) h = .ok r h) ∧
        NearTuned K otsu2 down tuning scale 256
          ((localHi useLocal input.width req i - localLo useLocal input.width req i) *
            (localHi useLocal input.height req j - localLo useLocal input.height req j))
          (fun k => rectCount p k (localLo useLocal input.width req i) (localHi useLocal input.width req i)
          (localLo useLocal input.height req j) (localHi useLocal input.height req j)) r := by
    intro i j hi hj
    have hl := hlocal i j hi hj
    have nx := local_nonempty (u := useLocal) h1 hw hi
    have ny := local_nonempty (u := useLocal) h1 hh hj
    have lx := (Grid.lo_le h1 hw (Grid.last_lt (u := useLocal) hi)).2
    have ly := (Grid.lo_le h1 hh (Grid.last_lt (u := useLocal) hj)).2
    have ex : localHi useLocal input.width req i ≤ input.width := lx
    have ey : localHi useLocal input.height req j ≤ input.height := ly
    generalize localLo useLocal input.width req i = x0 at *
    generalize localHi useLocal input.width req i = x1 at *
    generalize localLo useLocal input.height req j = y0 at *
    generalize localHi useLocal input.height req j = y1 at *
    have hsum : sumN 256 (fun k : Nat => rectCount p k x0 x1 y0 y1) = (((x1 - x0) * (y1 - y0) : Nat) : Int) := by
      have := sumN_pixelCount (w := x1 - x0) (h := y1 - y0) (n := 256) (m := 0) (f := fun x y => p (x0 + x) (y0 + y))
        (fun x y hx hy => by have := hf (x0 + x) (y0 + y) (by omega) (by omega); omega)
      rw [← this]
      apply sumN_congr
      intro k _
      rw [Int.zero_add]; rfl
    have hget : ∀ k : Nat, k < 256 → ((List.range 256).map (fun k : Nat => rectCount p k x0 x1 y0 y1))[k]? =
        some (rectCount p k x0 x1 y0 y1) := fun k hk => range_map_get hk
    obtain ⟨t, raw, var, q, r, e, c1, c2, c3, c4, c5, c6, c7⟩ := C113_double (K := K) (V := K)
      (a := ⟨(List.range 256).map (fun k : Nat => rectCount p k x0 x1 y0 y1), 256, 0, true⟩)
      (hist := fun k => rectCount p k x0 x1 y0 y1) hget (fun k _ => (rectCount_le p k x0 x1 y0 y1).1) (le_refl _) hsum
      (Nat.mul_pos (by omega) (by omega)) hl otsu2 down ht hs hs4 ⟨[]⟩
    exact ⟨r, fun g => (Steady.computeR float64 _ _ _).ok e g, t, raw, var, q, c1, c2, c3, c4, c5, c6, c7⟩
  classical
  let th : Nat → Nat → Int := fun i j =>
    if q : i < Grid.count input.width req ∧ j < Grid.count input.height req then (key i j q.1 q.2).choose else 0
  have he : ∀ i j (hi : i < Grid.count input.width req) (hj : j < Grid.count input.height req),
      th i j = (key i j hi hj).choose := fun i j hi hj => dif_pos (And.intro hi hj)
  obtain ⟨e1, e2⟩ := processR_fixed (ops := BlockOtsuF.opsWith exactOtsuF (fun a T => (ComputeOtsu.mk otsu2 tuning down scale).computeR float64 a T) down useLocal) (z := z) (st := st) ha.width
    ha.height hw ha.inValid.widthLt hreq
  rw [e1]
  obtain ⟨b, h', S, e, hp⟩ := C41_otsu_float_with (K := K) (A := exactOtsuF (K := K)) (fun c => Int.floor_intCast c) (compute := fun a T => (ComputeOtsu.mk otsu2 tuning down scale).computeR float64 a T) (down := down)
    (useLocal := useLocal) (z := z) (th := th) ha hnb h1 hw hh e2 hcv hf
    harea hsize (fun i j h hi hj => by rw [he i j hi hj]; exact (key i j hi hj).choose_spec.1 h)
  refine ⟨b, h', S, th, e, fun i j hi hj => by rw [he i j hi hj]; exact (key i j hi hj).choose_spec.2, { hp with pix := fun x y hx hy => ?_ }⟩
  rw [hp.pix x y hx hy]
  show some (if (down == decide (p x y ≤ _)) = true then (1 : K) else 0) = _
  simp only [beq_iff_eq]

example : Blocks.processR float64 (BlockOtsuF.opsWith (exactOtsuF (K := ℚ))
      (fun a T => (ComputeOtsu.mk false (0 : ℚ) true 1).computeR float64 a T) true false) 0 (ConfigLength.fixed (2 : ℚ))
    ⟨2, 0, 0, 0, 256, 0, 0, false⟩ ⟨0, 4, 2, 2, 0, 2, false⟩ ⟨1, 4, 2, 2, 0, 2, false⟩
    (⟨[some [21/2, 20, 45/4, 87/4], some [9,9,9,9], some []]⟩ : Heap ℚ) =
    .ok ⟨⟨3, 256, 1, 1, 256, 0, 256, false⟩, 2, 2⟩
      ⟨[some [21/2, 20, 45/4, 87/4], some [1,0,1,0], none, some ((List.range 256).map (fun k => if k ∈ [10,11,20,21] then 1 else 0))]⟩ := by decide +kernel

end Boof
