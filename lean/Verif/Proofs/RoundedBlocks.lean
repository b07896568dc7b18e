import Verif.Spec.RoundedBlocks
import Verif.Model.RoundedBlocks
import Verif.Proofs.GaussRounding
/-
Rounding of block statistics; programs that neither read nor write the heap.
-/
namespace Boof
open M
variable {V K : Type} [Field K] [LinearOrder K] [IsStrictOrderedRing K] [FloorRing K] {rnd : K → Option K} {u η big : K}

/-- The result of `m` does not depend on the heap, which `m` does not change. -/
def Steady {α : Type} (m : M V α) : Prop :=
  (∃ a, ∀ h, m h = .ok a h) ∨ (∀ h, m h = .ub) ∨ (∀ h, m h = .throw h) ∨ ∀ h, m h = .timeout

namespace Steady
variable {α β : Type}

theorem pure (a : α) : Steady (Pure.pure a : M V α) := Or.inl ⟨a, fun _ => rfl⟩
theorem ub : Steady (M.ub : M V α) := Or.inr (Or.inl fun _ => rfl)

theorem bind {m : M V α} {f : α → M V β} (hm : Steady m) (hf : ∀ a, Steady (f a)) : Steady (m >>= f) := by
  have e : ∀ h, (m >>= f) h = (match m h with | .ok a s => f a s | .throw s => .throw s | .ub => .ub | .timeout => .timeout) := fun _ => rfl
  rcases hm with ⟨a, ha⟩ | ha | ha | ha
  · rcases hf a with ⟨b, hb⟩ | hb | hb | hb
    · exact Or.inl ⟨b, fun h => by rw [e, ha]; exact hb h⟩
    · exact Or.inr (Or.inl fun h => by rw [e, ha]; exact hb h)
    · exact Or.inr (Or.inr (Or.inl fun h => by rw [e, ha]; exact hb h))
    · exact Or.inr (Or.inr (Or.inr fun h => by rw [e, ha]; exact hb h))
  · exact Or.inr (Or.inl fun h => by rw [e, ha])
  · exact Or.inr (Or.inr (Or.inl fun h => by rw [e, ha]))
  · exact Or.inr (Or.inr (Or.inr fun h => by rw [e, ha]))

theorem opt (o : Option α) : Steady (Boof.opt o : M V α) := by
  cases o with
  | none => exact Or.inr (Or.inl fun _ => rfl)
  | some a => exact Or.inl ⟨a, fun _ => rfl⟩

theorem ite {c : Prop} [Decidable c] {m n : M V α} (hm : Steady m) (hn : Steady n) : Steady (if c then m else n) := by
  split
  · exact hm
  · exact hn

theorem toInt (t : IntTy) (v : K) : Steady (M.toInt t v : M V Int) := by
  unfold M.toInt
  exact ite (pure _) ub

theorem arith (t : IntTy) (v : Int) : Steady (t.arith v : M V Int) := by
  unfold IntTy.arith
  exact ite (ite (pure _) ub) (pure _)

theorem get (a : GrowArray Int) (i : Nat) : Steady (a.get i : M V Int) := by
  unfold GrowArray.get
  split
  · exact pure _
  · exact ub

theorem loopS {n : Nat} {s : β} {body : Nat → β → M V β} (hb : ∀ i s, Steady (body i s)) : Steady (M.loopS n s body) := by
  induction n with
  | zero => exact pure _
  | succ n ih => exact bind ih (fun s => hb n s)

/-- A result obtained once is obtained always. -/
theorem ok {m : M V α} (hm : Steady m) {a : α} {h h' : Heap V} (e : m h = .ok a h') (g : Heap V) : m g = .ok a g := by
  rcases hm with ⟨b, hb⟩ | hb | hb | hb
  · rw [hb] at e; cases e; exact hb g
  all_goals rw [hb] at e; cases e

theorem computeR (rnd : K → Option K) (o : ComputeOtsu K) (a : GrowArray Int) (T : Nat) : Steady (o.computeR rnd a T : M V Int) := by
  unfold ComputeOtsu.computeR
  refine bind ?_ (fun r => bind (opt _) fun m => bind (opt _) fun v => bind (opt _) fun a => bind (opt _) fun b => bind (opt _) fun c =>
    ite ub (bind (opt _) fun d => bind (opt _) fun e => bind (toInt _ _) fun f => bind (ite (arith _ _) (pure _)) fun g =>
      bind (opt _) fun h => bind (opt _) fun i => bind (opt _) fun j => toInt _ _))
  have ht : Steady (ComputeOtsu.totalR rnd a : M V K) := by
    unfold ComputeOtsu.totalR
    exact loopS fun i s => bind (get _ _) fun c => opt _
  have hs : ∀ S, Steady (ComputeOtsu.scanR rnd a S T : M V (ComputeOtsu.Scan K)) := by
    intro S
    unfold ComputeOtsu.scanR
    exact loopS fun i s => ite (pure _) (bind (get _ _) fun c => ite (pure _) (ite (pure _)
      (bind (opt _) fun d => bind (opt _) fun e => ite (pure _) (pure _))))
  split
  · unfold ComputeOtsu.computeOtsu2R
    exact bind ht fun S => bind (hs S) fun s => bind (opt _) fun x => bind (opt _) fun y => bind (opt _) fun z => pure _
  · unfold ComputeOtsu.computeOtsuR
    exact bind ht fun S => bind (hs S) fun s => pure _

end Steady

/-- A rounded size is in the range of `int`. -/
theorem computeIR_lt {c : ConfigLength K} {total : K} {h h' : Heap V} {n : Int} (e : c.computeIR rnd total h = .ok n h') : n ≤ 2147483647 := by
  unfold ConfigLength.computeIR at e
  cases e1 : c.computeR rnd total with
  | none => rw [optBind_none e1] at e; cases e
  | some s =>
    rw [optBind e1] at e
    split at e
    · cases e2 : rnd (s + 1 / 2) with
      | none => rw [optBind_none e2] at e; cases e
      | some t =>
        rw [optBind e2] at e
        unfold M.toInt at e
        split at e
        · next c => cases e; exact c.2
        · cases e
    · cases e; decide

/-! ## Means -/

/-- With scale 1 the block statistic is the mean rounded to the nearest integer. -/
theorem scaledR_exact (F : Format rnd) (R : Rounds rnd u η big) {M : Nat} (H : HalvesTo rnd M) {s n : Nat} (hn : 0 < n) (hs : 2 * s ≤ M) (hnM : 2 * n ≤ M)
    {Mx : Nat} (hmx : s ≤ Mx * n) (hMx : 2 * Mx + 1 ≤ M) (hbig : (Mx : K) + 1 ≤ big) (hfine : 2 * (n : K) * (3 * u * (Mx + 1) + 2 * η) < 1) :
    ∃ x, BlockMean.scaledR rnd 1 (s : Int) n = some x ∧ 0 ≤ x ∧ ⌊x⌋ = nearest (s : Int) n := by
  have hu := R.rel
  have hη := R.abs
  have hnK : (1 : K) ≤ n := by exact_mod_cast hn
  have hn0 : (0 : K) < n := by linarith
  have hs0 : (0 : K) ≤ s := Nat.cast_nonneg _
  have hM0 : (0 : K) ≤ Mx := Nat.cast_nonneg _
  have es : rnd (s : K) = some (s : K) := by
    have := H (2 * s) hs
    rwa [Nat.cast_mul, Nat.cast_ofNat, mul_div_cancel_left₀ _ (by norm_num)] at this
  have en : rnd (n : K) = some (n : K) := by
    have := H (2 * n) hnM
    rwa [Nat.cast_mul, Nat.cast_ofNat, mul_div_cancel_left₀ _ (by norm_num)] at this
  have hd0 : 0 ≤ (s : K) / n := div_nonneg hs0 hn0.le
  have hdM : (s : K) / n ≤ Mx := by
    rw [div_le_iff₀ hn0]; exact_mod_cast hmx
  obtain ⟨q, eq, hq⟩ := R.near ((s : K) / n) (by rw [abs_of_nonneg hd0]; linarith)
  rw [abs_of_nonneg hd0] at hq
  have hq0 : 0 ≤ q := F.nonneg hd0 eq
  have eM : rnd (Mx : K) = some (Mx : K) := by
    have := H (2 * Mx) (by omega)
    rwa [Nat.cast_mul, Nat.cast_ofNat, mul_div_cancel_left₀ _ (by norm_num)] at this
  have hqM : q ≤ Mx := F.mono _ _ _ _ hdM eq eM
  obtain ⟨x, ex, hx⟩ := R.near (q + 1 / 2) (by rw [abs_of_nonneg (by linarith)]; linarith)
  rw [abs_of_nonneg (show 0 ≤ q + 1 / 2 by linarith)] at hx
  have hx0 : 0 ≤ x := F.nonneg (by linarith) ex
  refine ⟨x, ?_, hx0, ?_⟩
  · have es' : rnd (((s : Int)) : K) = some (s : K) := by rw [Int.cast_natCast]; exact es
    unfold BlockMean.scaledR
    simp only [es', en, one_mul, es, eq, ex, Option.bind_eq_bind, Option.bind_some]
  -- the nearest integer
  have hk0 : 0 ≤ nearest (s : Int) n := Int.ediv_nonneg (by omega) (by omega)
  obtain ⟨k, hk⟩ := Int.eq_ofNat_of_zero_le hk0
  have hpos : (0 : Int) < 2 * (n : Int) := by omega
  have k1 : (k : Int) * (2 * n) ≤ 2 * s + n := by
    have := Int.ediv_mul_le (2 * (s : Int) + n) hpos.ne'
    unfold nearest at hk; rw [hk] at this; exact this
  have k2 : 2 * (s : Int) + n < (k + 1) * (2 * n) := by
    have := Int.lt_ediv_add_one_mul_self (2 * (s : Int) + n) hpos
    unfold nearest at hk; rw [hk] at this; exact this
  rw [hk, Int.floor_eq_iff]
  have k1K : (k : K) * (2 * n) ≤ 2 * s + n := by exact_mod_cast k1
  have k2K : 2 * (s : K) + n + 1 ≤ (k + 1) * (2 * n) := by exact_mod_cast k2
  have kM : 2 * k ≤ 2 * Mx + 1 := by
    by_contra hc
    have h1 : (Mx + 1) * (2 * n) ≤ k * (2 * n) := Nat.mul_le_mul_right _ (by omega)
    have h2 : k * (2 * n) ≤ 2 * s + n := by exact_mod_cast k1
    nlinarith
  constructor
  · -- halves and integers are not changed by rounding, which keeps the order
    rw [Int.cast_natCast]
    rcases Nat.eq_zero_or_pos k with c | c
    · rw [c, Nat.cast_zero]; exact hx0
    · have hh : rnd ((k : K) - 1 / 2) = some ((k : K) - 1 / 2) := by
        have := H (2 * k - 1) (by omega)
        rwa [Nat.cast_sub (by omega), Nat.cast_mul, Nat.cast_ofNat, Nat.cast_one,
          show (2 * (k : K) - 1) / 2 = (k : K) - 1 / 2 by ring] at this
      have h1 : (k : K) - 1 / 2 ≤ (s : K) / n := by
        rw [le_div_iff₀ hn0]; linarith
      have h2 : (k : K) - 1 / 2 ≤ q := F.mono _ _ _ _ h1 hh eq
      have hi : rnd (k : K) = some (k : K) := by
        have := H (2 * k) (by omega)
        rwa [Nat.cast_mul, Nat.cast_ofNat, mul_div_cancel_left₀ _ (by norm_num)] at this
      exact F.mono _ _ _ _ (by linarith) hi ex
  · rw [Int.cast_natCast]
    have h1 : (s : K) / n + 1 / 2 + 1 / (2 * n) ≤ k + 1 := by
      have : (s : K) / n + 1 / 2 + 1 / (2 * n) = (2 * s + n + 1) / (2 * n) := by field_simp
      rw [this, div_le_iff₀ (by linarith)]
      exact k2K
    have h2 := (abs_le.mp hq).2
    have h3 := (abs_le.mp hx).2
    have h4 : u * (s / n) ≤ u * (Mx + 1) := mul_le_mul_of_nonneg_left (by linarith) hu
    have h5 : u * (q + 1 / 2) ≤ u * (Mx + 1) := mul_le_mul_of_nonneg_left (by linarith) hu
    have h6 : 3 * u * (Mx + 1) + 2 * η < 1 / (2 * n) := by
      rw [lt_div_iff₀ (by linarith)]; linarith
    have h7 : 0 ≤ u * (Mx + 1) := mul_nonneg hu (by linarith)
    linarith

/-- The error of a rounded product with a rounded integer. -/
theorem scaledProduct_near {scale a p m u η : K} {s n : K} (hu : 0 ≤ u) (hsc : 0 ≤ scale) (hmn : scale * s = m * n) (ha2 : |a - s| ≤ 2 * u * s)
    (hsa2 : scale * a ≤ 2 * (scale * s)) (hp : |p - scale * a| ≤ u * (scale * a) + η) : |p - m * n| ≤ (4 * (u * m)) * n + η := by
  obtain ⟨p1, p2⟩ := abs_le.mp hp
  have e1 : |scale * a - scale * s| ≤ 2 * u * (scale * s) := by
    rw [← mul_sub, abs_mul, abs_of_nonneg hsc]
    calc scale * |a - s| ≤ scale * (2 * u * s) := mul_le_mul_of_nonneg_left ha2 hsc
      _ = _ := by ring
  obtain ⟨q1, q2⟩ := abs_le.mp e1
  have e2 : u * (scale * a) ≤ u * (2 * (scale * s)) := mul_le_mul_of_nonneg_left hsa2 hu
  rw [hmn] at q1 q2 e2
  have e3 : u * (m * n) = (u * m) * n := by ring
  rw [abs_le]
  constructor
  · linarith only [p1, q1, e2, e3]
  · linarith only [p2, q2, e2, e3]

/-- The error of a quotient by a rounded integer. -/
theorem scaledRatio_near {p b m n u η : K} (hu : 0 ≤ u) (hu100 : 100 * u ≤ 1) (hη : 0 ≤ η) (hm0 : 0 ≤ m) (hn : 1 ≤ n) (hb1 : 1 ≤ b)
    (hbn : |b - n| ≤ 2 * u * n) (d1 : |p - m * n| ≤ (4 * (u * m)) * n + η) : |p / b - m| ≤ 7 * (u * m) + η := by
  have hb0 : 0 < b := by linarith only [hb1]
  have hum0 : 0 ≤ u * m := mul_nonneg hu hm0
  have h1 : p / b - m = (p - m * b) / b := by field_simp
  rw [h1, abs_div, abs_of_pos hb0, div_le_iff₀ hb0]
  have h2 : |m * n - m * b| ≤ 2 * (u * m) * n := by
    rw [← mul_sub, abs_mul, abs_of_nonneg hm0, abs_sub_comm]
    calc m * |b - n| ≤ m * (2 * u * n) := mul_le_mul_of_nonneg_left hbn hm0
      _ = _ := by ring
  obtain ⟨x1, x2⟩ := abs_le.mp d1
  obtain ⟨y1, y2⟩ := abs_le.mp h2
  obtain ⟨b1, b2⟩ := abs_le.mp hbn
  have hun : 100 * u * n ≤ 1 * n := mul_le_mul_of_nonneg_right hu100 (by linarith only [hn])
  have hnb : n ≤ 21 / 20 * b := by linarith only [hun, b1, hn]
  have h3 : (u * m) * n ≤ (u * m) * (21 / 20 * b) := mul_le_mul_of_nonneg_left hnb hum0
  have h4 : η * 1 ≤ η * b := mul_le_mul_of_nonneg_left hb1 hη
  have h5 : 0 ≤ (u * m) * b := mul_nonneg hum0 hb0.le
  have h6 : (7 * (u * m) + η) * b = 7 * ((u * m) * b) + η * b := by ring
  have h7 : (u * m) * (21 / 20 * b) = 21 / 20 * ((u * m) * b) := by ring
  rw [h6, abs_le]
  constructor
  · linarith only [x1, y1, h3, h4, h5, h7]
  · linarith only [x2, y2, h3, h4, h5, h7]

/-- The error of the last two roundings. -/
theorem scaledHalf_near {c q x m u η : K} (hu : 0 ≤ u) (hu100 : 100 * u ≤ 1) (hη : η ≤ u) (hη0 : 0 ≤ η) (hm0 : 0 ≤ m) (hc : |c - m| ≤ 7 * (u * m) + η)
    (hq : |q - c| ≤ u * c + η) (hx : |x - (q + 1 / 2)| ≤ u * (q + 1 / 2) + η) :
    q ≤ 2 * m + 1 ∧ |x - (m + 1 / 2)| ≤ scaledError u η m := by
  obtain ⟨z1, z2⟩ := abs_le.mp hc
  obtain ⟨q1, q2⟩ := abs_le.mp hq
  obtain ⟨x1, x2⟩ := abs_le.mp hx
  have hum : 100 * u * m ≤ 1 * m := mul_le_mul_of_nonneg_right hu100 hm0
  have h8 : u * c ≤ u * (107 / 100 * m + 1 / 100) := mul_le_mul_of_nonneg_left (by linarith only [z2, hum, hη, hu100]) hu
  have h12 : u * (107 / 100 * m + 1 / 100) = 107 / 100 * (u * m) + u / 100 := by ring
  have h9 : q ≤ 11 / 10 * m + 1 / 10 := by linarith only [z2, hum, hη, hu100, q2, h8, h12, hm0]
  have h10 : u * (q + 1 / 2) ≤ u * (11 / 10 * m + 1) := mul_le_mul_of_nonneg_left (by linarith only [h9]) hu
  have h11 : u * (11 / 10 * m + 1) = 11 / 10 * (u * m) + u := by ring
  have h13 : 10 * u * (m + 1) = 10 * (u * m) + 10 * u := by ring
  have h14 : 0 ≤ u * m := mul_nonneg hu hm0
  refine ⟨by linarith only [h9, hm0], ?_⟩
  unfold scaledError
  rw [h13, abs_le]
  constructor
  · linarith only [x1, q1, z1, h8, h12, h10, h11, h14, hu, hη0]
  · linarith only [x2, q2, z2, h8, h12, h10, h11, h14, hu, hη0]

/-- In general it is the scaled mean rounded to an integer, up to rounding errors. -/
theorem scaledR_near (F : Format rnd) (R : Rounds rnd u η big) (hu100 : 100 * u ≤ 1) (hηu : η ≤ u) {scale : K} (hsc : 0 ≤ scale) {s n : Nat} (hn : 0 < n)
    (hb : 4 * (scale + 1) * ((s : K) + 1) + 4 * n ≤ big) :
    ∃ x, BlockMean.scaledR rnd scale (s : Int) n = some x ∧ 0 ≤ x ∧
      |x - (scale * s / n + 1 / 2)| ≤ scaledError u η (scale * s / n) := by
  have hu := R.rel
  have hη := R.abs
  have hnK : (1 : K) ≤ n := by exact_mod_cast hn
  have hn0 : (0 : K) < n := by linarith only [hnK]
  have hs0 : (0 : K) ≤ s := Nat.cast_nonneg _
  have hss : 0 ≤ scale * s := mul_nonneg hsc hs0
  have hb' : 4 * (scale * s) + 4 * s + 4 + 4 * n ≤ big := by
    have : 4 * (scale + 1) * ((s : K) + 1) = 4 * (scale * s) + 4 * scale + 4 * s + 4 := by ring
    linarith only [hb, this, hsc]
  obtain ⟨a, ea, ha⟩ := R.near (s : K) (by rw [abs_of_nonneg hs0]; linarith only [hb', hss, hs0, hn0])
  rw [abs_of_nonneg hs0] at ha
  have ha0 : 0 ≤ a := F.nonneg hs0 ea
  have ha2 : |a - s| ≤ 2 * u * s := by
    rcases Nat.eq_zero_or_pos s with c | c
    · subst c
      have : a = 0 := by
        have h0 : rnd ((0 : Nat) : K) = some 0 := by rw [Nat.cast_zero]; exact F.zero
        rw [h0] at ea; cases ea; rfl
      rw [this]; simp
    · have h1 : (1 : K) ≤ s := by exact_mod_cast c
      have h2 : u * 1 ≤ u * s := mul_le_mul_of_nonneg_left h1 hu
      linarith only [ha, h2, hηu]
  have hus : 100 * u * s ≤ 1 * s := mul_le_mul_of_nonneg_right hu100 hs0
  have ha3 : a ≤ 2 * s := by linarith only [hus, (abs_le.mp ha2).2, hs0]
  have hsa : 0 ≤ scale * a := mul_nonneg hsc ha0
  have hsa2 : scale * a ≤ 2 * (scale * s) := by
    have := mul_le_mul_of_nonneg_left ha3 hsc
    linarith only [this]
  obtain ⟨p, ep, hp⟩ := R.near (scale * a) (by rw [abs_of_nonneg hsa]; linarith only [hsa2, hb', hss, hs0, hn0])
  rw [abs_of_nonneg hsa] at hp
  have hp0 : 0 ≤ p := F.nonneg hsa ep
  obtain ⟨b, eb, hbn⟩ := R.near (n : K) (by rw [abs_of_nonneg hn0.le]; linarith only [hb', hss, hs0, hn0])
  rw [abs_of_nonneg hn0.le] at hbn
  have hb1 : 1 ≤ b := F.mono _ _ _ _ hnK F.one eb
  have hb0 : 0 < b := by linarith only [hb1]
  have hun : u * 1 ≤ u * n := mul_le_mul_of_nonneg_left hnK hu
  generalize hm : scale * s / n = m
  have hmn : scale * s = m * n := by rw [← hm]; field_simp
  have hm0 : 0 ≤ m := by rw [← hm]; exact div_nonneg hss hn0.le
  have d1 := scaledProduct_near hu hsc hmn ha2 hsa2 hp
  have d2 := scaledRatio_near hu hu100 hη hm0 hnK hb1 (by linarith only [hbn, hun, hηu]) d1
  have hpb : 0 ≤ p / b := div_nonneg hp0 hb0.le
  have hmss : m ≤ scale * s := by
    rw [hmn]
    have := mul_le_mul_of_nonneg_left hnK hm0
    linarith only [this]
  have hum : 100 * u * m ≤ 1 * m := mul_le_mul_of_nonneg_right hu100 hm0
  have hcb : p / b ≤ 2 * m + 1 := by linarith only [(abs_le.mp d2).2, hum, hηu, hu100, hm0]
  obtain ⟨q, eq, hq⟩ := R.near (p / b) (by rw [abs_of_nonneg hpb]; linarith only [hcb, hmss, hb', hss, hs0, hn0])
  rw [abs_of_nonneg hpb] at hq
  have hq0 : 0 ≤ q := F.nonneg hpb eq
  have hqb : q ≤ 3 * m + 2 := by
    have h1 : 100 * u * (p / b) ≤ 1 * (p / b) := mul_le_mul_of_nonneg_right hu100 hpb
    linarith only [(abs_le.mp hq).2, hcb, h1, hηu, hu100, hm0]
  obtain ⟨x, ex, hx⟩ := R.near (q + 1 / 2) (by
    rw [abs_of_nonneg (by linarith only [hq0])]; linarith only [hqb, hmss, hb', hss, hs0, hn0])
  rw [abs_of_nonneg (show 0 ≤ q + 1 / 2 by linarith only [hq0])] at hx
  refine ⟨x, ?_, F.nonneg (by linarith only [hq0]) ex, (scaledHalf_near hu hu100 hηu hη hm0 d2 hq hx).2⟩
  have ea' : rnd (((s : Int)) : K) = some a := by rw [Int.cast_natCast]; exact ea
  unfold BlockMean.scaledR
  simp only [ea', ep, eb, eq, ex, Option.bind_eq_bind, Option.bind_some]

end Boof
