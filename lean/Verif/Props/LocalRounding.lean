import Verif.Props.GaussRounding
import Verif.Props.Range
import Verif.Props.Config
import Verif.Props.Rounding
import Verif.Spec.Local
/-
C110: the local mean threshold and its configuration with rounded arithmetic.  C36 and C56 are about exact arithmetic.
-/
namespace Boof
open M
variable {V K : Type} [Field K] [LinearOrder K] [IsStrictOrderedRing K] [FloorRing K] {rnd rndD : K → Option K} {u η big : K}

/-! ## Sizes -/

theorem computeR_some {c : ConfigLength K} {total : K} {s : K} (hs : rnd (c.fraction * total) = some s) :
    c.computeR rnd total = some (if 0 ≤ c.fraction then max s c.length else c.length) := by
  unfold ConfigLength.computeR
  by_cases h : c.fraction ≥ 0
  · rw [if_pos h, if_pos h, hs]; rfl
  · rw [if_neg h, if_neg h]; rfl

theorem computeIR_run {c : ConfigLength K} {total s t : K} (e1 : c.computeR rnd total = some s) (hs : 0 ≤ s) (e2 : rnd (s + 1 / 2) = some t)
    (ht : 0 ≤ t) (hb : t < 2147483648) (h : Heap V) : c.computeIR rnd total h = .ok ⌊t⌋ h := by
  unfold ConfigLength.computeIR
  rw [opt_bind e1, if_pos hs, opt_bind e2]
  unfold M.toInt
  have hr : S32.InRange ⌊t⌋ := by
    constructor
    · exact le_trans (by decide : S32.lo ≤ 0) (Int.floor_nonneg.mpr ht)
    · have : ⌊t⌋ < 2147483648 := by rw [Int.floor_lt]; push_cast; exact hb
      exact Int.le_of_lt_add_one this
  simp only [truncK_nonneg ht, hr, if_true]
  rfl

/-- `ConfigLength::computeI` with rounding: the result is a whole number at most one half away from the configured size, up to three roundings
of the size. -/
theorem C110_width (R : Rounds rnd u η big) (F : Format rnd) (hu : 10 * u ≤ 1) {c : ConfigLength K} (hc : 0 ≤ c.length ∨ 0 ≤ c.fraction) {total : K}
    (ht : 0 ≤ total) (hb : c.compute total + 1 ≤ 1000000000) (hη : η ≤ 1) (hbig : 2000000000 ≤ big) (h : Heap V) :
    ∃ n : Int, c.computeIR rnd total h = .ok n h ∧ 0 ≤ n ∧
      (n : K) - 1/2 - (3 * u * (c.compute total + 1) + 2 * η) ≤ c.compute total ∧
      c.compute total < n + 1/2 + (3 * u * (c.compute total + 1) + 2 * η) := by
  have hu0 := R.rel
  have hη0 := R.abs
  have hs : 0 ≤ c.compute total := by
    unfold ConfigLength.compute
    split
    · rename_i hf
      exact le_trans (mul_nonneg hf ht) (le_max_left _ _)
    · rename_i hf
      exact hc.resolve_right hf
  -- the size
  have hsize : ∃ s, c.computeR rnd total = some s ∧ 0 ≤ s ∧ |s - c.compute total| ≤ u * c.compute total + η := by
    unfold ConfigLength.computeR
    by_cases hf : c.fraction ≥ 0
    · have ec : c.compute total = max (c.fraction * total) c.length := if_pos hf
      rw [ec] at hb hs ⊢
      rw [if_pos hf]
      have hp : 0 ≤ c.fraction * total := mul_nonneg hf ht
      obtain ⟨s, es, hs'⟩ := R.near (c.fraction * total) (by rw [abs_of_nonneg hp]; have := le_max_left (c.fraction * total) c.length; linarith)
      rw [abs_of_nonneg hp] at hs'
      have h0 : 0 ≤ s := F.mono _ _ _ _ hp F.zero es
      refine ⟨max s c.length, by rw [es]; rfl, le_trans h0 (le_max_left _ _), le_trans (abs_max_sub_max_le_max _ _ _ _) ?_⟩
      rw [sub_self, abs_zero, max_eq_left (abs_nonneg _)]
      have := mul_le_mul_of_nonneg_left (le_max_left (c.fraction * total) c.length) hu0
      linarith
    · have ec : c.compute total = c.length := if_neg hf
      rw [ec] at hb hs ⊢
      rw [if_neg hf]
      exact ⟨_, rfl, hs, by rw [sub_self, abs_zero]; exact add_nonneg (mul_nonneg hu0 hs) hη0⟩
  obtain ⟨s, es, hs0, hs1⟩ := hsize
  generalize c.compute total = S at *
  have huS : u * S ≤ S := by nlinarith
  have hsb := abs_le.mp hs1
  obtain ⟨t, et, ht1⟩ := R.near (s + 1 / 2) (by rw [abs_of_nonneg (by linarith)]; linarith)
  rw [abs_of_nonneg (by linarith : (0 : K) ≤ s + 1 / 2)] at ht1
  have htb := abs_le.mp ht1
  have ht0 : 0 ≤ t := F.mono _ _ _ _ (by linarith) F.zero et
  have h1 : u * (s + 1 / 2) ≤ u * (2 * S + 3 / 2) := mul_le_mul_of_nonneg_left (by linarith) hu0
  have h2 : u * (s + 1 / 2) ≤ 2 * u * (S + 1) := by
    have : u * (2 * S + 3 / 2) ≤ 2 * u * (S + 1) := by nlinarith
    linarith
  have huS1 : 10 * (u * (S + 1)) ≤ S + 1 := by nlinarith
  have h3 : u * S ≤ u * (S + 1) := mul_le_mul_of_nonneg_left (by linarith) hu0
  refine ⟨⌊t⌋, computeIR_run es hs0 et ht0 (by linarith) h, Int.floor_nonneg.mpr ht0, ?_, ?_⟩
  · have := Int.floor_le t; linarith
  · have := Int.lt_floor_add_one t; linarith

/-- A fixed whole number of pixels is kept exactly. -/
theorem C110_width_fixed {n : Nat} (hr : rnd ((n : K) + 1 / 2) = some ((n : K) + 1 / 2)) (hn : n < 2147483647) (total : K) (h : Heap V) :
    (ConfigLength.fixed (n : K)).computeIR rnd total h = .ok (n : Int) h := by
  have e : (ConfigLength.fixed (n : K)).computeR rnd total = some (n : K) := by
    unfold ConfigLength.computeR ConfigLength.fixed
    rw [if_neg (by simp)]; rfl
  have hn0 : (0 : K) ≤ (n : K) := Nat.cast_nonneg n
  rw [computeIR_run e hn0 hr (by linarith) (by
    have : (n : K) + 1 ≤ 2147483647 := by exact_mod_cast hn
    linarith) h]
  congr 1
  rw [Int.floor_eq_iff]
  constructor <;> push_cast <;> linarith

/-- A larger image never gets a smaller region. -/
theorem C110_width_mono (F : Format rnd) {c : ConfigLength K} {total total' : K} (hle : total ≤ total') {n n' : Int} {h : Heap V}
    (e : c.computeIR rnd total h = .ok n h) (e' : c.computeIR rnd total' h = .ok n' h) : n ≤ n' := by
  have hsize : ∀ s s', c.computeR rnd total = some s → c.computeR rnd total' = some s' → s ≤ s' := by
    intro s s' q q'
    unfold ConfigLength.computeR at q q'
    by_cases hf : c.fraction ≥ 0
    · rw [if_pos hf] at q q'
      cases hp : rnd (c.fraction * total) with
      | none => rw [hp] at q; cases q
      | some p =>
        cases hp' : rnd (c.fraction * total') with
        | none => rw [hp'] at q'; cases q'
        | some p' =>
          rw [hp] at q; rw [hp'] at q'
          cases q; cases q'
          exact max_le_max (F.mono _ _ _ _ (mul_le_mul_of_nonneg_left hle hf) hp hp') (le_refl _)
    · rw [if_neg hf] at q q'
      cases q; cases q'; exact le_refl _
  unfold ConfigLength.computeIR at e e'
  cases hs : c.computeR rnd total with
  | none => rw [hs] at e; cases e
  | some s =>
    cases hs' : c.computeR rnd total' with
    | none => rw [hs'] at e'; cases e'
    | some s' =>
      rw [opt_bind hs] at e
      rw [opt_bind hs'] at e'
      have hss := hsize s s' hs hs'
      have trunc : ∀ (t : K) (n : Int), M.toInt (V := V) S32 t h = .ok n h → n = truncK t := fun t n e => by
        unfold M.toInt at e
        split at e
        · cases e; rfl
        · cases e
      by_cases h0 : s' ≥ 0
      · rw [if_pos h0] at e'
        cases ht' : rnd (s' + 1 / 2) with
        | none => rw [ht'] at e'; cases e'
        | some t' =>
          rw [opt_bind ht'] at e'
          have hn' := trunc _ _ e'
          have ht0' : 0 ≤ t' := F.mono _ _ _ _ (by linarith) F.zero ht'
          rw [truncK_nonneg ht0'] at hn'
          by_cases h1 : s ≥ 0
          · rw [if_pos h1] at e
            cases ht : rnd (s + 1 / 2) with
            | none => rw [ht] at e; cases e
            | some t =>
              rw [opt_bind ht] at e
              have hn := trunc _ _ e
              have ht0 : 0 ≤ t := F.mono _ _ _ _ (by linarith) F.zero ht
              rw [truncK_nonneg ht0] at hn
              rw [hn, hn']
              exact Int.floor_le_floor (F.mono _ _ _ _ (by linarith) ht ht')
          · rw [if_neg h1] at e
            cases e
            have := Int.floor_nonneg.mpr ht0'
            omega
      · rw [if_neg h0] at e'
        rw [if_neg (by push Not at h0 ⊢; exact lt_of_le_of_lt hss h0)] at e
        cases e; cases e'; exact le_refl _

/-- The rounding is not the nearest integer: 0.49999999999999994, the largest `double` below one half, becomes 1.  (The comment in the source
knows about this.) -/
theorem C110_width_refuted (h : Heap V) : ∃ c : ConfigLength ℚ, 0 ≤ c.length ∧ c.compute 100 < 1 / 2 ∧
    float64 c.length = some c.length ∧ c.computeIR float64 100 h = .ok 1 h :=
  ⟨ConfigLength.fixed (1 / 2 - 1 / 2 ^ 54), by unfold ConfigLength.fixed; norm_num,
    by unfold ConfigLength.compute ConfigLength.fixed; norm_num, by decide +kernel, by
    have e : (ConfigLength.fixed (1 / 2 - 1 / 2 ^ 54) : ConfigLength ℚ).computeR float64 100 = some (1 / 2 - 1 / 2 ^ 54) := by decide +kernel
    have e2 : float64 ((1 / 2 - 1 / 2 ^ 54) + 1 / 2 : ℚ) = some 1 := by decide +kernel
    rw [computeIR_run e (by norm_num) e2 (by norm_num) (by norm_num) h]
    simp⟩

/-- `ConfigLength::relative(0.1, 5)` of an image with 1005 pixels: 0.1 is not a `double`, the product rounds to 100.5, and the result is 101 as for the
decimal fraction. -/
example (h : Heap V) : float64 (1 / 10 : ℚ) = some (3602879701896397 / 2 ^ 55) ∧
    (ConfigLength.relative (3602879701896397 / 2 ^ 55 : ℚ) 5).computeIR float64 1005 h = .ok 101 h := by
  refine ⟨by decide +kernel, ?_⟩
  have e : (ConfigLength.relative (3602879701896397 / 2 ^ 55 : ℚ) 5).computeR float64 1005 = some (201 / 2) := by decide +kernel
  have e2 : float64 (201 / 2 + 1 / 2 : ℚ) = some 101 := by decide +kernel
  rw [computeIR_run e (by norm_num) e2 (by norm_num) (by norm_num) h]
  congr 1

/-! ## The comparison -/

/-- The comparison with rounding, for pixels which the floating point type has. -/
theorem localBit_near (R : Rounds rnd u η big) (F : Format rnd) {conv : V → Option K} {scale a b : K} {v m : V} (ha : conv v = some a)
    (hb : conv m = some b) (ra : rnd a = some a) (rb : rnd b = some b) (down : Bool) (h1 : |a * scale| ≤ big) (h2 : |b * scale| ≤ big) :
    ∃ w, ThresholdOps.localBit rnd conv scale down v m = some w ∧ LocalBit rnd scale down a b w := by
  unfold ThresholdOps.localBit
  cases down with
  | true =>
    obtain ⟨p, hp, -⟩ := R.near (b * scale) h2
    refine ⟨decide (a ≤ p), by rw [ha, hb]; simp [hp], fun _ => ?_, fun h => by cases h⟩
    rw [decide_eq_true_iff, hp]
    constructor
    · intro h
      rcases le_or_gt a (b * scale) with h1 | h1
      · exact Or.inl h1
      · exact Or.inr (congrArg some (le_antisymm (F.mono _ _ _ _ h1.le hp ra) h))
    · rintro (h | h)
      · exact F.mono _ _ _ _ h ra hp
      · exact le_of_eq (Option.some.inj h).symm
  | false =>
    obtain ⟨p, hp, -⟩ := R.near (a * scale) h1
    refine ⟨decide (p > b), by rw [ha, hb]; simp [hp], (fun h => by cases h), fun _ => ?_⟩
    rw [decide_eq_true_iff, hp]
    constructor
    · intro h
      refine ⟨?_, fun e => absurd (Option.some.inj e) (ne_of_gt h)⟩
      rcases lt_or_ge b (a * scale) with h1 | h1
      · exact h1
      · exact absurd (F.mono _ _ _ _ h1 hp rb) (not_le.mpr h)
    · rintro ⟨h, hne⟩
      exact lt_of_le_of_ne (F.mono _ _ _ _ h.le rb hp) (fun e => hne (congrArg some e.symm))

/-- So the output is exact except for pixels within one rounding of the threshold. -/
theorem C110_near (R : Rounds rnd u η big) {scale a b : K} {down w : Bool} (hw : LocalBit rnd scale down a b w) (h1 : |a * scale| ≤ big)
    (h2 : |b * scale| ≤ big) : LocalNear (u * |if down then b * scale else a * scale| + η) scale down a b w := by
  have hu := R.rel
  have hη := R.abs
  cases down with
  | true =>
    have hd := hw.down rfl
    obtain ⟨p, hp, hpb⟩ := R.near (b * scale) h2
    have h0 : 0 ≤ u * |b * scale| := mul_nonneg hu (abs_nonneg _)
    refine ⟨fun _ => ⟨fun h => hd.mpr (Or.inl ?_), fun h => ?_⟩, fun h => by cases h⟩
    · rw [if_pos rfl] at h; linarith
    · rw [if_pos rfl]
      rcases hd.mp h with h1 | h1
      · linarith
      · rw [hp] at h1; cases h1
        have := le_abs_self (a - b * scale); linarith
  | false =>
    have hd := hw.up rfl
    obtain ⟨p, hp, hpb⟩ := R.near (a * scale) h1
    have h0 : 0 ≤ u * |a * scale| := mul_nonneg hu (abs_nonneg _)
    refine ⟨(fun h => by cases h), fun _ => ⟨fun h => hd.mpr ⟨?_, fun e => ?_⟩, fun h => ?_⟩⟩
    · rw [if_neg (by decide)] at h; linarith
    · rw [if_neg (by decide)] at h
      rw [hp] at e; cases e
      have := neg_abs_le (b - a * scale); linarith
    · rw [if_neg (by decide)]
      have := (hd.mp h).1
      linarith

/-- `ThresholdOps::localMean` for integral pixels, with the comparison and the size rounded.  The pixels are numbers of the floating point type
(`hx`), as all pixels of 8 and 16 bits are.  MISSING as in C36: `hshape`. -/
theorem C110_localMean_partial (R : Rounds rnd u η big) (F : Format rnd) {t : IntTy} (ht : t ∈ [U8, U16, S16, S32, S64]) (junk : Nat → Int)
    {h : Heap Int} {input output storage1 storage2 : Gray} {f : Nat → Nat → Int} {width : ConfigLength K} {scale : K} {down : Bool}
    {n : Nat} {P : Int}
    (hn : ∀ h : Heap Int, width.computeIR rndD ((min input.width input.height : Nat) : K) h = .ok n h) (hn2 : 2 ≤ n)
    (hi : input.Valid h) (ho : output.Valid h) (hs1 : storage1.Valid h) (hs2 : storage2.Valid h) (hf : input.Shows h f)
    (hc : output.CanBe input.width input.height) (hc1 : storage1.CanBe input.width input.height)
    (hc2 : storage2.CanBe input.width input.height)
    (ds : input.Sep output input.width input.height) (d1 : input.Sep storage1 input.width input.height)
    (d2 : input.Sep storage2 input.width input.height)
    (n1 : storage1.buf ≠ output.buf) (n2 : storage2.buf ≠ output.buf) (n12 : storage2.buf ≠ storage1.buf)
    (hb : input.width + (n + 1) ≤ 2147483648) (hb2 : input.height + (n + 1) ≤ 2147483648)
    (hl : input.dataLength < 2147483648) (hls : storage2.dataLength < 2147483648)
    (hshape : 2 * (n / 2) + 1 ≤ input.height ∨ input.width < 2 * (n / 2) + 1) (hP : 0 ≤ P) (hPh : P ≤ t.hi)
    (hpix : ∀ x y, x < input.width → y < input.height → t.InRange (f x y) ∧ |f x y| ≤ P)
    (hov : (n + 1 : Nat) * (P + 1) ≤ t.signedType.hi)
    (hx : ∀ v : Int, |v| ≤ P → rnd (v : K) = some (v : K)) (hbig : (P : K) * |scale| ≤ big) :
    ∃ (W : Nat → Nat → Bool) (out st1 st2 : Gray) (h' : Heap Int),
      ThresholdOps.localMeanR rnd rndD 0 (fun a b r s => BlurImageOps.meanInt t (intElem t junk) a b r s)
        (fun v => rnd (v : K)) (fun b => if b then 1 else 0) input output width scale down storage1 storage2 h = .ok (out, st1, st2) h' ∧
      Thresholded h h' output out storage1 st1 storage2 st2 input.width input.height (fun x y => if W x y then 1 else 0) ∧
      input.Valid h' ∧ input.Shows h' f ∧
      ∀ x y, x < input.width → y < input.height →
        LocalBit rnd scale down (f x y) (meanImage t (n / 2) input.width input.height f x y) (W x y) := by
  have hov2 : (2 * (n / 2) + 1 : Nat) * (P + 1) ≤ t.signedType.hi := le_trans (mul_le_mul_of_nonneg_right (by omega) (by omega)) hov
  have hprod : ∀ v : Int, |v| ≤ P → |(v : K) * scale| ≤ big := fun v hv => by
    rw [abs_mul]
    have : |(v : K)| ≤ (P : K) := by rw [← Int.cast_abs]; exact_mod_cast hv
    exact le_trans (mul_le_mul_of_nonneg_right this (abs_nonneg _)) hbig
  have hex : ∀ x y, ∃ w, x < input.width → y < input.height →
      ThresholdOps.localBit rnd (fun v : Int => rnd (v : K)) scale down (f x y) (meanImage t (n / 2) input.width input.height f x y) = some w ∧
      LocalBit rnd scale down (f x y) (meanImage t (n / 2) input.width input.height f x y) w := by
    intro x y
    by_cases hxy : x < input.width ∧ y < input.height
    · have hm : |meanImage t (n / 2) input.width input.height f x y| ≤ P :=
        (mean_pixel ht hxy.2 (fun j hj => mean_pixel ht hxy.1 (fun i hi => hpix i j hi hj) hov2 hPh) hov2 hPh).2
      have hv := (hpix x y hxy.1 hxy.2).2
      obtain ⟨w, e⟩ := localBit_near R F (conv := fun v : Int => rnd (v : K)) (hx _ hv) (hx _ hm) (hx _ hv) (hx _ hm) down (hprod _ hv) (hprod _ hm)
      exact ⟨w, fun _ _ => e⟩
    · exact ⟨true, fun h1 h2 => absurd ⟨h1, h2⟩ hxy⟩
  choose W hW using hex
  obtain ⟨⟨out, st1, st2⟩, h', e, p⟩ := localMeanR_spec (K := K) (z := (0 : Int)) (conv := fun v : Int => rnd (v : K)) (W := W) (rnd := rnd) (rndD := rndD)
    (bit := fun b => if b then 1 else 0) (scale := scale) (down := down)
    (blur := fun a b r s => BlurImageOps.meanInt t (intElem t junk) a b r s) (width := width) (n := n)
    (B := meanImage t (n / 2) input.width input.height f)
    (G := fun x y => roundedMean t (n / 2) input.width (fun i => f i y) x)
    hn hb hi ho hs1 hs2 hf hc hc1 hc2 ds d1 d2 n1 n2 n12
    (fun h3 a b vi va vb si ca cb sa sb nab hlen => by
      obtain ⟨out, st, h4, e, p, q⟩ := C54_mean_partial ht junk vi va vb si ca cb sa sb nab (r := n / 2) (by omega) (by omega) (by omega) hl
        (by have := hi.area_le; omega) hshape hP hPh hpix hov2
      exact ⟨(out, st), h4, e, p, q⟩)
    (fun x y hx hy => (hW x y hx hy).1)
  exact ⟨W, out, st1, st2, h', e, p.1, p.2.1, p.2.2, fun x y hx hy => (hW x y hx hy).2⟩

/-- The comparison for floating point pixels, with a mean which is not exact. -/
theorem localBit_float (R : Rounds rnd u η big) {scale a b m e Mx : K} (down : Bool) (ha : |a| ≤ Mx) (hm : |m| ≤ Mx) (hb : |b - m| ≤ e)
    (hbig : |scale| * (Mx + e) ≤ big) :
    ∃ w, ThresholdOps.localBit rnd some scale down a b = some w ∧ LocalNear (localError u η e scale Mx down) scale down a m w := by
  have hu := R.rel
  have hη := R.abs
  have he : 0 ≤ e := le_trans (abs_nonneg _) hb
  have hs0 := abs_nonneg scale
  have hMx : 0 ≤ Mx := le_trans (abs_nonneg _) ha
  unfold ThresholdOps.localBit localError
  cases down with
  | true =>
    have hbM : |b| ≤ Mx + e := by
      have := abs_add_le (b - m) m
      rw [sub_add_cancel] at this; linarith
    have hbs : |b * scale| ≤ |scale| * (Mx + e) := by
      rw [abs_mul, mul_comm]; exact mul_le_mul_of_nonneg_left hbM hs0
    obtain ⟨p, hp, hpb⟩ := R.near (b * scale) (le_trans hbs hbig)
    refine ⟨decide (a ≤ p), by simp [hp], fun _ => ?_, fun h => by cases h⟩
    rw [if_pos rfl, decide_eq_true_iff]
    have h1 := mul_le_mul_of_nonneg_left hbs hu
    have h2 : |b * scale - m * scale| ≤ |scale| * e := by
      rw [← sub_mul, abs_mul, mul_comm]; exact mul_le_mul_of_nonneg_left hb hs0
    have h3 := abs_le.mp h2
    have h4 := abs_le.mp hpb
    exact ⟨fun h => by linarith, fun h => by linarith⟩
  | false =>
    have has : |a * scale| ≤ |scale| * Mx := by
      rw [abs_mul, mul_comm]; exact mul_le_mul_of_nonneg_left ha hs0
    have hle : |scale| * Mx ≤ |scale| * (Mx + e) := mul_le_mul_of_nonneg_left (by linarith) hs0
    obtain ⟨p, hp, hpb⟩ := R.near (a * scale) (le_trans has (le_trans hle hbig))
    refine ⟨decide (p > b), by simp [hp], (fun h => by cases h), fun _ => ?_⟩
    rw [if_neg (by decide), decide_eq_true_iff]
    have h1 := mul_le_mul_of_nonneg_left has hu
    have h3 := abs_le.mp hb
    have h4 := abs_le.mp hpb
    exact ⟨fun h => by linarith, fun h => by linarith⟩

/-- `ThresholdOps::localMean` for floating point pixels with rounding: `E1` and `E2` bound the errors of the two passes of the mean (see C84).  All
pixels further from the threshold than `localError` are classified exactly.  MISSING as in C36: `hshape`. -/
theorem C110_localMean_float_partial (R : Rounds rnd u η big) (E : GrowArray.Elem K) (hz : E.ms E.zero = E.zero) {c Mx E1 E2 : K}
    {h : Heap K} {input output storage1 storage2 : Gray} {f : Nat → Nat → K} {width : ConfigLength K} {scale : K} {down : Bool}
    {n N : Nat}
    (hn : ∀ h : Heap K, width.computeIR rndD ((min input.width input.height : Nat) : K) h = .ok n h) (hn2 : 2 ≤ n)
    (hx : ExactTo rnd (2 * (n / 2) + 1)) (hcr : rnd (1 / ((2 * (n / 2) + 1 : Nat) : K)) = some c) (hc0 : 0 < c)
    (hi : input.Valid h) (ho : output.Valid h) (hs1 : storage1.Valid h) (hs2 : storage2.Valid h) (hf : input.Shows h f)
    (hc : output.CanBe input.width input.height) (hc1 : storage1.CanBe input.width input.height)
    (hc2 : storage2.CanBe input.width input.height)
    (ds : input.Sep output input.width input.height) (d1 : input.Sep storage1 input.width input.height)
    (d2 : input.Sep storage2 input.width input.height)
    (n1 : storage1.buf ≠ output.buf) (n2 : storage2.buf ≠ output.buf) (n12 : storage2.buf ≠ storage1.buf)
    (hb : input.width + (n + 1) ≤ 2147483648) (hb2 : input.height + (n + 1) ≤ 2147483648)
    (hl : input.dataLength < 2147483648) (hls : storage2.dataLength < 2147483648)
    (hshape : 2 * (n / 2) + 1 ≤ input.height ∨ input.width < 2 * (n / 2) + 1)
    (hxi : ExactTo rnd N) (hN : N < P32) (hidx : 3 * input.dataLength ≤ 2 * N) (hidx' : 3 * storage2.dataLength ≤ 2 * N)
    (hM : 0 ≤ Mx) (hpix : ∀ x y, x < input.width → y < input.height → |f x y| ≤ Mx)
    (hfit : MeanFits u η big c (n / 2) input.width Mx)
    (hE0 : 0 ≤ E1) (hE : ∀ x, x < input.width → meanBound u η c true (n / 2) input.width x Mx ≤ E1)
    (hfit2 : MeanFits u η big c (n / 2) input.height (Mx + E1))
    (hE2 : ∀ y, y < input.height → meanBound u η c (decide (2 * (n / 2) + 1 ≤ input.width)) (n / 2) input.height y (Mx + E1) ≤ E2)
    (hbig : |scale| * (Mx + (E1 + E2)) ≤ big) :
    ∃ (W : Nat → Nat → Bool) (out st1 st2 : Gray) (h' : Heap K),
      ThresholdOps.localMeanR rnd rndD 0 (fun a b r s => BlurImageOps.meanR rnd E a b r s)
        some (fun b => if b then 1 else 0) input output width scale down storage1 storage2 h = .ok (out, st1, st2) h' ∧
      Thresholded h h' output out storage1 st1 storage2 st2 input.width input.height (fun x y => if W x y then 1 else 0) ∧
      input.Valid h' ∧ input.Shows h' f ∧
      ∀ x y, x < input.width → y < input.height →
        LocalNear (localError u η (E1 + E2) scale Mx down) scale down (f x y) (meanImageK (n / 2) input.width input.height f x y) (W x y) := by
  obtain ⟨B, G, hB, hrun⟩ := meanR_values R E hz hx hcr hc0 (by omega) (w := input.width) (ht := input.height) (by omega) (by omega) hshape hxi hN hM
    hpix hfit hE0 hE hfit2
  have hex : ∀ x y, ∃ w, x < input.width → y < input.height →
      ThresholdOps.localBit rnd some scale down (f x y) (B x y) = some w ∧
      LocalNear (localError u η (E1 + E2) scale Mx down) scale down (f x y) (meanImageK (n / 2) input.width input.height f x y) w := by
    intro x y
    by_cases hxy : x < input.width ∧ y < input.height
    · have hm : |meanImageK (n / 2) input.width input.height f x y| ≤ Mx :=
        exactMean_le hxy.2 (fun j hj => exactMean_le hxy.1 (fun i hi => hpix i j hi hj))
      have := hB x y hxy.1 hxy.2
      have := hE2 y hxy.2
      obtain ⟨w, e⟩ := localBit_float R (scale := scale) (e := E1 + E2) down (hpix x y hxy.1 hxy.2) hm (by linarith) hbig
      exact ⟨w, fun _ _ => e⟩
    · exact ⟨true, fun h1 h2 => absurd ⟨h1, h2⟩ hxy⟩
  choose W hW using hex
  obtain ⟨⟨out, st1, st2⟩, h', e, p⟩ := localMeanR_spec (K := K) (z := (0 : K)) (conv := some) (W := W) (rnd := rnd) (rndD := rndD)
    (bit := fun b => if b then 1 else 0) (scale := scale) (down := down)
    (blur := fun a b r s => BlurImageOps.meanR rnd E a b r s) (width := width) (n := n) (B := B) (G := G)
    hn hb hi ho hs1 hs2 hf hc hc1 hc2 ds d1 d2 n1 n2 n12
    (fun h3 a b vi va vb si ca cb sa sb nab hlen => by
      obtain ⟨out, st, h4, e, p, q⟩ := hrun h3 input a b rfl rfl vi va vb si ca cb sa sb nab hl (by have := hi.area_le; omega) hidx
        (by have := hi.area_le; omega)
      exact ⟨(out, st), h4, e, p, q⟩)
    (fun x y hx hy => (hW x y hx hy).1)
  exact ⟨W, out, st1, st2, h', e, p.1, p.2.1, p.2.2, fun x y hx hy => (hW x y hx hy).2⟩

/-- The hypotheses are met: C36's image in `float`, width 3 and scale 0.95; for the bounds of the mean see the example of C84.  The pixels are classified
correctly if they are 0.0008 from the threshold. -/
example : float32 (19 / 20 : ℚ) = some (15938355 / 2 ^ 24) ∧
    localError (1 / 2 ^ 24 : ℚ) (1 / 2 ^ 150) (16 / 100000 + 16 / 100000) (15938355 / 2 ^ 24) 255 true ≤ 8 / 10000 ∧
    (∀ h : Heap ℚ, (ConfigLength.fixed (3 : ℚ)).computeIR float64 ((min 3 4 : Nat) : ℚ) h = .ok 3 h) ∧
    ThresholdOps.localMeanR float32 float64 0 (fun a b r s => BlurImageOps.meanR float32 (⟨id, 4, 0, fun _ => 7⟩ : GrowArray.Elem ℚ) a b r s)
      some (fun b => if b then 1 else 0) ⟨0, 12, 3, 4, 0, 3, false⟩ ⟨1, 1, 1, 1, 0, 1, false⟩
      (ConfigLength.fixed 3) (15938355 / 2 ^ 24) true ⟨2, 1, 1, 1, 0, 1, false⟩ ⟨3, 1, 1, 1, 0, 1, false⟩
      ⟨[some [10, 20, 30, 40, 50, 60, 0, 90, 0, 255, 255, 255], some [0], some [0], some [0]]⟩ =
    .ok (⟨4, 12, 3, 4, 0, 3, false⟩, ⟨5, 12, 3, 4, 0, 3, false⟩, ⟨6, 12, 3, 4, 0, 3, false⟩)
      ⟨[some [10, 20, 30, 40, 50, 60, 0, 90, 0, 255, 255, 255], none, none, none,
        some [1, 1, 1, 0, 0, 0, 1, 1, 1, 0, 0, 0],
        some [30, 35 + 1 / 2 ^ 18, 40, 35, 8738133 / 262144, 10922667 / 262144, 115, 14636373 / 131072, 15510187 / 131072, 150,
          285 / 2, 150],
        some [15, 20, 25 + 1 / 2 ^ 19, 45, 50, 55, 45, 30, 45, 255, 255, 255]]⟩ :=
  ⟨by decide +kernel, by decide +kernel, fun h => C110_width_fixed (n := 3) (by decide +kernel) (by omega) _ h, by decide +kernel⟩

/-! ## Decimal scales -/

/-- If `b*k/100` is a whole number, the product in `float` is that number. -/
def percentOk (k b : Nat) : Bool :=
  if b * k % 100 = 0 then
    match float32 ((k : ℚ) / 100) with
    | none => false
    | some s => decide (float32 ((b : ℚ) * s) = some ((b * k / 100 : Nat) : ℚ))
  else true

/-- Whole products for all 8 bit pixels and all scales from 0.85 to 1.03. -/
theorem percent_whole : ∀ k, k < 19 → ∀ b, b < 256 → percentOk (85 + k) b = true := by decide +kernel

/-- The product of a pixel and such a scale compares with whole numbers like the exact product. -/
theorem percent_product {k b : Nat} (hk : 85 ≤ k) (hk2 : k ≤ 103) (hb : b ≤ 255) {s : ℚ} (hs : float32 ((k : ℚ) / 100) = some s) :
    ∃ p, float32 ((b : ℚ) * s) = some p ∧ |(b : ℚ) * s - (b : ℚ) * k / 100| ≤ 1 / 1000 ∧ |p - (b : ℚ) * k / 100| ≤ 1 / 1000 ∧
      (b * k % 100 = 0 → p = (b : ℚ) * k / 100) := by
  have R := float32_rounds (K := ℚ)
  have hkq : (k : ℚ) ≤ 103 := by exact_mod_cast hk2
  have hk0 : (0 : ℚ) ≤ k := Nat.cast_nonneg k
  have hbq : (b : ℚ) ≤ 255 := by exact_mod_cast hb
  have hb0 : (0 : ℚ) ≤ b := Nat.cast_nonneg b
  obtain ⟨s', es, hs1⟩ := R.near ((k : ℚ) / 100) (by rw [abs_of_nonneg (by positivity)]; norm_num; linarith)
  rw [hs] at es; cases es
  rw [abs_of_nonneg (by positivity : (0 : ℚ) ≤ (k : ℚ) / 100)] at hs1
  have hs2 : |s - (k : ℚ) / 100| ≤ 1 / 2 ^ 20 := le_trans hs1 (by norm_num; linarith)
  have h1 : |(b : ℚ) * s - (b : ℚ) * k / 100| ≤ 255 / 2 ^ 20 := by
    rw [mul_div_assoc, ← mul_sub, abs_mul, abs_of_nonneg hb0]
    have := mul_le_mul hbq hs2 (abs_nonneg _) (by norm_num)
    linarith
  have hbk : (b : ℚ) * k / 100 ≤ 300 := by nlinarith
  have hbk0 : 0 ≤ (b : ℚ) * k / 100 := by positivity
  have h2 := abs_le.mp h1
  have h3 : |(b : ℚ) * s| ≤ 301 := abs_le.mpr ⟨by linarith, by linarith⟩
  obtain ⟨p, ep, hp⟩ := R.near ((b : ℚ) * s) (le_trans h3 (by norm_num))
  have hp2 : |p - (b : ℚ) * s| ≤ 1 / 2 ^ 14 := by
    have q1 := mul_le_mul_of_nonneg_left h3 (by norm_num : (0 : ℚ) ≤ 1 / 2 ^ 24)
    have q2 : (1 / 2 ^ 24 * 301 + 1 / 2 ^ 150 : ℚ) ≤ 1 / 2 ^ 14 := by norm_num
    linarith
  have hp3 := abs_le.mp hp2
  refine ⟨p, ep, le_trans h1 (by norm_num), abs_le.mpr ⟨by linarith, by linarith⟩, fun hm => ?_⟩
  have ht := percent_whole (k - 85) (by omega) b (by omega)
  rw [show 85 + (k - 85) = k by omega] at ht
  unfold percentOk at ht
  rw [if_pos hm, hs] at ht
  have ht := of_decide_eq_true ht
  rw [ep] at ht
  have e : p = ((b * k / 100 : Nat) : ℚ) := Option.some.inj ht
  rw [e]
  have hd : 100 * (b * k / 100) = b * k := by omega
  have hd' : (100 : ℚ) * ((b * k / 100 : Nat) : ℚ) = (b : ℚ) * k := by exact_mod_cast hd
  linarith

/-- Two whole numbers compared through percentages. -/
theorem percent_gap {a c : Nat} : ((a : ℚ) < (c : ℚ) / 100 ∧ (a : ℚ) + 1 / 100 ≤ (c : ℚ) / 100) ∨ (a : ℚ) = (c : ℚ) / 100 ∨
    ((c : ℚ) / 100 < a ∧ (c : ℚ) / 100 + 1 / 100 ≤ a) := by
  rcases Nat.lt_trichotomy (100 * a) c with h | h | h
  · left
    have : (100 * a + 1 : ℚ) ≤ c := by exact_mod_cast h
    constructor <;> linarith
  · right; left
    have : (100 * a : ℚ) = c := by exact_mod_cast h
    linarith
  · right; right
    have : (c + 1 : ℚ) ≤ 100 * a := by exact_mod_cast h
    constructor <;> linarith

/-- Scales of 85 to 103 percent, written as decimals in the program (so they are rounded to `float`): the thresholding of 8 bit images is exact. -/
theorem C110_percent {k a b : Nat} (hk : 85 ≤ k) (hk2 : k ≤ 103) (ha : a ≤ 255) (hb : b ≤ 255) {s : ℚ} (hs : float32 ((k : ℚ) / 100) = some s)
    {down w : Bool} (hw : LocalBit float32 s down (a : ℚ) (b : ℚ) w) :
    (down = true → (w = true ↔ 100 * a ≤ k * b)) ∧ (down = false → (w = true ↔ k * a > 100 * b)) := by
  constructor
  · intro h
    rw [hw.down h]
    obtain ⟨p, ep, h1, h2, h3⟩ := percent_product hk hk2 hb hs
    rw [ep]
    have g := percent_gap (a := a) (c := b * k)
    push_cast at g
    have h1 := abs_le.mp h1
    have h2 := abs_le.mp h2
    have hR : 100 * a ≤ k * b ↔ (a : ℚ) ≤ (b : ℚ) * k / 100 := by
      rw [le_div_iff₀ (by norm_num : (0 : ℚ) < 100), mul_comm k b, mul_comm 100 a]
      exact_mod_cast Iff.rfl
    rw [hR]
    rcases g with g | g | g
    · exact ⟨fun _ => g.1.le, fun _ => Or.inl (by linarith)⟩
    · refine ⟨fun _ => g.le, fun _ => Or.inr ?_⟩
      have hm : b * k % 100 = 0 := by
        have : (100 * a : ℚ) = (b : ℚ) * k := by linarith
        have : 100 * a = b * k := by exact_mod_cast this
        omega
      rw [h3 hm, g]
    · refine ⟨fun h => ?_, fun h => absurd h (not_le.mpr g.1)⟩
      rcases h with h | h
      · linarith
      · have := Option.some.inj h; linarith
  · intro h
    rw [hw.up h]
    obtain ⟨p, ep, h1, h2, h3⟩ := percent_product hk hk2 ha hs
    rw [ep]
    have g := percent_gap (a := b) (c := a * k)
    push_cast at g
    have h1 := abs_le.mp h1
    have h2 := abs_le.mp h2
    have hR : k * a > 100 * b ↔ (b : ℚ) < (a : ℚ) * k / 100 := by
      rw [lt_div_iff₀ (by norm_num : (0 : ℚ) < 100), gt_iff_lt, mul_comm k a, mul_comm 100 b]
      exact_mod_cast Iff.rfl
    rw [hR]
    rcases g with g | g | g
    · exact ⟨fun _ => g.1, fun _ => ⟨by linarith, fun e => by have := Option.some.inj e; linarith⟩⟩
    · refine ⟨fun h => absurd ?_ h.2, fun h => absurd g (ne_of_lt h)⟩
      have hm : a * k % 100 = 0 := by
        have : (100 * b : ℚ) = (a : ℚ) * k := by linarith
        have : 100 * b = a * k := by exact_mod_cast this
        omega
      rw [h3 hm, g]
    · exact ⟨fun h => by linarith, fun h => absurd h (not_lt.mpr g.1.le)⟩

/-- `localMean` of an 8 bit image with a decimal scale, in `float` and `double`: the threshold is the decimal percentage of the local mean, exactly.
MISSING as in C36: `hshape`. -/
theorem C110_u8_partial (junk : Nat → Int)
    {h : Heap Int} {input output storage1 storage2 : Gray} {f : Nat → Nat → Int} {width : ConfigLength ℚ} {scale : ℚ} {down : Bool}
    {n k : Nat} (hk : 85 ≤ k) (hk2 : k ≤ 103) (hs : float32 ((k : ℚ) / 100) = some scale)
    (hn : ∀ h : Heap Int, width.computeIR float64 ((min input.width input.height : Nat) : ℚ) h = .ok n h) (hn2 : 2 ≤ n) (hn3 : n ≤ 1000000)
    (hi : input.Valid h) (ho : output.Valid h) (hs1 : storage1.Valid h) (hs2 : storage2.Valid h) (hf : input.Shows h f)
    (hc : output.CanBe input.width input.height) (hc1 : storage1.CanBe input.width input.height)
    (hc2 : storage2.CanBe input.width input.height)
    (ds : input.Sep output input.width input.height) (d1 : input.Sep storage1 input.width input.height)
    (d2 : input.Sep storage2 input.width input.height)
    (n1 : storage1.buf ≠ output.buf) (n2 : storage2.buf ≠ output.buf) (n12 : storage2.buf ≠ storage1.buf)
    (hb : input.width + (n + 1) ≤ 2147483648) (hb2 : input.height + (n + 1) ≤ 2147483648)
    (hl : input.dataLength < 2147483648) (hls : storage2.dataLength < 2147483648)
    (hshape : 2 * (n / 2) + 1 ≤ input.height ∨ input.width < 2 * (n / 2) + 1)
    (hpix : ∀ x y, x < input.width → y < input.height → 0 ≤ f x y ∧ f x y ≤ 255) :
    ∃ (out st1 st2 : Gray) (h' : Heap Int),
      ThresholdOps.localMeanR float32 float64 0 (fun a b r s => BlurImageOps.meanInt U8 (intElem U8 junk) a b r s)
        (fun v => float32 (v : ℚ)) (fun b => if b then 1 else 0) input output width scale down storage1 storage2 h = .ok (out, st1, st2) h' ∧
      Thresholded h h' output out storage1 st1 storage2 st2 input.width input.height
        (fun x y => if (if down then 100 * f x y ≤ k * meanImage U8 (n / 2) input.width input.height f x y
          else k * f x y > 100 * meanImage U8 (n / 2) input.width input.height f x y) then 1 else 0) ∧
      input.Valid h' ∧ input.Shows h' f := by
  have hnum : ∀ v : Int, |v| ≤ 255 → float32 (v : ℚ) = some (v : ℚ) := fun v hv => by
    rcases abs_cases v with ⟨e, h0⟩ | ⟨e, h0⟩
    · have := float32_exact (K := ℚ) v.toNat (by omega)
      rwa [show ((v.toNat : Nat) : ℚ) = (v : ℚ) by exact_mod_cast Int.toNat_of_nonneg h0] at this
    · have := float32_exact (K := ℚ) (-v).toNat (by omega)
      rw [show (((-v).toNat : Nat) : ℚ) = -(v : ℚ) by exact_mod_cast Int.toNat_of_nonneg (by omega : 0 ≤ -v)] at this
      have := float32_format.neg _ _ this
      rwa [neg_neg] at this
  have hscale : |scale| ≤ 2 := by
    obtain ⟨p, ep, h1, -⟩ := percent_product (b := 1) hk hk2 (by omega) hs
    have hkq : (k : ℚ) ≤ 103 := by exact_mod_cast hk2
    have hk0 : (0 : ℚ) ≤ k := Nat.cast_nonneg k
    have := abs_le.mp h1
    push_cast at this
    exact abs_le.mpr ⟨by linarith, by linarith⟩
  have hpix' : ∀ x y, x < input.width → y < input.height → U8.InRange (f x y) ∧ |f x y| ≤ 255 := fun x y hx hy => by
    obtain ⟨q1, q2⟩ := hpix x y hx hy
    exact ⟨⟨q1, q2⟩, abs_le.mpr ⟨by omega, q2⟩⟩
  have hsig : U8.signedType.hi = 2147483647 := by decide
  have hov : ((n + 1 : Nat) : Int) * (255 + 1) ≤ U8.signedType.hi := by rw [hsig]; omega
  have hov2 : ((2 * (n / 2) + 1 : Nat) : Int) * (255 + 1) ≤ U8.signedType.hi := by rw [hsig]; omega
  obtain ⟨W, out, st1, st2, h', e, p, v, s, hW⟩ := C110_localMean_partial (K := ℚ) (scale := scale) (down := down) float32_rounds float32_format (t := U8) (by simp) junk hn hn2 hi ho hs1 hs2 hf
    hc hc1 hc2 ds d1 d2 n1 n2 n12 hb hb2 hl hls hshape (P := 255) (by omega) (by decide) hpix' hov hnum (by push_cast; linarith)
  refine ⟨out, st1, st2, h', e, p.congr (fun x y hx hy => ?_), v, s⟩
  have hw := hW x y hx hy
  obtain ⟨q1, q2⟩ := hpix x y hx hy
  have hm := (mean_pixel (r := n / 2) (by simp : U8 ∈ [U8, U16, S16, S32, S64]) hy (fun j hj => mean_pixel (by simp : U8 ∈ [U8, U16, S16, S32, S64]) hx (fun i hi => hpix' i j hi hj) hov2 (by decide)) hov2 (by decide))
  change U8.InRange (meanImage U8 (n / 2) input.width input.height f x y) ∧ _ at hm
  generalize meanImage U8 (n / 2) input.width input.height f x y = m at *
  obtain ⟨⟨m1, m2⟩, -⟩ := hm
  have m1 : 0 ≤ m := m1
  have m2 : m ≤ 255 := m2
  generalize f x y = a at *
  lift a to Nat using q1
  lift m to Nat using m1
  obtain ⟨c1, c2⟩ := C110_percent (a := a) (b := m) hk hk2 (by omega) (by omega) hs (by exact_mod_cast hw)
  cases down with
  | true =>
    have c1 := c1 rfl
    simp only [c1, if_true]
    congr 1
    exact propext (by exact_mod_cast Iff.rfl)
  | false =>
    have c2 := c2 rfl
    simp only [c2, Bool.false_eq_true, if_false]
    congr 1
    exact propext (by exact_mod_cast Iff.rfl)

/-- Not so for other decimal scales: 105 percent of 100 is 104.99999 in `float`, so a pixel 105 where the local mean is 100 is above the threshold. -/
theorem C110_percent_refuted : ∃ s : ℚ, float32 (105 / 100) = some s ∧
    ThresholdOps.localBit float32 (fun v : Int => float32 (v : ℚ)) s true 105 100 = some false ∧ 100 * 105 ≤ 105 * 100 :=
  ⟨8808038 / 2 ^ 23, by decide +kernel, by decide +kernel, by decide⟩

/-- The hypotheses of `C110_u8_partial` are met: C36's image, width 3, scale 0.95. -/
example : ∃ scale : ℚ, float32 (((95 : Nat) : ℚ) / 100) = some scale ∧
    (∀ h : Heap Int, (ConfigLength.fixed (3 : ℚ)).computeIR float64 ((min 3 4 : Nat) : ℚ) h = .ok 3 h) ∧
    ThresholdOps.localMeanR (K := ℚ) float32 float64 0 (fun a b r s => BlurImageOps.meanInt U8 (intElem U8 (fun _ => 7)) a b r s)
      (fun v => float32 (v : ℚ)) (fun b => if b then 1 else 0) ⟨0, 12, 3, 4, 0, 3, false⟩ ⟨1, 1, 1, 1, 0, 1, false⟩
      (ConfigLength.fixed 3) scale true ⟨2, 1, 1, 1, 0, 1, false⟩ ⟨3, 1, 1, 1, 0, 1, false⟩
      ⟨[some [10, 20, 30, 40, 50, 60, 0, 90, 0, 255, 255, 255], some [0], some [0], some [0]]⟩ =
    .ok (⟨4, 12, 3, 4, 0, 3, false⟩, ⟨5, 12, 3, 4, 0, 3, false⟩, ⟨6, 12, 3, 4, 0, 3, false⟩)
      ⟨[some [10, 20, 30, 40, 50, 60, 0, 90, 0, 255, 255, 255], none, none, none,
        some [1, 1, 1, 0, 0, 0, 1, 1, 1, 0, 0, 0],
        some [30, 35, 40, 35, 33, 42, 115, 112, 118, 150, 143, 150],
        some [15, 20, 25, 45, 50, 55, 45, 30, 45, 255, 255, 255]]⟩ :=
  ⟨15938355 / 2 ^ 24, by decide +kernel, fun h => C110_width_fixed (n := 3) (by decide +kernel) (by omega) _ h, by decide +kernel⟩

end Boof
