import Mathlib.Data.Rat.Floor
import Verif.Proofs.Otsu
import Verif.Props.Config
import Verif.Props.Statistics
import Verif.Props.BinaryOps
/-
C34, C35, C69: Otsu's method.
-/
namespace Boof
open OtsuSpec
variable {K : Type} [Field K] [LinearOrder K] [IsStrictOrderedRing K] [FloorRing K] {V : Type}

/-- Conversion of an integer-valued number. -/
theorem toInt_run {t : IntTy} {v : K} {n : Int} (h0 : 0 ≤ v) (hn : ⌊v⌋ = n) (hr : t.InRange n) (h : Heap V) :
    (M.toInt t v : M V Int) h = .ok n h := by
  unfold M.toInt
  rw [truncK_nonneg h0, hn, if_pos hr]; rfl

theorem floor_half (n : Int) : ⌊(n : K) + 1/2⌋ = n := by
  rw [Int.floor_eq_iff]; constructor <;> linarith

/-- The common end of `compute` when tuning is 0 and scale is 1: rounding of the raw threshold. -/
theorem compute_end {a : GrowArray Int} {T : Nat} {h : Heap V} {b down : Bool} {raw var : K} (h0 : 0 ≤ raw)
    (hb : raw + 1/2 < 2147483648)
    (e : ((if b then ComputeOtsu.computeOtsu2 a T else ComputeOtsu.computeOtsu a T) : M V (K × K)) h = .ok (raw, var) h) :
    (ComputeOtsu.mk b (0 : K) down 1).compute a T h = .ok ⌊raw + 1/2⌋ h := by
  unfold ComputeOtsu.compute
  refine (M.bind_ok e).trans ?_
  simp only [zero_mul, mul_zero, zero_div, zero_add, one_mul]
  have e2 : (M.toInt S32 (1/2 : K) : M V Int) h = .ok 0 h := by
    refine toInt_run (by norm_num) ?_ (by decide) h
    rw [Int.floor_eq_iff]; constructor <;> norm_num
  refine (M.bind_ok e2).trans ?_
  have e3 : ((if down then S32.arith (-0) else pure 0 : M V Int)) h = .ok 0 h := by cases down <;> rfl
  refine (M.bind_ok e3).trans ?_
  simp only [Int.cast_zero, add_zero, max_eq_left h0]
  refine toInt_run (by linarith) rfl ⟨?_, ?_⟩ h
  · have : 0 ≤ ⌊raw + 1/2⌋ := Int.floor_nonneg.mpr (by linarith)
    exact le_trans (by decide) this
  · have : ⌊raw + 1/2⌋ < 2147483648 := by rw [Int.floor_lt]; push_cast; exact hb
    exact Int.le_of_lt_add_one this

/-! ## C34 -/

/-- For every histogram of counts (levels `0 .. size-1`, total given correctly and below 2^32) standard Otsu with the
tuning off returns the first split that maximises the between-class variance, 0 if all pixels have one level. -/
theorem C34_otsu {a : GrowArray Int} {hist : Nat → Int} (ha : ∀ k, k < a.size → a.data[k]? = some (hist k))
    (h0 : ∀ k, k < a.size → 0 ≤ hist k) (hsz : a.size ≤ 2147483648)
    {T : Nat} (hT : sumN a.size hist = T) (hT32 : T < 4294967296) (down : Bool) (h : Heap V) :
    ∃ t : Nat, (ComputeOtsu.mk false (0 : K) down 1).compute a T h = .ok (t : Int) h ∧ IsOtsu K a.size hist t := by
  obtain ⟨s, e, hb⟩ := scan_run (K := K) ha h0 hT hT32 h
  have hraw : (ComputeOtsu.computeOtsu a T : M V (K × K)) h = .ok (s.threshold, s.variance) h := by
    unfold ComputeOtsu.computeOtsu
    exact (M.bind_ok (total_run ha h)).trans ((M.bind_ok e).trans rfl)
  have hfin : ∀ t : Nat, s.threshold = (t : K) → t < 2147483648 →
      (ComputeOtsu.mk false (0 : K) down 1).compute a T h = .ok (t : Int) h := by
    intro t ht hlt
    rw [ht] at hraw
    have := compute_end (b := false) (down := down) (raw := (t : K)) (var := s.variance) (by positivity) (by
      have : (t : K) ≤ 2147483647 := by exact_mod_cast Nat.le_of_lt_succ hlt
      linarith) hraw
    rw [this]
    have hf := floor_half (K := K) (t : Int)
    push_cast at hf
    rw [hf]
  rcases hb.best with ⟨t, ht, hsp, b1, b2, b3, b4, b5, b6⟩ | ⟨b0, b1, b2, b3, b4⟩
  · exact ⟨t, hfin t b1 (by omega), Or.inl ⟨hsp, fun j hj => b5 j hj.1 hj, fun j hj hlt => b6 j hlt hj⟩⟩
  · exact ⟨0, hfin 0 (by rw [b1]; simp) (by omega), Or.inr ⟨fun j hj => b0 j hj.1 hj, rfl⟩⟩

/-- `ThresholdOps::computeOtsu` on an image: the value `t` is the Otsu split of the image's own histogram, with level `k`
standing for pixel value `min_value + k`. -/
theorem C34_image {t : IntTy} (ht : t = U8 ∨ t = U16 ∨ t = S16 ∨ t = S32) {h : Heap Int} {g : Gray} (hv : g.Valid h)
    {f : Nat → Nat → Int} (hf : g.Shows h f) {lo hi : Int} (hlo : t.InRange lo) (hhi : t.InRange hi) (hle : lo ≤ hi)
    (hr : ∀ x y, x < g.width → y < g.height → lo ≤ f x y ∧ f x y ≤ hi) (hrange : 1 + hi ≤ 2147483647)
    (hrange2 : hi - lo < 2147483647) (junk : Nat → Int) :
    ∃ v : Nat, ThresholdOps.computeOtsu K t junk g lo hi false h = .ok (v : Int) h ∧
      IsOtsu K (1 + hi - lo).toNat (fun k => pixelCount g.width g.height f (lo + k)) v := by
  have hp : t.promote = S32 := by rcases ht with rfl | rfl | rfl | rfl <;> decide
  have hlo32 : -2147483648 ≤ lo := by
    have h2 := hlo.1
    rcases ht with rfl | rfl | rfl | rfl <;> (first | exact h2 | exact le_trans (by decide) h2)
  have hlt : (1 + hi - lo).toNat < P32 := by unfold P32; omega
  have e1 : (t.promote.arith (1 + hi) : M Int Int) h = .ok (1 + hi) h := by
    rw [hp]; exact IntTy.arith_run (by decide) ⟨by show (-2147483648 : Int) ≤ _; omega, by show _ ≤ (2147483647 : Int); omega⟩ h
  have e2 : (t.promote.arith (1 + hi - lo) : M Int Int) h = .ok (1 + hi - lo) h := by
    rw [hp]; exact IntTy.arith_run (by decide) ⟨by show (-2147483648 : Int) ≤ _; omega, by show _ ≤ (2147483647 : Int); omega⟩ h
  have e3 : toU32 (1 + hi - lo) = (1 + hi - lo).toNat := toU32_of_nonneg (by omega) (by unfold P32; omega)
  set n := (1 + hi - lo).toNat with hn
  obtain ⟨a, ea, as, al⟩ : ∃ a, GrowArray.new (intElem U32 junk) n = .ok () a ∧ a.size = n ∧ a.size ≤ a.data.length := by
    unfold GrowArray.new GrowArray.fill
    rw [if_pos (by simp)]
    exact ⟨_, rfl, rfl, by simp⟩
  obtain ⟨a', eh, es, ec, et⟩ := C28_histogram (t := t) (by tauto) hv hf (m := lo) (a := a) al (fun x y hx hy => by
    obtain ⟨q1, q2⟩ := hr x y hx hy
    rw [as]; refine ⟨q1, by omega, by omega⟩)
  have hcnt : ∀ k, k < a'.size → a'.data[k]? = some (pixelCount g.width g.height f (lo + k)) := by
    intro k hk; exact ec k (by omega)
  have hsum : sumN a'.size (fun k => pixelCount g.width g.height f (lo + k)) = (g.width * g.height : Nat) := by
    rw [← et, es]
    exact sumN_congr (fun k hk => by rw [ec k hk]; rfl)
  have hnn : ∀ k, k < a'.size → 0 ≤ pixelCount g.width g.height f (lo + k) := by
    intro k hk
    unfold pixelCount pixelSum
    exact sumN_nonneg (fun y _ => sumN_nonneg (fun x _ => by
      show (0 : Int) ≤ if f x _ = lo + k then 1 else 0
      split <;> omega))
  have htp : g.totalPixels = g.width * g.height := by
    unfold Gray.totalPixels; exact wrap32_of_lt hv.area_lt
  obtain ⟨v, ev, hv'⟩ := C34_otsu (K := K) hcnt hnn (by omega) hsum hv.area_lt true h
  rw [es, as] at hv'
  have hvlt : v < 2147483648 := by
    rcases hv' with ⟨⟨q, _⟩, _⟩ | ⟨_, rfl⟩
    · omega
    · omega
  refine ⟨v, ?_, hv'⟩
  unfold ThresholdOps.computeOtsu
  refine (M.bind_ok e1).trans ((M.bind_ok e2).trans ?_)
  simp only [e3, ea]
  refine (M.bind_ok (M.pure_run _ h)).trans ((M.bind_ok eh).trans ?_)
  rw [htp]
  refine (M.bind_ok ev).trans ?_
  refine toInt_run (by positivity) ?_ ?_ h
  · rw [Int.floor_intCast]
  · exact ⟨by show (0 : Int) ≤ _; omega, by show _ ≤ (4294967295 : Int); omega⟩

/-- Three pixels 10, 10 and 200: the split is at level 10. -/
example : ThresholdOps.computeOtsu ℚ U8 (fun _ => 77) ⟨0, 3, 3, 1, 0, 3, false⟩ 8 12 false (⟨[some [9,12,12]]⟩ : Heap Int)
    = .ok 1 ⟨[some [9,12,12]]⟩ := by decide +kernel

/-! ## C69 the second variant -/

/-- The variant `otsu2` returns the mid-point of the two class means of the best split, rounded to the nearest level;
this is a level of the histogram. -/
theorem C69_otsu2 {a : GrowArray Int} {hist : Nat → Int} (ha : ∀ k, k < a.size → a.data[k]? = some (hist k))
    (h0 : ∀ k, k < a.size → 0 ≤ hist k) (hsz : a.size < 2147483648)
    {T : Nat} (hT : sumN a.size hist = T) (hT32 : T < 4294967296) (down : Bool) (h : Heap V) :
    ∃ v : Int, (ComputeOtsu.mk true (0 : K) down 1).compute a T h = .ok v h ∧
      (∀ t, IsOtsu K a.size hist t → IsSplit a.size hist t →
        v = ⌊(meanBelow hist t + meanAbove a.size hist t : K) / 2 + 1/2⌋ ∧ 0 ≤ v ∧ v < a.size) ∧
      ((∀ j, ¬IsSplit a.size hist j) → v = 0) := by
  obtain ⟨s, e, hb⟩ := scan_run (K := K) ha h0 hT hT32 h
  have hraw : (ComputeOtsu.computeOtsu2 a T : M V (K × K)) h =
      .ok ((a.size : K) * (s.selectedMB + s.selectedMF) / 2, s.variance) h := by
    unfold ComputeOtsu.computeOtsu2
    exact (M.bind_ok (total_run ha h)).trans ((M.bind_ok e).trans rfl)
  rcases hb.best with ⟨t, ht, hsp, b1, b2, b3, b4, b5, b6⟩ | ⟨b0, b1, b2, b3, b4⟩
  · obtain ⟨_, m1, m2, m3, m4⟩ := variance_pos (K := K) h0 hsp
    have hn : (a.size : K) ≠ 0 := by
      have : 0 < a.size := by omega
      exact_mod_cast this.ne'
    have hval : (a.size : K) * (s.selectedMB + s.selectedMF) / 2 = (meanBelow hist t + meanAbove a.size hist t : K) / 2 := by
      rw [b3, b4]; field_simp
    rw [hval] at hraw
    have htn : (t : K) + 1 ≤ a.size := by exact_mod_cast ht
    have hsK : (a.size : K) < 2147483648 := by exact_mod_cast hsz
    have ht0 : (0 : K) ≤ t := by positivity
    refine ⟨_, compute_end (b := true) (down := down) (raw := (meanBelow hist t + meanAbove a.size hist t : K) / 2)
      (by linarith) (by linarith) hraw, ?_, fun hno => absurd hsp (hno t)⟩
    intro t' ho hs'
    have : t' = t := by
      rcases ho with ⟨_, c1, c2⟩ | ⟨c0, _⟩
      · rcases Nat.lt_trichotomy t' t with hlt | heq | hgt
        · have q1 := b6 t' hlt hs'
          have q2 := c1 t hsp
          exact absurd q1 (not_lt.mpr q2)
        · exact heq
        · have q1 := c2 t hsp hgt
          have q2 := b5 t' hs'.1 hs'
          exact absurd q1 (not_lt.mpr q2)
      · exact absurd hs' (c0 t')
    subst this
    refine ⟨rfl, Int.floor_nonneg.mpr (by linarith), ?_⟩
    rw [Int.floor_lt]; push_cast; linarith
  · have hval : (a.size : K) * (s.selectedMB + s.selectedMF) / 2 = 0 := by rw [b3, b4]; simp
    rw [hval] at hraw
    refine ⟨_, compute_end (b := true) (down := down) (raw := 0) (le_refl _) (by norm_num) hraw,
      fun t _ hs => absurd hs (b0 t hs.1), fun _ => ?_⟩
    rw [Int.floor_eq_iff]; constructor <;> norm_num

example : (ComputeOtsu.mk true (0 : ℚ) true 1).compute ⟨[0,3,0,0,0,0,0,1], 8, 0, true⟩ 4 (⟨[]⟩ : Heap Int) = .ok 4 ⟨[]⟩ ∧
    (ComputeOtsu.mk false (0 : ℚ) true 1).compute ⟨[0,3,0,0,0,0,0,1], 8, 0, true⟩ 4 (⟨[]⟩ : Heap Int) = .ok 1 ⟨[]⟩ := by
  decide +kernel

/-! ## C35 -/

theorem IsOtsu_unique {n : Nat} {hist : Nat → Int} {s t : Nat} (hs : IsOtsu K n hist s) (ht : IsOtsu K n hist t) : s = t := by
  rcases hs with ⟨a0, a1, a2⟩ | ⟨a0, rfl⟩
  · rcases ht with ⟨b0, b1, b2⟩ | ⟨b0, _⟩
    · rcases Nat.lt_trichotomy s t with hlt | heq | hgt
      · exact absurd (b2 s a0 hlt) (not_lt.mpr (a1 t b0))
      · exact heq
      · exact absurd (a2 t b0 hgt) (not_lt.mpr (b1 s a0))
    · exact absurd a0 (b0 s)
  · rcases ht with ⟨b0, _⟩ | ⟨_, rfl⟩
    · exact absurd b0 (a0 t)
    · rfl

/-- The full property (the binary result does not change when a constant is added to all pixels and to the range) is
false, see `C35_refuted`.  What holds: the threshold that is computed does not change. -/
theorem C35_threshold_partial {t : IntTy} (ht : t = U8 ∨ t = U16 ∨ t = S16 ∨ t = S32) {h h' : Heap Int} {g g' : Gray}
    (hv : g.Valid h) (hv' : g'.Valid h') (hw : g'.width = g.width) (hh : g'.height = g.height)
    {f : Nat → Nat → Int} (hf : g.Shows h f) {c : Int} (hf' : g'.Shows h' (fun x y => f x y + c))
    {lo hi : Int} (hlo : t.InRange lo) (hhi : t.InRange hi) (hlo' : t.InRange (lo + c)) (hhi' : t.InRange (hi + c))
    (hle : lo ≤ hi) (hr : ∀ x y, x < g.width → y < g.height → lo ≤ f x y ∧ f x y ≤ hi)
    (hrange : 1 + hi ≤ 2147483647) (hrange' : 1 + (hi + c) ≤ 2147483647)
    (hrange2 : hi - lo < 2147483647) (junk junk' : Nat → Int) :
    ∃ v : Nat, ThresholdOps.computeOtsu K t junk g lo hi false h = .ok (v : Int) h ∧
      ThresholdOps.computeOtsu K t junk' g' (lo + c) (hi + c) false h' = .ok (v : Int) h' := by
  obtain ⟨v, e, ho⟩ := C34_image (K := K) ht hv hf hlo hhi hle hr hrange hrange2 junk
  obtain ⟨v', e', ho'⟩ := C34_image (K := K) ht hv' hf' hlo' hhi' (by omega) (fun x y hx hy => by
    have := hr x y (by omega) (by omega)
    show lo + c ≤ f x y + c ∧ f x y + c ≤ hi + c
    omega) hrange' (by omega) junk'
  have hn : 1 + (hi + c) - (lo + c) = 1 + hi - lo := by ring
  rw [hn, hw, hh] at ho'
  have hp : (fun k : Nat => pixelCount g.width g.height (fun x y => f x y + c) (lo + c + k)) =
      (fun k : Nat => pixelCount g.width g.height f (lo + k)) := by
    funext k
    unfold pixelCount
    apply pixelSum_congr
    intro x y _ _
    have : (f x y + c = lo + c + (k : Int)) ↔ (f x y = lo + (k : Int)) := by constructor <;> intro q <;> linarith
    simp only [this]
  rw [hp] at ho'
  have := IsOtsu_unique ho ho'
  subst this
  exact ⟨v, e, e'⟩

/-- Pixels 0,1 with range 0..1 give the binary image 1,0, but pixels 10,11 with range 10..11 give 0,0: the threshold is
relative to `min_value` and is compared with the pixels as they are. -/
theorem C35_refuted :
    ThresholdOps.globalOtsu ℚ U8 (fun _ => 0) 0 1 true ⟨0, 2, 2, 1, 0, 2, false⟩ ⟨1, 2, 2, 1, 0, 2, false⟩
      (⟨[some [0,1], some [7,7]]⟩ : Heap Int) = .ok ⟨1, 2, 2, 1, 0, 2, false⟩ ⟨[some [0,1], some [1,0]]⟩ ∧
    ThresholdOps.globalOtsu ℚ U8 (fun _ => 0) 10 11 true ⟨0, 2, 2, 1, 0, 2, false⟩ ⟨1, 2, 2, 1, 0, 2, false⟩
      (⟨[some [10,11], some [7,7]]⟩ : Heap Int) = .ok ⟨1, 2, 2, 1, 0, 2, false⟩ ⟨[some [10,11], some [0,0]]⟩ := by
  decide +kernel

/-- With `min_value = 0` the global Otsu filter does what its name says: pixels are compared with the Otsu split of the
image's histogram. -/
theorem C35_zero_min {t : IntTy} (ht : t = U8 ∨ t = U16 ∨ t = S16 ∨ t = S32) {h : Heap Int} {g output : Gray} (hv : g.Valid h)
    (hov : output.Valid h) {f : Nat → Nat → Int} (hf : g.Shows h f) {hi : Int} (hhi : t.InRange hi) (hle : 0 ≤ hi)
    (hr : ∀ x y, x < g.width → y < g.height → 0 ≤ f x y ∧ f x y ≤ hi) (hrange : 1 + hi ≤ 2147483647)
    (hc : output.CanBe g.width g.height) (hs : g.SepOrSame output g.width g.height) (down : Bool) (junk : Nat → Int) :
    ∃ (v : Nat) (o : Gray) (h' : Heap Int), ThresholdOps.globalOtsu K t junk 0 hi down g output h = .ok o h' ∧
      IsOtsu K (1 + hi).toNat (fun k => pixelCount g.width g.height f k) v ∧
      Produced h h' output o g.width g.height
        (fun x y => if (down = true ∧ f x y ≤ v) ∨ (down = false ∧ f x y > v) then 1 else 0) := by
  have h0 : t.InRange 0 := by rcases ht with rfl | rfl | rfl | rfl <;> decide
  have hb : 0 < t.bits := by rcases ht with rfl | rfl | rfl | rfl <;> decide
  obtain ⟨v, e, ho⟩ := C34_image (K := K) ht hv hf h0 hhi hle hr hrange (by omega) junk
  simp only [sub_zero, zero_add] at ho
  have hvr : t.InRange v := by
    rcases ho with ⟨⟨q, _⟩, _⟩ | ⟨_, rfl⟩
    · exact ⟨le_trans h0.1 (by omega), le_trans (by omega) hhi.2⟩
    · exact h0
  obtain ⟨o, h', eo, hp⟩ := threshold_run (fun a b => decide (a ≤ b)) (fun a b => decide (b < a)) b2i 0 (v : Int) down hv hov hf hc hs
  refine ⟨v, o, h', ?_, ho, ?_⟩
  · unfold ThresholdOps.globalOtsu
    refine (M.bind_ok e).trans ?_
    rw [IntTy.cast_of_inRange hb hvr]; exact eo
  · refine hp.congr (fun x y _ _ => ?_)
    cases down <;> simp [b2i]

/-! ## C75 tuning and scaling -/

theorem toInt_if {v : K} (h0 : 0 ≤ v) (h : Heap V) :
    (M.toInt S32 v : M V Int) h = if ⌊v⌋ ≤ 2147483647 then .ok ⌊v⌋ h else .ub := by
  unfold M.toInt
  rw [truncK_nonneg h0]
  have : 0 ≤ ⌊v⌋ := Int.floor_nonneg.mpr h0
  by_cases c : ⌊v⌋ ≤ 2147483647
  · rw [if_pos c, if_pos ⟨le_trans (by decide) this, c⟩]; rfl
  · rw [if_neg c, if_neg (fun q => c q.2)]; rfl

theorem penalty_nonneg {tuning raw var : K} (hv : 0 ≤ var) : 0 ≤ penalty tuning raw var := by
  unfold penalty
  apply Int.floor_nonneg.mpr
  positivity

/-- For any tuning, scale and direction: the result is the threshold of the best split, moved by the penalty, scaled and
rounded to the nearest integer. -/
theorem C75_tuned {a : GrowArray Int} {hist : Nat → Int} (ha : ∀ k, k < a.size → a.data[k]? = some (hist k))
    (h0 : ∀ k, k < a.size → 0 ≤ hist k) {T : Nat} (hT : sumN a.size hist = T) (hT32 : T < 4294967296)
    (otsu2 down : Bool) (tuning : K) {scale : K} (hs : 0 ≤ scale) (h : Heap V) :
    ∃ (t : Nat) (raw var : K), IsOtsu K a.size hist t ∧ IsRaw otsu2 a.size hist t raw var ∧ 0 ≤ raw ∧ 0 ≤ var ∧
      (ComputeOtsu.mk otsu2 tuning down scale).compute a T h =
        if penalty tuning raw var ≤ 2147483647 ∧ ⌊scale * moved down tuning raw var + 1/2⌋ ≤ 2147483647
        then .ok ⌊scale * moved down tuning raw var + 1/2⌋ h else .ub := by
  obtain ⟨s, e, hb⟩ := scan_run (K := K) ha h0 hT hT32 h
  have fin : ∀ raw : K, 0 ≤ raw → 0 ≤ s.variance →
      ((if otsu2 then ComputeOtsu.computeOtsu2 a T else ComputeOtsu.computeOtsu a T) : M V (K × K)) h = .ok (raw, s.variance) h →
      (ComputeOtsu.mk otsu2 tuning down scale).compute a T h =
        if penalty tuning raw s.variance ≤ 2147483647 ∧ ⌊scale * moved down tuning raw s.variance + 1/2⌋ ≤ 2147483647
        then .ok ⌊scale * moved down tuning raw s.variance + 1/2⌋ h else .ub := by
    intro raw hr hv er
    unfold ComputeOtsu.compute
    refine (M.bind_ok er).trans ?_
    have p0 := penalty_nonneg (tuning := tuning) (raw := raw) hv
    have eq : tuning * raw * tuning * raw = (tuning * raw) ^ 2 := by ring
    have e2 : (M.toInt S32 (tuning * raw * tuning * raw / (s.variance + 1/1000) + 1/2 : K) : M V Int) h =
        if penalty tuning raw s.variance ≤ 2147483647 then .ok (penalty tuning raw s.variance) h else .ub := by
      rw [eq]
      exact toInt_if (by positivity) h
    by_cases hp : penalty tuning raw s.variance ≤ 2147483647
    swap
    · rw [if_neg hp] at e2
      rw [if_neg (fun c => hp c.1)]
      exact M.bind_ub e2
    rw [if_pos hp] at e2
    refine (M.bind_ok e2).trans ?_
    have e3 : ((if down then S32.arith (-penalty tuning raw s.variance) else pure (penalty tuning raw s.variance) : M V Int)) h =
        .ok (if down then -penalty tuning raw s.variance else penalty tuning raw s.variance) h := by
      cases down
      · rfl
      · simp only [if_true]
        unfold IntTy.arith
        rw [if_pos (by rfl), if_pos ⟨show (-2147483648 : Int) ≤ _ by omega, show _ ≤ (2147483647 : Int) by omega⟩]; rfl
    refine (M.bind_ok e3).trans ?_
    have e4 : max (raw + (((if down then -penalty tuning raw s.variance else penalty tuning raw s.variance) : Int) : K)) 0 =
        moved down tuning raw s.variance := by
      unfold moved
      cases down
      · simp
      · simp [sub_eq_add_neg]
    rw [e4]
    have m0 : 0 ≤ moved down tuning raw s.variance := le_max_right _ _
    refine (toInt_if (by positivity) h).trans ?_
    by_cases hm : ⌊scale * moved down tuning raw s.variance + 1/2⌋ ≤ 2147483647
    · rw [if_pos hm, if_pos ⟨hp, hm⟩]
    · rw [if_neg hm, if_neg (fun c => hm c.2)]
  have h1 : (ComputeOtsu.computeOtsu a T : M V (K × K)) h = .ok (s.threshold, s.variance) h := by
    unfold ComputeOtsu.computeOtsu
    exact (M.bind_ok (total_run ha h)).trans ((M.bind_ok e).trans rfl)
  have h2 : (ComputeOtsu.computeOtsu2 a T : M V (K × K)) h =
      .ok ((a.size : K) * (s.selectedMB + s.selectedMF) / 2, s.variance) h := by
    unfold ComputeOtsu.computeOtsu2
    exact (M.bind_ok (total_run ha h)).trans ((M.bind_ok e).trans rfl)
  rcases hb.best with ⟨t, ht, hsp, b1, b2, b3, b4, b5, b6⟩ | ⟨b0, b1, b2, b3, b4⟩
  · obtain ⟨m0, m1, m2, m3, m4⟩ := variance_pos (K := K) h0 hsp
    have hn : (a.size : K) ≠ 0 := by
      have : 0 < a.size := by omega
      exact_mod_cast this.ne'
    have hval : (a.size : K) * (s.selectedMB + s.selectedMF) / 2 = (meanBelow hist t + meanAbove a.size hist t : K) / 2 := by
      rw [b3, b4]; field_simp
    have hv : 0 ≤ s.variance := by rw [b2]; positivity
    have ht0 : (0 : K) ≤ t := by positivity
    have hraw : 0 ≤ (if otsu2 then (meanBelow hist t + meanAbove a.size hist t) / 2 else (t : K)) := by
      cases otsu2
      · exact ht0
      · simp only [if_true]; linarith
    refine ⟨t, if otsu2 then (meanBelow hist t + meanAbove a.size hist t) / 2 else (t : K), s.variance,
      Or.inl ⟨hsp, fun j hj => b5 j hj.1 hj, fun j hj hlt => b6 j hlt hj⟩, ⟨fun _ => ⟨rfl, b2⟩, fun c => absurd hsp c⟩, hraw, hv,
      fin _ hraw hv ?_⟩
    cases otsu2
    · simp only [Bool.false_eq_true, if_false]; rw [h1, b1]
    · simp only [if_true]; rw [h2, hval]
  · have hv : 0 ≤ s.variance := by rw [b2]
    refine ⟨0, 0, s.variance, Or.inr ⟨fun j hj => b0 j hj.1 hj, rfl⟩, ⟨fun c => absurd c (b0 0 c.1), fun _ => ⟨rfl, b2⟩⟩, le_refl _, hv,
      fin 0 (le_refl _) hv ?_⟩
    cases otsu2
    · simp only [Bool.false_eq_true, if_false]; rw [h1, b1]
    · simp only [if_true]; rw [h2, b3, b4]; simp

theorem IsRaw_unique {otsu2 : Bool} {n : Nat} {hist : Nat → Int} {t : Nat} {r v r' v' : K} (h1 : IsRaw otsu2 n hist t r v)
    (h2 : IsRaw otsu2 n hist t r' v') : r = r' ∧ v = v' := by
  by_cases c : IsSplit n hist t
  · obtain ⟨a, b⟩ := h1.1 c
    obtain ⟨a', b'⟩ := h2.1 c
    exact ⟨by rw [a, a'], by rw [b, b']⟩
  · obtain ⟨a, b⟩ := h1.2 c
    obtain ⟨a', b'⟩ := h2.2 c
    exact ⟨by rw [a, a'], by rw [b, b']⟩

/-- Tuning never selects more: the pixels selected with tuning are among those selected without it. -/
theorem C75_selects_fewer {a : GrowArray Int} {hist : Nat → Int} (ha : ∀ k, k < a.size → a.data[k]? = some (hist k))
    (h0 : ∀ k, k < a.size → 0 ≤ hist k) {T : Nat} (hT : sumN a.size hist = T) (hT32 : T < 4294967296)
    {otsu2 down : Bool} {tuning scale : K} (hs : 0 ≤ scale) {h : Heap V} {u v : Int}
    (hu : (ComputeOtsu.mk otsu2 (0 : K) down scale).compute a T h = .ok u h)
    (hv : (ComputeOtsu.mk otsu2 tuning down scale).compute a T h = .ok v h) (p : Int) :
    (down = true → p ≤ v → p ≤ u) ∧ (down = false → v < p → u < p) := by
  obtain ⟨t, r, w, i1, i2, r0, w0, e⟩ := C75_tuned (K := K) ha h0 hT hT32 otsu2 down 0 hs h
  obtain ⟨t', r', w', i1', i2', _, _, e'⟩ := C75_tuned (K := K) ha h0 hT hT32 otsu2 down tuning hs h
  obtain rfl := IsOtsu_unique i1 i1'
  obtain ⟨rfl, rfl⟩ := IsRaw_unique i2 i2'
  rw [hu] at e
  rw [hv] at e'
  have pt := penalty_nonneg (tuning := tuning) (raw := r) w0
  have ptK : (0 : K) ≤ penalty tuning r w := by exact_mod_cast pt
  have pz : penalty 0 r w = 0 := by
    unfold penalty
    rw [Int.floor_eq_iff]; constructor <;> norm_num
  split at e
  swap
  · cases e
  split at e'
  swap
  · cases e'
  cases e; cases e'
  constructor
  · rintro rfl hp
    refine le_trans hp (Int.floor_le_floor ?_)
    have : moved true tuning r w ≤ moved true 0 r w := by
      unfold moved
      simp only [if_true, pz]
      exact max_le_max (by push_cast; linarith) (le_refl _)
    have := mul_le_mul_of_nonneg_left this hs
    linarith
  · rintro rfl hp
    refine lt_of_le_of_lt (Int.floor_le_floor ?_) hp
    have : moved false 0 r w ≤ moved false tuning r w := by
      unfold moved
      simp only [Bool.false_eq_true, if_false, pz]
      exact max_le_max (by push_cast; linarith) (le_refl _)
    have := mul_le_mul_of_nonneg_left this hs
    linarith

/-- Low texture (levels 100 and 102 of 256): tuning moves the threshold to 0; with distinct classes it has no effect. -/
example : (ComputeOtsu.mk false (1/10 : ℚ) true 1).compute
      ⟨(List.replicate 100 0) ++ [3, 0, 4] ++ List.replicate 153 0, 256, 0, true⟩ 7 (⟨[]⟩ : Heap Int) = .ok 0 ⟨[]⟩ ∧
    (ComputeOtsu.mk false (0 : ℚ) true 1).compute
      ⟨(List.replicate 100 0) ++ [3, 0, 4] ++ List.replicate 153 0, 256, 0, true⟩ 7 (⟨[]⟩ : Heap Int) = .ok 100 ⟨[]⟩ := by
  decide +kernel

end Boof
