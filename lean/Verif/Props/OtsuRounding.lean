import Verif.Proofs.OtsuRounding
import Verif.Props.Otsu
/-
C104: Otsu's method with rounded floating point arithmetic.
-/
namespace Boof
open M OtsuSpec
variable {K : Type} [Field K] [LinearOrder K] [IsStrictOrderedRing K] [FloorRing K] {V : Type}

theorem ieee_idempotent {p q w : Nat} (hp : 1 < p) : Idempotent (ieee p q w : K → Option K) := by
  intro x y e
  have hr := (ieee_nearest (by omega) e).1
  have hy : |y| < 2 ^ w := by
    unfold ieee at e
    simp only at e
    split at e
    · next c => cases e; exact c
    · cases e
  obtain ⟨z, ez, -⟩ := (ieee_rounds (K := K) (q := q) (w := w + 1) hp (by omega)).near y (by simpa using hy.le)
  have h := (ieee_nearest (by omega) ez).2 y hr
  rw [sub_self, abs_zero] at h
  have hz : z = y := sub_eq_zero.mp (abs_eq_zero.mp (le_antisymm h (abs_nonneg _)))
  subst hz
  unfold ieee at ez ⊢
  simp only at ez ⊢
  split at ez
  · have := Option.some.inj ez
    rw [this, if_pos hy]
  · cases ez

theorem float64_idempotent : Idempotent (float64 : K → Option K) := ieee_idempotent (by omega)

variable {rnd : K → Option K} {u η big : K}

/-- The end of `compute` when tuning is 0 and scale is 1. -/
theorem computeR_end {n T : Nat} (F : OtsuFits rnd u η big n T) (hn : 0 < n) (hT0 : 0 < T) (hz0 : rnd 0 = some 0) {a : GrowArray Int} {h : Heap V}
    {b down : Bool} {raw var : K} (h0 : 0 ≤ raw) (hfix : rnd raw = some raw) (hv0 : 0 ≤ var) (hv : var + 1 ≤ big)
    (e : ((if b then ComputeOtsu.computeOtsu2R rnd a T else ComputeOtsu.computeOtsuR rnd a T) : M V (K × K)) h = .ok (raw, var) h) :
    (ComputeOtsu.mk b (0 : K) down 1).computeR rnd a T h = (opt (rnd (raw + 1/2)) >>= fun s => toInt S32 s : M V Int) h := by
  obtain ⟨f1, f2, f3, f4, f5, f6⟩ := F.facts hn hT0
  have hu := F.rounds.rel
  have hη := F.rounds.abs
  have hs := F.small
  have huT : u ≤ u * T := le_mul_of_one_le_right hu f2
  have hu28 : 28 * u ≤ 1 := by linarith
  obtain ⟨m, em, hm⟩ := F.rounds.near (1/1000) (by rw [abs_of_pos (by norm_num)]; linarith)
  rw [abs_of_pos (show (0 : K) < 1/1000 by norm_num)] at hm
  have hm' := abs_le.mp hm
  have hm0 : 1/2000 < m := by linarith
  have hm1 : m ≤ 1 := by linarith
  obtain ⟨w, ew, hw⟩ := F.rounds.near (var + m) (by rw [abs_of_pos (by linarith)]; linarith)
  rw [abs_of_pos (show 0 < var + m by linarith)] at hw
  have hw0 : 0 < w := by
    have h1 := (abs_le.mp hw).1
    have h2 : 28 * (u * (var + m)) ≤ var + m := by nlinarith
    linarith
  obtain ⟨c, ec, hc⟩ := F.rounds.near (1/2) (by rw [abs_of_pos (by norm_num)]; linarith)
  rw [abs_of_pos (show (0 : K) < 1/2 by norm_num)] at hc
  have hc' := abs_le.mp hc
  unfold ComputeOtsu.computeR
  refine (M.bind_ok e).trans ?_
  simp only [zero_mul, mul_zero, one_mul, em, hz0]
  have ok : ∀ {α : Type} (x : α) (h : Heap V), (opt (some x) : M V α) h = .ok x h := fun _ _ => rfl
  refine (M.bind_ok (ok m h)).trans ?_
  simp only [ew]
  refine (M.bind_ok (ok w h)).trans ?_
  refine (M.bind_ok (ok (0 : K) h)).trans ?_
  refine (M.bind_ok (ok (0 : K) h)).trans ?_
  simp only [zero_mul, hz0]
  refine (M.bind_ok (ok (0 : K) h)).trans ?_
  simp only [hz0, zero_div, zero_add, ec]
  rw [if_neg hw0.ne']
  refine (M.bind_ok (ok (0 : K) h)).trans ?_
  simp only [zero_add, ec]
  refine (M.bind_ok (ok c h)).trans ?_
  have e2 : (M.toInt S32 c : M V Int) h = .ok 0 h := by
    refine toInt_run (by linarith) ?_ (by decide) h
    rw [Int.floor_eq_iff]
    push_cast
    constructor <;> linarith
  refine (M.bind_ok e2).trans ?_
  have e3 : ((if down then S32.arith (-0) else pure 0 : M V Int)) h = .ok 0 h := by cases down <;> rfl
  refine (M.bind_ok e3).trans ?_
  simp only [Int.cast_zero, add_zero, hfix]
  refine (M.bind_ok (ok raw h)).trans ?_
  simp only [max_eq_left h0, hfix]
  refine (M.bind_ok (ok raw h)).trans ?_
  rfl

/-- What the scan has found, as a whole. -/
theorem otsuR_scan {a : GrowArray Int} {hist : Nat → Int} {T : Nat} (F : OtsuFits rnd u η big a.size T) (hid : Idempotent rnd) (hz0 : rnd 0 = some 0)
    (ha : a.Is hist) (h0 : ∀ k, k < a.size → 0 ≤ hist k) (hT : sumN a.size hist = T) (hT0 : 0 < T) (hT32 : T < P32) (h : Heap V) :
    ∃ (S : K) (s : ComputeOtsu.Scan K), (ComputeOtsu.totalR rnd a : M V K) h = .ok S h ∧ (ComputeOtsu.scanR rnd a S T : M V _) h = .ok s h ∧
      BestR u η a.size T hist a.size s ∧ s.variance + 1 ≤ big ∧
      NearOtsu ((a.size : K) ^ 2 * (2 * otsuError u a.size T)) a.size hist ⌊s.threshold⌋.toNat := by
  obtain ⟨S, e1, wS⟩ := totalR_run (V := V) F ha rfl h0 hT hT0 h
  obtain ⟨s, e2, hb⟩ := scanR_run F hid hz0 ha rfl h0 hT hT0 hT32 wS h
  have hn : 0 < a.size := by
    rcases Nat.eq_zero_or_pos a.size with c | c
    · rw [c] at hT; simp [sumN] at hT; omega
    · exact c
  obtain ⟨f1, f2, f3, f4, f5, f6⟩ := F.facts hn hT0
  have hn2 : (0 : K) < (a.size : K) ^ 2 := by positivity
  have hu := F.rounds.rel
  have hE0 : 0 ≤ otsuError u a.size T := by unfold otsuError; positivity
  refine ⟨S, s, e1, e2, hb, ?_, ?_⟩
  · rcases hb.best with ⟨t, ht, hsp, -, -, b2, -⟩ | ⟨-, b2, -, -⟩
    · have ht2 : (2 : K) ≤ T := by
        obtain ⟨q1, q2, q3⟩ := hsp
        rw [above_eq _ _ q1, hT] at q3
        have : below hist t = sumN (t + 1) hist := rfl
        have : (2 : Nat) ≤ T := by omega
        exact_mod_cast this
      have hV : variance a.size hist t / (a.size : K) ^ 2 ≤ (T : K) ^ 2 / 4 := by
        obtain ⟨_, m1, m2, m3, m4⟩ := variance_pos (K := K) h0 hsp
        obtain ⟨q1, q2, q3⟩ := hsp
        rw [div_le_iff₀ hn2]
        have hb1 : (0 : K) < (below hist t : Int) := by exact_mod_cast q2
        have ha1 : (0 : K) < (above a.size hist t : Int) := by exact_mod_cast q3
        have htot : ((below hist t : Int) : K) + ((above a.size hist t : Int) : K) = (T : K) := by
          have hab := above_eq a.size hist q1
          have : below hist t = sumN (t + 1) hist := rfl
          have : below hist t + above a.size hist t = (T : Int) := by omega
          exact_mod_cast congrArg (Int.cast (R := K)) this
        have hd : (meanBelow hist t - meanAbove a.size hist t : K) ^ 2 ≤ (a.size : K) ^ 2 := by
          rw [sq_le_sq, abs_of_nonneg (by linarith : (0 : K) ≤ a.size), abs_le]
          have : (0 : K) ≤ t := Nat.cast_nonneg _
          have : (t : K) ≤ a.size := by exact_mod_cast ht.le
          constructor <;> linarith
        have hab : ((below hist t : Int) : K) * ((above a.size hist t : Int) : K) ≤ (T : K) ^ 2 / 4 := by
          rw [← htot]; nlinarith [sq_nonneg (((below hist t : Int) : K) - ((above a.size hist t : Int) : K))]
        unfold variance
        exact mul_le_mul hab hd (sq_nonneg _) (by positivity)
      have hE : otsuError u a.size T ≤ 4 * T := by
        unfold otsuError
        have h1 : (18 * (a.size : K) + 90) * u * T ≤ 4 := by
          have := F.fine
          have h2 : (18 * (a.size : K) + 90) * u * T = 3 * ((6 * a.size + 28) * u * T) + 6 * (u * T) := by ring
          rw [h2]; linarith
        have := mul_le_mul_of_nonneg_right h1 (by linarith : (0 : K) ≤ T)
        rw [sq]; linarith
      have h3 := (abs_le.mp b2).2
      have h4 := F.range
      nlinarith
    · rw [b2]
      have := F.range
      nlinarith
  · have hall : ∀ j, IsSplit a.size hist j → variance a.size hist j ≤ (a.size : K) ^ 2 * (s.variance + otsuError u a.size T) := by
      intro j hj
      have := hb.all j hj.1 hj
      rw [div_le_iff₀ hn2] at this
      linarith
    rcases hb.best with ⟨t, ht, hsp, hpos, b1, b2, -⟩ | ⟨b1, b2, -, -⟩
    · rw [b1, Int.floor_natCast, Int.toNat_natCast]
      refine Or.inl ⟨hsp, hpos, fun j hj => le_trans (hall j hj) ?_⟩
      have h3 := (abs_le.mp b2).2
      have h4 : s.variance ≤ variance a.size hist t / (a.size : K) ^ 2 + otsuError u a.size T := by linarith
      have h5 : (a.size : K) ^ 2 * (variance a.size hist t / (a.size : K) ^ 2) = variance a.size hist t := by field_simp
      have h6 := mul_le_mul_of_nonneg_left h4 hn2.le
      linarith
    · rw [b1, Int.floor_zero, Int.toNat_zero]
      refine Or.inr ⟨rfl, fun j hj => le_trans (hall j hj) ?_⟩
      rw [b2]
      have := mul_nonneg hn2.le hE0
      linarith

/-- For every histogram of counts standard Otsu with the tuning off returns a split whose between-class variance is the largest up to rounding errors.
The threshold is a level that occurs.  It is a split, if there is one, when the roundings are fine enough to tell the two classes apart. -/
theorem C104_otsu {a : GrowArray Int} {hist : Nat → Int} {T : Nat} (F : OtsuFits rnd u η big a.size T) (hid : Idempotent rnd)
    (hex : ExactTo rnd a.size) (ha : ∀ k, k < a.size → a.data[k]? = some (hist k)) (h0 : ∀ k, k < a.size → 0 ≤ hist k)
    (hsz : a.size ≤ 2147483648) (hT : sumN a.size hist = T) (hT0 : 0 < T) (hT32 : T < 4294967296) (down : Bool) (h : Heap V) :
    ∃ t : Nat, (ComputeOtsu.mk false (0 : K) down 1).computeR rnd a T h = .ok (t : Int) h ∧
      NearOtsu ((a.size : K) ^ 2 * (2 * otsuError u a.size T)) a.size hist t ∧
      (OtsuSharp u η a.size T → ∀ j, IsSplit a.size hist j → IsSplit a.size hist t) ∧
      ((∀ j, ¬IsSplit a.size hist j) → t = 0) := by
  have hz0 : rnd 0 = some 0 := by simpa using hex 0 (by omega)
  obtain ⟨S, s, e1, e2, hb, hbig, hnear⟩ := otsuR_scan (V := V) F hid hz0 ha h0 hT hT0 hT32 h
  have hn : 0 < a.size := by
    rcases Nat.eq_zero_or_pos a.size with c | c
    · rw [c] at hT; simp [sumN] at hT; omega
    · exact c
  obtain ⟨f1, f2, f3, f4, f5, f6⟩ := F.facts hn hT0
  have hu := F.rounds.rel
  have hraw : (ComputeOtsu.computeOtsuR rnd a T : M V (K × K)) h = .ok (s.threshold, s.variance) h := by
    unfold ComputeOtsu.computeOtsuR
    exact (M.bind_ok e1).trans ((M.bind_ok e2).trans rfl)
  have hfin : ∀ t : Nat, s.threshold = (t : K) → t < a.size →
      (ComputeOtsu.mk false (0 : K) down 1).computeR rnd a T h = .ok (t : Int) h := by
    intro t ht hlt
    rw [ht] at hraw
    rw [computeR_end (b := false) F hn hT0 hz0 (Nat.cast_nonneg t) (hex t (by omega)) hb.nonneg hbig hraw]
    have ht0 : (0 : K) ≤ t := Nat.cast_nonneg t
    have htn : (t : K) + 1 ≤ a.size := by exact_mod_cast hlt
    have hp : (0 : K) < t + 1/2 := by linarith
    have huT : u ≤ u * T := le_mul_of_one_le_right hu f2
    have hnu : (a.size : K) * u ≤ a.size * (u * T) := mul_le_mul_of_nonneg_left huT (by linarith)
    have hlev := F.levels
    obtain ⟨y, ey, hy⟩ := F.rounds.near ((t : K) + 1/2) (by rw [abs_of_pos hp]; linarith)
    rw [abs_of_pos hp] at hy
    have hy' := abs_le.mp hy
    have hut : u * ((t : K) + 1/2) ≤ a.size * u := by
      rw [mul_comm]; exact mul_le_mul_of_nonneg_right (by linarith) hu
    rw [ey]
    refine (M.bind_ok (show (opt (some y) : M V K) h = .ok y h from rfl)).trans ?_
    refine toInt_run (by linarith) ?_ ⟨?_, ?_⟩ h
    · rw [Int.floor_eq_iff]
      push_cast
      constructor <;> linarith
    · show (-2147483648 : Int) ≤ t; omega
    · show (t : Int) ≤ 2147483647; omega
  rcases hb.best with ⟨t, ht, hsp, hpos, b1, -⟩ | ⟨b1, b2, -⟩
  · rw [b1, Int.floor_natCast, Int.toNat_natCast] at hnear
    exact ⟨t, hfin t b1 ht, hnear, fun _ _ _ => hsp, fun c => absurd hsp (c t)⟩
  · rw [b1, Int.floor_zero, Int.toNat_zero] at hnear
    exact ⟨0, hfin 0 (by rw [b1]; simp) hn, hnear, fun hS j hj => absurd (hb.pos hS j hj.1 hj) (by rw [b2]; exact lt_irrefl _), fun _ => rfl⟩

/-- `double` is fine enough for a quarter of a million levels, and tells classes apart with up to 256 levels. -/
theorem C104_double {n T : Nat} (hn : n ≤ 262144) (hT : T < 4294967296) :
    OtsuFits (float64 : K → Option K) (1 / 2 ^ 53) (1 / 2 ^ 1075) (2 ^ 1023) n T ∧ Idempotent (float64 : K → Option K) ∧
      ExactTo (float64 : K → Option K) n ∧ (n ≤ 256 → OtsuSharp (1 / 2 ^ 53 : K) (1 / 2 ^ 1075) n T) := by
  have hnK : (n : K) ≤ 262144 := by exact_mod_cast hn
  have hTK : (T : K) ≤ 4294967296 := by exact_mod_cast hT.le
  have hn0 : (0 : K) ≤ n := Nat.cast_nonneg _
  have hT0 : (0 : K) ≤ T := Nat.cast_nonneg _
  have hnT : (n : K) * T ≤ 262144 * 4294967296 := mul_le_mul hnK hTK hT0 (by norm_num)
  have hsm : (1 : K) / 2 ^ 1075 ≤ 1 / 2 ^ 113 :=
    one_div_le_one_div_of_le (by positivity) (pow_le_pow_right₀ (by norm_num) (by norm_num))
  have hη0 : (0 : K) ≤ 1 / 2 ^ 1075 := by positivity
  have hbg : (2 : K) ^ 70 ≤ 2 ^ 1023 := pow_le_pow_right₀ (by norm_num) (by norm_num)
  refine ⟨⟨float64_rounds, ?_, ?_, ?_, ?_, ?_⟩, float64_idempotent, fun i hi => float64_exact i (by omega), fun h256 => ⟨?_, ?_⟩⟩
  all_goals generalize (1 : K) / 2 ^ 1075 = η at *
  all_goals generalize (2 : K) ^ 1023 = z at *
  · norm_num
    nlinarith
  · have : (n : K) * T * η ≤ 262144 * 4294967296 * (1 / 2 ^ 113) := mul_le_mul hnT hsm hη0 (by norm_num)
    norm_num at this ⊢
    linarith
  · have : (T : K) ^ 2 ≤ 4294967296 ^ 2 := by gcongr
    norm_num at this hbg ⊢
    linarith
  · norm_num at hbg ⊢
    linarith
  · norm_num at hsm ⊢
    linarith
  · have h256K : (n : K) ≤ 256 := by exact_mod_cast h256
    have h1 : (6 * (n : K) + 28) * (2 * n) ≤ (6 * 256 + 28) * (2 * 256) := by gcongr
    have h2 : (6 * (n : K) + 28) * (2 * n) * T ≤ (6 * 256 + 28) * (2 * 256) * 4294967296 := by gcongr
    have e : (6 * (n : K) + 28) * (1 / 2 ^ 53) * T * (2 * n) = (6 * (n : K) + 28) * (2 * n) * T / 2 ^ 53 := by ring
    rw [e, div_le_one (by positivity)]
    norm_num at h2 ⊢
    linarith
  · have : (n : K) ^ 2 * η ≤ 262144 ^ 2 * (1 / 2 ^ 113) := mul_le_mul (by gcongr) hsm hη0 (by norm_num)
    norm_num at this ⊢
    linarith

theorem near_double {n T : Nat} {hist : Nat → Int} (h0 : ∀ k, k < n → 0 ≤ hist k) (hn : n ≤ 256) {t : Nat}
    (h : NearOtsu ((n : K) ^ 2 * (2 * otsuError (1 / 2 ^ 53) n T)) n hist t) (hs : ∀ j, IsSplit n hist j → IsSplit n hist t) :
    (IsSplit n hist t ∧ 0 < hist t ∧ ∀ j, IsSplit n hist j → (variance n hist j : K) ≤ variance n hist t + (T : K) ^ 2 / 10 ^ 6) ∨
      (t = 0 ∧ ∀ j, ¬IsSplit n hist j) := by
  by_cases c : ∃ j, IsSplit n hist j
  · obtain ⟨j, hj⟩ := c
    have hst := hs j hj
    have hE : (n : K) ^ 2 * (2 * otsuError (1 / 2 ^ 53) n T) ≤ (T : K) ^ 2 / 10 ^ 6 := by
      have hnK : (n : K) ≤ 256 := by exact_mod_cast hn
      have h1 : (n : K) ^ 2 * (18 * n + 90) ≤ 256 ^ 2 * (18 * 256 + 90) := by gcongr
      have h2 : (n : K) ^ 2 * (2 * otsuError (1 / 2 ^ 53) n T) = (n : K) ^ 2 * (18 * n + 90) * (2 / 2 ^ 53) * (T : K) ^ 2 := by
        unfold otsuError; ring
      have h3 : (n : K) ^ 2 * (18 * n + 90) * (2 / 2 ^ 53) ≤ 1 / 10 ^ 6 := by
        norm_num at h1 ⊢
        linarith
      rw [h2]
      have := mul_le_mul_of_nonneg_right h3 (sq_nonneg (T : K))
      linarith
    left
    rcases h with ⟨_, hp, hall⟩ | ⟨rfl, hall⟩
    · exact ⟨hst, hp, fun j hj => le_trans (hall j hj) (by linarith)⟩
    · refine ⟨hst, ?_, fun j hj => le_trans (hall j hj) (le_trans hE (by linarith [(variance_pos (K := K) h0 hst).1]))⟩
      have := hst.2.1
      simpa [below, sumN] using this
  · have hno' : ∀ j, ¬IsSplit n hist j := fun j hj => c ⟨j, hj⟩
    rcases h with ⟨hst, _⟩ | ⟨rfl, _⟩
    · exact absurd hst (hno' t)
    · exact Or.inr ⟨rfl, hno'⟩

/-- With `double`, 256 levels and any number of pixels a histogram can count. -/
theorem C104_otsu_double {a : GrowArray Int} {hist : Nat → Int} {T : Nat} (ha : ∀ k, k < a.size → a.data[k]? = some (hist k))
    (h0 : ∀ k, k < a.size → 0 ≤ hist k) (hsz : a.size ≤ 256) (hT : sumN a.size hist = T) (hT0 : 0 < T) (hT32 : T < 4294967296) (down : Bool)
    (h : Heap V) :
    ∃ t : Nat, (ComputeOtsu.mk false (0 : K) down 1).computeR float64 a T h = .ok (t : Int) h ∧
      ((IsSplit a.size hist t ∧ 0 < hist t ∧
        ∀ j, IsSplit a.size hist j → (variance a.size hist j : K) ≤ variance a.size hist t + (T : K) ^ 2 / 10 ^ 6) ∨
      (t = 0 ∧ ∀ j, ¬IsSplit a.size hist j)) := by
  obtain ⟨F, hid, hex, hsh⟩ := C104_double (K := K) (n := a.size) (T := T) (by omega) hT32
  obtain ⟨t, e, hn, hs, hno⟩ := C104_otsu (V := V) F hid hex ha h0 (by omega) hT hT0 hT32 down h
  exact ⟨t, e, near_double h0 hsz hn (hs (hsh hsz))⟩

/-- If one split is better than every other one by more than the rounding errors, then it is found.  (Levels at which no pixel is counted give the same
split as the level before.) -/
theorem C104_clear {a : GrowArray Int} {hist : Nat → Int} {T : Nat} (F : OtsuFits rnd u η big a.size T) (hid : Idempotent rnd)
    (hex : ExactTo rnd a.size) (ha : ∀ k, k < a.size → a.data[k]? = some (hist k)) (h0 : ∀ k, k < a.size → 0 ≤ hist k)
    (hsz : a.size ≤ 2147483648) (hT : sumN a.size hist = T) (hT0 : 0 < T) (hT32 : T < 4294967296) (down : Bool) {t : Nat} (ht : IsSplit a.size hist t)
    (hbest : (a.size : K) ^ 2 * (2 * otsuError u a.size T) < variance a.size hist t)
    (hgap : ∀ j, IsSplit a.size hist j → j ≠ t → 0 < hist j →
      variance a.size hist j + (a.size : K) ^ 2 * (2 * otsuError u a.size T) < variance a.size hist t) (h : Heap V) :
    (ComputeOtsu.mk false (0 : K) down 1).computeR rnd a T h = .ok (t : Int) h := by
  obtain ⟨s, e, hn, -, -⟩ := C104_otsu (V := V) F hid hex ha h0 hsz hT hT0 hT32 down h
  rcases hn with ⟨hs, hp, hall⟩ | ⟨rfl, hall⟩
  · by_cases c : s = t
    · rw [e, c]
    · exact absurd (hall t ht) (not_le.mpr (hgap s hs c hp))
  · exact absurd (hall t ht) (not_le.mpr hbest)

/-- Two levels only: the lower one is the threshold. -/
theorem C104_two_levels {a : GrowArray Int} {hist : Nat → Int} {T : Nat} (F : OtsuFits rnd u η big a.size T) (hsharp : OtsuSharp u η a.size T)
    (hid : Idempotent rnd) (hex : ExactTo rnd a.size) (ha : ∀ k, k < a.size → a.data[k]? = some (hist k)) (h0 : ∀ k, k < a.size → 0 ≤ hist k)
    (hsz : a.size ≤ 2147483648) (hT : sumN a.size hist = T) (hT32 : T < 4294967296) (down : Bool) {p q : Nat} (hpq : p < q) (hq : q < a.size)
    (hp0 : 0 < hist p) (hq0 : 0 < hist q) (hz : ∀ k, k < a.size → k ≠ p → k ≠ q → hist k = 0) (h : Heap V) :
    (ComputeOtsu.mk false (0 : K) down 1).computeR rnd a T h = .ok (p : Int) h := by
  have hle : ∀ {i}, i ≤ a.size → sumN i hist ≤ T := fun hi => by rw [← hT]; exact sumN_mono_n hi h0
  have hnn : ∀ {i}, i ≤ a.size → 0 ≤ sumN i hist := fun hi => sumN_nonneg (fun k hk => h0 k (by omega))
  have hsp : IsSplit a.size hist p := by
    refine ⟨by omega, ?_, ?_⟩
    · have : below hist p = sumN p hist + hist p := rfl
      have := hnn (show p ≤ a.size by omega)
      omega
    · rw [above_eq _ _ (by omega)]
      have h1 : sumN (p + 1) hist ≤ sumN q hist := sumN_mono_n (by omega) (fun k hk => h0 k (by omega))
      have h2 : sumN (q + 1) hist = sumN q hist + hist q := rfl
      have h3 := hle (show q + 1 ≤ a.size by omega)
      omega
  have hT0 : 0 < T := by
    have h1 := hsp.2.1
    have h2 : below hist p = sumN (p + 1) hist := rfl
    have h3 := hle (show p + 1 ≤ a.size by omega)
    omega
  obtain ⟨s, e, hn, hs, -⟩ := C104_otsu (V := V) F hid hex ha h0 hsz hT hT0 hT32 down h
  have hss := hs hsharp p hsp
  have hs0 : 0 < hist s := by
    rcases hn with ⟨_, c, _⟩ | ⟨rfl, _⟩
    · exact c
    · have := hss.2.1
      simpa [below, sumN] using this
  have hsq : s ≠ q := by
    rintro rfl
    have h1 := hss.2.2
    unfold above at h1
    rw [sumN_congr (g := fun _ => 0) (fun k hk => hz _ (by omega) (by omega) (by omega)), sumN_zero] at h1
    omega
  have hsp' : s = p := by
    by_contra c
    have := hz s hss.1 c hsq
    omega
  rw [e, hsp']

example : (ComputeOtsu.mk false (0 : ℚ) true 1).computeR float64 ⟨[0,3,0,0,0,0,0,1], 8, 0, true⟩ 4 (⟨[]⟩ : Heap Int) = .ok 1 ⟨[]⟩ := by
  decide +kernel

/-- Of two splits that are equally good the exact computation takes the first one; with `double` it can be the second one. -/
theorem C104_tie :
    (ComputeOtsu.mk false (0 : ℚ) true 1).compute ⟨[1,1,1], 3, 0, true⟩ 3 (⟨[]⟩ : Heap Int) = .ok 0 ⟨[]⟩ ∧
    (ComputeOtsu.mk false (0 : ℚ) true 1).computeR float64 ⟨[1,1,1], 3, 0, true⟩ 3 (⟨[]⟩ : Heap Int) = .ok 1 ⟨[]⟩ := by
  decide +kernel

/-! ## Images -/

/-- `ThresholdOps::computeOtsu` on an image. -/
theorem C104_image {t : IntTy} (ht : t = U8 ∨ t = U16 ∨ t = S16 ∨ t = S32) {h : Heap Int} {g : Gray} (hv : g.Valid h)
    {f : Nat → Nat → Int} (hf : g.Shows h f) {lo hi : Int} (hlo : t.InRange lo) (hhi : t.InRange hi) (hle : lo ≤ hi)
    (hr : ∀ x y, x < g.width → y < g.height → lo ≤ f x y ∧ f x y ≤ hi) (hrange : 1 + hi ≤ 2147483647)
    (hrange2 : hi - lo < 2147483647) (hpos : 0 < g.width * g.height)
    (F : OtsuFits rnd u η big (1 + hi - lo).toNat (g.width * g.height)) (hid : Idempotent rnd) (hex : ExactTo rnd (1 + hi - lo).toNat)
    (junk : Nat → Int) :
    ∃ v : Nat, ThresholdOps.computeOtsuR rnd t junk g lo hi false h = .ok (v : Int) h ∧ v < (1 + hi - lo).toNat ∧
      NearOtsu (((1 + hi - lo).toNat : K) ^ 2 * (2 * otsuError u (1 + hi - lo).toNat (g.width * g.height))) (1 + hi - lo).toNat
        (fun k => pixelCount g.width g.height f (lo + k)) v ∧
      (OtsuSharp u η (1 + hi - lo).toNat (g.width * g.height) →
        ∀ j, IsSplit (1 + hi - lo).toNat (fun k => pixelCount g.width g.height f (lo + k)) j →
          IsSplit (1 + hi - lo).toNat (fun k => pixelCount g.width g.height f (lo + k)) v) := by
  have hp : t.promote = S32 := by rcases ht with rfl | rfl | rfl | rfl <;> decide
  have hlo32 : -2147483648 ≤ lo := by
    have h2 := hlo.1
    rcases ht with rfl | rfl | rfl | rfl <;> (first | exact h2 | exact le_trans (by decide) h2)
  have hlt : (1 + hi - lo).toNat < P32 := by unfold P32; omega
  have e1 : (t.promote.arith (1 + hi) : M Int Int) h = .ok (1 + hi) h := by
    rw [hp]; exact IntTy.arith_run (by decide) ⟨by show (-2147483648 : Int) ≤ _; omega, by show _ ≤ (2147483647 : Int); omega⟩ h
  have e2 : (t.promote.arith (1 + hi - lo) : M Int Int) h = .ok (1 + hi - lo) h := by
    rw [hp]; exact IntTy.arith_run (by decide) ⟨by show (-2147483648 : Int) ≤ _; omega, by show _ ≤ (2147483647 : Int); omega⟩ h
  have e3 : toU32 (1 + hi - lo) = (1 + hi - lo).toNat := toU32_of_nonneg (by omega) (by unfold P32; omega)
  set n := (1 + hi - lo).toNat with hn
  obtain ⟨a, ea, as, al⟩ : ∃ a, GrowArray.new (intElem U32 junk) n = .ok () a ∧ a.size = n ∧ a.size ≤ a.data.length := by
    unfold GrowArray.new GrowArray.fill
    rw [if_pos (by simp)]
    exact ⟨_, rfl, rfl, by simp⟩
  obtain ⟨a', eh, es, ec, et⟩ := C28_histogram (t := t) (by tauto) hv hf (m := lo) (a := a) al (fun x y hx hy => by
    obtain ⟨q1, q2⟩ := hr x y hx hy
    rw [as]; refine ⟨q1, by omega, by omega⟩)
  have hcnt : ∀ k, k < a'.size → a'.data[k]? = some (pixelCount g.width g.height f (lo + k)) := by
    intro k hk; exact ec k (by omega)
  have hsum : sumN a'.size (fun k => pixelCount g.width g.height f (lo + k)) = (g.width * g.height : Nat) := by
    rw [← et, es]
    exact sumN_congr (fun k hk => by rw [ec k hk]; rfl)
  have hnn : ∀ k, k < a'.size → 0 ≤ pixelCount g.width g.height f (lo + k) := by
    intro k hk
    unfold pixelCount pixelSum
    exact sumN_nonneg (fun y _ => sumN_nonneg (fun x _ => by
      show (0 : Int) ≤ if f x _ = lo + k then 1 else 0
      split <;> omega))
  have htp : g.totalPixels = g.width * g.height := by
    unfold Gray.totalPixels; exact wrap32_of_lt hv.area_lt
  have hsz : a'.size = n := by omega
  obtain ⟨v, ev, hv', hsh, -⟩ := C104_otsu (V := Int) (a := a') (T := g.width * g.height) (by rw [hsz]; exact F) hid (by rw [hsz]; exact hex) hcnt hnn
    (by omega) hsum hpos hv.area_lt true h
  rw [hsz] at hv' hsh
  have hvn : v < n := by
    rcases hv' with ⟨⟨q, _⟩, _⟩ | ⟨rfl, _⟩
    · exact q
    · omega
  refine ⟨v, ?_, hvn, hv', hsh⟩
  unfold ThresholdOps.computeOtsuR
  refine (M.bind_ok e1).trans ((M.bind_ok e2).trans ?_)
  simp only [e3, ea]
  refine (M.bind_ok (M.pure_run _ h)).trans ((M.bind_ok eh).trans ?_)
  rw [htp]
  refine (M.bind_ok ev).trans ?_
  refine toInt_run (by positivity) ?_ ?_ h
  · rw [Int.floor_intCast]
  · exact ⟨by show (0 : Int) ≤ _; omega, by show _ ≤ (4294967295 : Int); omega⟩

/-- The global Otsu filter for 8 bit images over the whole range, with `double`: if the image has two different pixel values then the pixels are compared
with a value that occurs in the image; the pixels up to it and those above it are both there, and no other split of the image has a between-class
variance that is larger by more than the rounding error.  An image of one value is compared with 0. -/
theorem C104_global {h : Heap Int} {g output : Gray} (hv : g.Valid h) (hov : output.Valid h) {f : Nat → Nat → Int} (hf : g.Shows h f)
    (hr : ∀ x y, x < g.width → y < g.height → 0 ≤ f x y ∧ f x y ≤ 255) (hpos : 0 < g.width * g.height)
    (hc : output.CanBe g.width g.height) (hs : g.SepOrSame output g.width g.height) (down : Bool) (junk : Nat → Int) :
    ∃ (v : Nat) (o : Gray) (h' : Heap Int),
      ThresholdOps.globalOtsuR (K := K) float64 U8 junk 0 255 down g output h = .ok o h' ∧
      Produced h h' output o g.width g.height
        (fun x y => if (down = true ∧ f x y ≤ v) ∨ (down = false ∧ f x y > v) then 1 else 0) ∧
      ((IsSplit 256 (fun k => pixelCount g.width g.height f k) v ∧ 0 < pixelCount g.width g.height f v ∧
        ∀ j, IsSplit 256 (fun k => pixelCount g.width g.height f k) j →
          (variance 256 (fun k => pixelCount g.width g.height f k) j : K) ≤ variance 256 (fun k => pixelCount g.width g.height f k) v +
            ((g.width * g.height : Nat) : K) ^ 2 / 10 ^ 6) ∨
      (v = 0 ∧ ∀ j, ¬IsSplit 256 (fun k => pixelCount g.width g.height f k) j)) := by
  obtain ⟨F, hid, hex, hsh⟩ := C104_double (K := K) (n := 256) (T := g.width * g.height) (by omega) hv.area_lt
  obtain ⟨v, e, hlt, ho, hs'⟩ := C104_image (K := K) (rnd := float64) (t := U8) (Or.inl rfl) hv hf (lo := 0) (hi := 255) (by decide) (by decide)
    (by decide) hr (by decide) (by decide) hpos F hid hex junk
  have hlt' : v < 256 := hlt
  simp only [zero_add] at ho hs'
  obtain ⟨o, h', eo, hp⟩ := threshold_run (fun a b => decide (a ≤ b)) (fun a b => decide (b < a)) b2i 0 (v : Int) down hv hov hf hc hs
  refine ⟨v, o, h', ?_, ?_, near_double (T := g.width * g.height) ?_ (by omega) ho (hs' (hsh (by omega)))⟩
  · unfold ThresholdOps.globalOtsuR
    refine (M.bind_ok e).trans ?_
    rw [IntTy.cast_of_inRange (by decide) (show U8.InRange v from ⟨show (0 : Int) ≤ v by omega, show (v : Int) ≤ 255 by omega⟩)]; exact eo
  · refine hp.congr (fun x y _ _ => ?_)
    cases down <;> simp [b2i]
  · intro k hk
    unfold pixelCount pixelSum
    exact sumN_nonneg (fun y _ => sumN_nonneg (fun x _ => by
      show (0 : Int) ≤ if f x _ = (k : Int) then 1 else 0
      split <;> omega))

example : ThresholdOps.globalOtsuR (K := ℚ) float64 U8 (fun _ => 77) 0 255 true ⟨0, 3, 3, 1, 0, 3, false⟩ ⟨1, 3, 3, 1, 0, 3, false⟩
    (⟨[some [9,12,12], some [7,7,7]]⟩ : Heap Int) = .ok ⟨1, 3, 3, 1, 0, 3, false⟩ ⟨[some [9,12,12], some [1,0,0]]⟩ := by decide +kernel

/-! ## The second variant -/

/-- The variant `otsu2`: the mid-point of the two class means of a split that is best up to rounding errors, rounded to a nearest level up to rounding
errors. -/
theorem C104_otsu2 {a : GrowArray Int} {hist : Nat → Int} {T : Nat} (F : OtsuFits rnd u η big a.size T) (hsharp : OtsuSharp u η a.size T)
    (hid : Idempotent rnd) (hex : ExactTo rnd a.size) (ha : ∀ k, k < a.size → a.data[k]? = some (hist k)) (h0 : ∀ k, k < a.size → 0 ≤ hist k)
    (hsz : a.size < 2147483648) (hT : sumN a.size hist = T) (hT0 : 0 < T) (hT32 : T < 4294967296) (down : Bool) (h : Heap V) :
    ∃ v : Int, (ComputeOtsu.mk true (0 : K) down 1).computeR rnd a T h = .ok v h ∧
      ((∃ t, IsSplit a.size hist t ∧ NearOtsu ((a.size : K) ^ 2 * (2 * otsuError u a.size T)) a.size hist t ∧
        |(v : K) - (meanBelow hist t + meanAbove a.size hist t) / 2| ≤ 1/2 + (3 * a.size + 22) * a.size * u * T ∧ 0 ≤ v ∧ v ≤ a.size) ∨
      (v = 0 ∧ ∀ j, ¬IsSplit a.size hist j)) := by
  have hz0 : rnd 0 = some 0 := by simpa using hex 0 (by omega)
  obtain ⟨S, s, e1, e2, hb, hbig, hnear⟩ := otsuR_scan (V := V) F hid hz0 ha h0 hT hT0 hT32 h
  have hn : 0 < a.size := by
    rcases Nat.eq_zero_or_pos a.size with c | c
    · rw [c] at hT; simp [sumN] at hT; omega
    · exact c
  obtain ⟨f1, f2, f3, f4, f5, f6⟩ := F.facts hn hT0
  have hu := F.rounds.rel
  have hraw : ∀ {p q r : K}, rnd (s.selectedMB + s.selectedMF) = some p → rnd ((a.size : K) * p) = some q → rnd (q / 2) = some r →
      (ComputeOtsu.computeOtsu2R rnd a T : M V (K × K)) h = .ok (r, s.variance) h := by
    intro p q r hp hq hr
    unfold ComputeOtsu.computeOtsu2R
    refine (M.bind_ok e1).trans ((M.bind_ok e2).trans ?_)
    rw [hp]
    refine (M.bind_ok (show (opt (some p) : M V K) h = .ok p h from rfl)).trans ?_
    simp only [hq]
    refine (M.bind_ok (show (opt (some q) : M V K) h = .ok q h from rfl)).trans ?_
    simp only [hr]
    rfl
  rcases hb.best with ⟨t, ht, hsp, hpos, b1, b2, b3, b4, -⟩ | ⟨b1, b2, b3, b4⟩
  · obtain ⟨_, m1, m2, m3, m4⟩ := variance_pos (K := K) h0 hsp
    have htn : (t : K) + 1 ≤ a.size := by exact_mod_cast ht
    have ht0 : (0 : K) ≤ t := Nat.cast_nonneg _
    obtain ⟨p, q, r, y, hp, hq, hr, hy, n1, n2, n3, n4, -⟩ := midpoint_near F.rounds f1 f2 f4 hsharp.fine F.levels m3 (by linarith) (by linarith) m4 b3 b4
    rw [b1, Int.floor_natCast, Int.toNat_natCast] at hnear
    have hfl0 : 0 ≤ ⌊y⌋ := Int.floor_nonneg.mpr n3
    have hfl1 : ⌊y⌋ ≤ a.size := by
      have : (⌊y⌋ : K) ≤ (a.size : Int) := le_trans (Int.floor_le y) (by push_cast; exact n4)
      exact_mod_cast this
    refine ⟨⌊y⌋, ?_, Or.inl ⟨t, hsp, hnear, ?_, hfl0, hfl1⟩⟩
    · rw [computeR_end (b := true) F hn hT0 hz0 n1 (hid _ _ hr) hb.nonneg hbig (hraw hp hq hr), hy]
      refine (M.bind_ok (show (opt (some y) : M V K) h = .ok y h from rfl)).trans ?_
      exact toInt_run n3 rfl ⟨le_trans (by decide) hfl0, show _ ≤ (2147483647 : Int) by omega⟩ h
    · have q1 := Int.floor_le y
      have q2 := Int.lt_floor_add_one y
      have q3 := abs_le.mp n2
      rw [abs_le]
      constructor <;> linarith
  · have hp : rnd (s.selectedMB + s.selectedMF) = some 0 := by rw [b3, b4, add_zero, hz0]
    have hq : rnd ((a.size : K) * 0) = some 0 := by rw [mul_zero, hz0]
    have hr : rnd ((0 : K) / 2) = some 0 := by rw [zero_div, hz0]
    have := hraw hp hq hr
    refine ⟨0, ?_, Or.inr ⟨rfl, fun j hj => absurd (hb.pos hsharp j hj.1 hj) (by rw [b2]; exact lt_irrefl _)⟩⟩
    rw [computeR_end (b := true) F hn hT0 hz0 (le_refl _) hz0 hb.nonneg hbig this, zero_add]
    have huT : u ≤ u * T := le_mul_of_one_le_right hu f2
    have hlev := F.levels
    obtain ⟨c, ec, hc⟩ := F.rounds.near (1/2) (by rw [abs_of_pos (by norm_num)]; linarith)
    rw [abs_of_pos (show (0 : K) < 1/2 by norm_num)] at hc
    have hc' := abs_le.mp hc
    rw [ec]
    refine (M.bind_ok (show (opt (some c) : M V K) h = .ok c h from rfl)).trans ?_
    refine toInt_run (by linarith) ?_ (by decide) h
    rw [Int.floor_eq_iff]
    push_cast
    constructor <;> linarith

/-- With `double` and 256 levels. -/
theorem C104_otsu2_double {a : GrowArray Int} {hist : Nat → Int} {T : Nat} (ha : ∀ k, k < a.size → a.data[k]? = some (hist k))
    (h0 : ∀ k, k < a.size → 0 ≤ hist k) (hsz : a.size ≤ 256) (hT : sumN a.size hist = T) (hT0 : 0 < T) (hT32 : T < 4294967296) (down : Bool)
    (h : Heap V) :
    ∃ v : Int, (ComputeOtsu.mk true (0 : K) down 1).computeR float64 a T h = .ok v h ∧
      ((∃ t, (IsSplit a.size hist t ∧ 0 < hist t ∧
          ∀ j, IsSplit a.size hist j → (variance a.size hist j : K) ≤ variance a.size hist t + (T : K) ^ 2 / 10 ^ 6) ∧
        |(v : K) - (meanBelow hist t + meanAbove a.size hist t) / 2| ≤ 1/2 + 3 * T / 10 ^ 11) ∨
      (v = 0 ∧ ∀ j, ¬IsSplit a.size hist j)) := by
  obtain ⟨F, hid, hex, hsh⟩ := C104_double (K := K) (n := a.size) (T := T) (by omega) hT32
  obtain ⟨v, e, hv⟩ := C104_otsu2 (V := V) F (hsh hsz) hid hex ha h0 (by omega) hT hT0 hT32 down h
  refine ⟨v, e, ?_⟩
  rcases hv with ⟨t, ht, hn, hm, -, -⟩ | hv
  · left
    refine ⟨t, ?_, le_trans hm ?_⟩
    · rcases near_double h0 hsz hn (fun _ _ => ht) with c | ⟨_, c⟩
      · exact c
      · exact absurd ht (c t)
    · have hnK : (a.size : K) ≤ 256 := by exact_mod_cast hsz
      have h1 : (3 * (a.size : K) + 22) * a.size ≤ (3 * 256 + 22) * 256 := by gcongr
      have h2 : (3 * (a.size : K) + 22) * a.size * (1 / 2 ^ 53) ≤ 3 / 10 ^ 11 := by
        norm_num at h1 ⊢
        linarith
      have := mul_le_mul_of_nonneg_right h2 (Nat.cast_nonneg T : (0 : K) ≤ T)
      linarith
  · exact Or.inr hv

/-! ## No rounding -/

/-- Without rounding errors this is the computation of C34, C69 and C75. -/
theorem C104_exact {a : GrowArray Int} {hist : Nat → Int} (ha : ∀ k, k < a.size → a.data[k]? = some (hist k))
    (h0 : ∀ k, k < a.size → 0 ≤ hist k) {T : Nat} (hT : sumN a.size hist = T) (hT32 : T < 4294967296) (o : ComputeOtsu K) (h : Heap V) :
    o.computeR some a T h = o.compute a T h := by
  have ok : ∀ {α : Type} (x : α), (opt (some x) : M V α) = pure x := fun _ => rfl
  have e1 : (ComputeOtsu.totalR some a : M V K) = ComputeOtsu.total a := by
    unfold ComputeOtsu.totalR ComputeOtsu.total ComputeOtsu.addR
    simp only [Option.bind_some, ok]
  have e2 : ∀ S : K, (ComputeOtsu.scanR some a S T : M V _) = ComputeOtsu.scan a S T := by
    intro S
    unfold ComputeOtsu.scanR ComputeOtsu.scan ComputeOtsu.addR ComputeOtsu.classesR
    simp only [Option.bind_some, ok]
    rfl
  obtain ⟨s, e, hb⟩ := scan_run (K := K) ha h0 hT hT32 h
  have hv : 0 ≤ s.variance := by
    rcases hb.best with ⟨t, ht, hsp, b1, b2, _⟩ | ⟨_, _, b2, _⟩
    · rw [b2]
      have := (variance_pos (K := K) h0 hsp).1
      positivity
    · rw [b2]
  have fin : ∀ raw : K, ((if o.useOtsu2 then ComputeOtsu.computeOtsu2R some a T else ComputeOtsu.computeOtsuR some a T) : M V (K × K)) h =
        .ok (raw, s.variance) h →
      ((if o.useOtsu2 then ComputeOtsu.computeOtsu2 a T else ComputeOtsu.computeOtsu a T) : M V (K × K)) h = .ok (raw, s.variance) h →
      o.computeR some a T h = o.compute a T h := by
    intro raw q1 q2
    unfold ComputeOtsu.computeR ComputeOtsu.compute
    refine (M.bind_ok q1).trans ((M.bind_ok q2).trans ?_).symm
    simp only [ok]
    show _ = ((if s.variance + 1/1000 = 0 then M.ub else _ : M V Int)) h
    rw [if_neg (by positivity)]
    rfl
  have t0 := total_run (K := K) ha h
  cases ho : o.useOtsu2
  · refine fin s.threshold ?_ ?_
    · rw [ho]
      unfold ComputeOtsu.computeOtsuR
      rw [e1]
      simp only [e2]
      exact (M.bind_ok t0).trans ((M.bind_ok e).trans rfl)
    · rw [ho]
      exact (M.bind_ok t0).trans ((M.bind_ok e).trans rfl)
  · refine fin ((a.size : K) * (s.selectedMB + s.selectedMF) / 2) ?_ ?_
    · rw [ho]
      unfold ComputeOtsu.computeOtsu2R
      rw [e1]
      simp only [e2]
      exact (M.bind_ok t0).trans ((M.bind_ok e).trans rfl)
    · rw [ho]
      exact (M.bind_ok t0).trans ((M.bind_ok e).trans rfl)

/-- A histogram that meets the hypotheses of the theorems above (six levels, five pixels), and its threshold. -/
example : (∃ t : Nat, (ComputeOtsu.mk false (0 : ℚ) true 1).computeR float64 ⟨[2,0,1,0,0,2], 6, 0, true⟩ 5 (⟨[]⟩ : Heap Int) = .ok (t : Int) ⟨[]⟩) ∧
    (ComputeOtsu.mk false (0 : ℚ) true 1).computeR float64 ⟨[2,0,1,0,0,2], 6, 0, true⟩ 5 (⟨[]⟩ : Heap Int) = .ok 2 ⟨[]⟩ := by
  obtain ⟨t, e, _⟩ := C104_otsu_double (K := ℚ) (V := Int) (a := ⟨[2,0,1,0,0,2], 6, 0, true⟩) (hist := fun k => ([2,0,1,0,0,2] : List Int).getD k 0)
    (T := 5) (by decide) (by decide) (by decide) (by decide) (by decide) (by decide) true ⟨[]⟩
  exact ⟨⟨t, e⟩, by decide +kernel⟩

end Boof
