import Verif.Proofs.Tuned
import Verif.Proofs.GaussRounding
import Verif.Props.OtsuRounding
/-
C113: Otsu's method with tuning and scale, with rounded floating point arithmetic.
-/
namespace Boof
open M OtsuSpec
variable {K : Type} [Field K] [LinearOrder K] [IsStrictOrderedRing K] [FloorRing K] {V : Type}
variable {rnd : K → Option K} {u η big : K}

/-- The end of `compute` for any tuning and scale. -/
theorem tune_run {τ s N : K} (F : TuneFits rnd u η big τ s N) (hs : 0 ≤ s) {a : GrowArray Int} {T : Nat} {h : Heap V} {b down : Bool} {raw var : K}
    (hr0 : 0 ≤ raw) (hrN : raw ≤ N) (hv0 : 0 ≤ var) (hvb : var + 1 ≤ big) (hX : texture τ raw var ≤ 2 ^ 30)
    (hZ : s * (raw + texture τ raw var + 1) ≤ 2 ^ 30)
    (e : ((if b then ComputeOtsu.computeOtsu2R rnd a T else ComputeOtsu.computeOtsuR rnd a T) : M V (K × K)) h = .ok (raw, var) h) :
    ∃ p r : Int, (ComputeOtsu.mk b τ down s).computeR rnd a T h = .ok r h ∧ 0 ≤ p ∧ 0 ≤ r ∧
      |(p : K) - texture τ raw var| ≤ 1/2 + 15 * u * texture τ raw var + 1300 * u ∧
      |(r : K) - s * max (if down then raw - p else raw + p) 0| ≤ 1/2 + 4 * u * (s * (raw + texture τ raw var + 1) + 1) := by
  have hu := F.rounds.rel
  have hη0 := F.rounds.abs
  have hfine := F.fine
  have hints := F.ints
  have hT := abs_nonneg τ
  have hN0 : 0 ≤ N := le_trans hr0 hrN
  have hB : (|τ| + 1) * (raw + 1) ≤ (|τ| + 1) * (N + 1) := mul_le_mul_of_nonneg_left (by linarith only [hrN]) (by linarith only [hT])
  have hB1 : 1 ≤ (|τ| + 1) * (raw + 1) := one_le_mul_of_one_le_of_one_le (by linarith only [hT]) (by linarith only [hr0])
  have hBN : N + 1 ≤ (|τ| + 1) * (N + 1) := le_mul_of_one_le_left (by linarith only [hN0]) (by linarith only [hT])
  have htiny := F.tiny
  have hsη : 0 ≤ s * η := mul_nonneg hs hη0
  have hBη : (|τ| + 1) * (raw + 1) * η ≤ (|τ| + 1) * (N + 1) * η := mul_le_mul_of_nonneg_right hB hη0
  have hBη1 : η ≤ (|τ| + 1) * (raw + 1) * η := le_mul_of_one_le_left hη0 hB1
  have hrange : 4 * ((|τ| + 1) * (raw + 1)) ^ 2 ≤ big := by
    refine le_trans (mul_le_mul_of_nonneg_left (pow_le_pow_left₀ (by linarith only [hB1]) hB 2) (by norm_num)) F.range
  have hNbig : 4 * N ≤ big := by
    have h1 : (|τ| + 1) * (N + 1) ≤ ((|τ| + 1) * (N + 1)) ^ 2 := by
      rw [sq]; exact le_mul_of_one_le_left (by linarith only [hB1, hB]) (by linarith only [hB1, hB])
    linarith only [h1, hBN, F.range]
  have ht' : 4000 * ((|τ| + 1) * (N + 1) * η) + 4000 * (s * η) ≤ u := by
    linarith only [htiny, show 4000 * ((|τ| + 1) * (N + 1) + s) * η = 4000 * ((|τ| + 1) * (N + 1) * η) + 4000 * (s * η) by ring]
  have hu20 : 2 ^ 20 * u ≤ 1 := by linarith only [hfine, hu]
  have hη1000 : 1000 * η ≤ u := by linarith only [ht', hBη, hBη1, hsη, hη0]
  -- the penalty
  obtain ⟨a1, a2, a3, e1, e2, e3, h3⟩ := square_near (τ := τ) F.rounds (by linarith only [hu20, hu]) hr0
    (by linarith only [ht', hBη, hBη1, hsη, hη0]) hrange
  obtain ⟨m, w, em, ew, hw⟩ := denominator_near F.rounds (by linarith only [hu20, hu]) hη1000 hv0 hvb
  have hXe : texture τ raw var = (τ * raw) ^ 2 / (var + 1/1000) := rfl
  have hX0 : 0 ≤ texture τ raw var := div_nonneg (sq_nonneg _) (by linarith only [hv0])
  obtain ⟨hw0, q, bb, eq, eb, hb⟩ := quotient_near F.rounds hu20 hη1000 (sq_nonneg (τ * raw)) (by linarith only [hv0]) h3 hw
    (by rw [← hXe]; linarith only [hX, hints]) (by rw [← hXe]; linarith only [hX, hints])
  rw [← hXe] at hb
  generalize texture τ raw var = X at *
  have huX0 : 0 ≤ u * X := mul_nonneg hu hX0
  have huX1 : u * X ≤ 1 / 2 ^ 10 := by
    have h1 := mul_le_mul_of_nonneg_left hX hu
    norm_num at h1 hfine ⊢
    linarith only [h1, hfine]
  have huX2 : 2 ^ 20 * (u * X) ≤ X := by
    have := mul_le_mul_of_nonneg_right hu20 hX0
    linarith only [this]
  have hb' := abs_le.mp hb
  have hb0 : 0 ≤ bb := by linarith only [hb'.1, huX2, huX0, hu20, hu, hX0]
  have hpl := Int.floor_le bb
  have hpu := Int.lt_floor_add_one bb
  have hp0 : 0 ≤ ⌊bb⌋ := Int.floor_nonneg.mpr hb0
  have hp0K : (0 : K) ≤ ((⌊bb⌋ : Int) : K) := by exact_mod_cast hp0
  have hpX : ((⌊bb⌋ : Int) : K) ≤ X + 1 := by norm_num at huX1; linarith only [hpl, hb'.2, huX1, hu20, hu]
  have hp31 : ⌊bb⌋ ≤ 2147483647 := by
    have h1 : ((⌊bb⌋ : Int) : K) ≤ ((2147483647 : Int) : K) := by norm_num at hX ⊢; linarith only [hpX, hX]
    exact_mod_cast h1
  have eI : (M.toInt S32 bb : M V Int) h = .ok ⌊bb⌋ h :=
    toInt_run (t := S32) hb0 rfl ⟨show (-2147483648 : Int) ≤ _ by omega, hp31⟩ h
  generalize ⌊bb⌋ = p at *
  have eD : ((if down then S32.arith (-p) else pure p : M V Int)) h = .ok (if down then -p else p) h := by
    cases down
    · rfl
    · simp only [if_true]
      unfold IntTy.arith
      rw [if_pos (by rfl), if_pos ⟨show (-2147483648 : Int) ≤ _ by omega, show _ ≤ (2147483647 : Int) by omega⟩]; rfl
  have hMv : raw + (((if down then -p else p) : Int) : K) = if down then raw - p else raw + p := by
    cases down
    · simp
    · simp [sub_eq_add_neg]
  have hMa : |raw + (((if down then -p else p) : Int) : K)| ≤ raw + X + 1 := by
    have h1 := abs_add_le raw (((if down then -p else p) : Int) : K)
    have h2 : |(((if down then -p else p) : Int) : K)| = (p : K) := by
      cases down
      · simp only [Bool.false_eq_true, if_false]; exact abs_of_nonneg hp0K
      · simp only [if_true]; rw [Int.cast_neg, abs_neg]; exact abs_of_nonneg hp0K
    rw [h2, abs_of_nonneg hr0] at h1
    linarith only [h1, hpX]
  generalize (if down then -p else p) = δ at *
  have hZ0 : 0 ≤ s * (raw + X + 1) := mul_nonneg hs (by linarith only [hr0, hX0])
  obtain ⟨x, y, z, ex, ey, ez, hz, hz0⟩ := scaled_near (N := raw + (δ : K)) (Z := s * (raw + X + 1)) F.rounds hu20 hs
    (by linarith only [ht', hBη, hBη1, hsη, hη0]) (mul_le_mul_of_nonneg_left hMa hs)
    (by linarith only [hMa, hrN, hNbig, hX, hints, hN0]) (by linarith only [hZ, hints])
  rw [hMv] at hz
  have hz' := abs_le.mp hz
  have hzl := Int.floor_le z
  have hzu := Int.lt_floor_add_one z
  have hr0' : 0 ≤ ⌊z⌋ := Int.floor_nonneg.mpr hz0
  have huZ : 4 * u * (s * (raw + X + 1) + 1) ≤ 1 := by
    have h1 := mul_le_mul_of_nonneg_left hZ hu
    norm_num at h1 hfine
    linarith only [h1, hfine, hu]
  have hMax : s * max (if down then raw - (p : K) else raw + p) 0 ≤ s * (raw + X + 1) := by
    refine mul_le_mul_of_nonneg_left (max_le ?_ (by linarith only [hr0, hX0])) hs
    rw [← hMv]; exact le_trans (le_abs_self _) hMa
  have hr31 : ⌊z⌋ ≤ 2147483647 := by
    have h1 : ((⌊z⌋ : Int) : K) ≤ ((2147483647 : Int) : K) := by
      norm_num at hZ ⊢; linarith only [hzl, hz'.2, hMax, hZ, huZ]
    exact_mod_cast h1
  refine ⟨p, ⌊z⌋, ?_, hp0, hr0', ?_, ?_⟩
  · unfold ComputeOtsu.computeR
    have ok : ∀ {x : K} {o : Option K} (_ : o = some x), (opt o : M V K) h = .ok x h := fun hx => by rw [hx]; rfl
    refine (M.bind_ok e).trans ?_
    refine (M.bind_ok (ok em)).trans ?_
    refine (M.bind_ok (ok ew)).trans ?_
    refine (M.bind_ok (ok e1)).trans ?_
    refine (M.bind_ok (ok e2)).trans ?_
    refine (M.bind_ok (ok e3)).trans ?_
    rw [if_neg hw0.ne']
    refine (M.bind_ok (ok eq)).trans ?_
    refine (M.bind_ok (ok eb)).trans ?_
    refine (M.bind_ok eI).trans ?_
    refine (M.bind_ok eD).trans ?_
    refine (M.bind_ok (ok ex)).trans ?_
    refine (M.bind_ok (ok ey)).trans ?_
    refine (M.bind_ok (ok ez)).trans ?_
    exact toInt_run (t := S32) hz0 rfl ⟨show (-2147483648 : Int) ≤ _ by omega, hr31⟩ h
  · rw [abs_le]; constructor <;> linarith only [hpl, hpu, hb'.1, hb'.2]
  · rw [abs_le]; constructor <;> linarith only [hzl, hzu, hz'.1, hz'.2]

/-- The errors of the threshold and the penalty put together. -/
theorem tune_close {u ρ s raw raw' X X' p M M' r : K} (hu : 0 ≤ u) (hs : 0 ≤ s) (hρ0 : 0 ≤ ρ) (hρ : 2 * ρ ≤ 1) (huρ : 102 * u ≤ ρ) (hr0 : 0 ≤ raw) (hX0 : 0 ≤ X)
    (hr : |raw' - raw| ≤ 1/3 * ρ) (hX : |X' - X| ≤ 6 * ρ * X) (hM : |M' - M| ≤ |raw' - raw|)
    (h1 : |p - X'| ≤ 1/2 + 15 * u * X' + 1300 * u) (h2 : |r - s * M'| ≤ 1/2 + 4 * u * (s * (raw' + X' + 1) + 1)) :
    |p - X| ≤ 1/2 + 7 * ρ * X + 1300 * u ∧ |r - s * M| ≤ 1/2 + ρ * (s * (raw + X + 1) + 1) := by
  have hr' := abs_le.mp hr
  have hX' := abs_le.mp hX
  have hρX : ρ * X ≤ 1/2 * X := mul_le_mul_of_nonneg_right (by linarith only [hρ]) hX0
  have hX4 : X' ≤ 4 * X := by linarith only [hX'.2, hρX]
  have huX : 102 * (u * X) ≤ ρ * X := by
    have := mul_le_mul_of_nonneg_right huρ hX0
    linarith only [this]
  constructor
  · have a1 := abs_add_le (p - X') (X' - X)
    rw [sub_add_sub_cancel] at a1
    have a2 := mul_le_mul_of_nonneg_left hX4 hu
    have a3 : 0 ≤ u * X := mul_nonneg hu hX0
    linarith only [a1, a2, a3, h1, hX, huX]
  · have a1 := abs_add_le (r - s * M') (s * M' - s * M)
    rw [sub_add_sub_cancel, ← mul_sub, abs_mul, abs_of_nonneg hs] at a1
    have a2 := mul_le_mul_of_nonneg_left (le_trans hM hr) hs
    have a3 : s * (raw' + X' + 1) ≤ s * (4 * (raw + X) + 7/6) := mul_le_mul_of_nonneg_left (by linarith only [hr'.2, hX4, hρ, hr0]) hs
    have a4 := mul_le_mul_of_nonneg_left a3 hu
    have a5 : 0 ≤ s * (4 * (raw + X) + 7/6) + 1 := by
      have := mul_nonneg hs (show 0 ≤ 4 * (raw + X) + 7/6 by linarith only [hr0, hX0])
      linarith only [this]
    have a6 := mul_le_mul_of_nonneg_right huρ a5
    have a7 : 0 ≤ ρ * (s * (raw + X)) := mul_nonneg hρ0 (mul_nonneg hs (by linarith only [hr0, hX0]))
    have a8 : 0 ≤ ρ * s := mul_nonneg hρ0 hs
    linarith only [a1, a2, a4, a6, a7, a8, h2, hρ0, hs, show 102 * u * (s * (4 * (raw + X) + 7/6) + 1) = 102 * (u * (s * (4 * (raw + X) + 7/6))) + 102 * u by ring,
      show ρ * (s * (4 * (raw + X) + 7/6) + 1) = 4 * (ρ * (s * (raw + X))) + 7/6 * (ρ * s) + ρ by ring,
      show ρ * (s * (raw + X + 1) + 1) = ρ * (s * (raw + X)) + ρ * s + ρ by ring,
      show 4 * u * (s * (raw' + X' + 1) + 1) = 4 * (u * (s * (raw' + X' + 1))) + 4 * u by ring]

/-- For any tuning, scale and direction: a split of nearly maximal between-class variance is taken, its threshold is moved by the penalty for low
texture, scaled and rounded to an integer; the penalty is the exact one up to rounding to an integer and the given errors. -/
theorem C113_tuned {a : GrowArray Int} {hist : Nat → Int} {T : Nat} {otsu2 down : Bool} {tuning scale : K} (F : OtsuFits rnd u η big a.size T)
    (hsharp : OtsuSharp u η a.size T) (hη : (a.size : K) ^ 2 * η ≤ u) (herr : 2 * tuneError u a.size T ≤ 1)
    (hfit : TuneFits rnd u η big tuning scale a.size) (hid : Idempotent rnd) (hex : ExactTo rnd a.size)
    (ha : ∀ k, k < a.size → a.data[k]? = some (hist k)) (h0 : ∀ k, k < a.size → 0 ≤ hist k) (hT : sumN a.size hist = T) (hT0 : 0 < T)
    (hT32 : T < 4294967296) (hs : 0 ≤ scale) (hrange : TuneRange otsu2 tuning scale a.size hist) (h : Heap V) :
    ∃ (t : Nat) (raw var : K) (p r : Int), (ComputeOtsu.mk otsu2 tuning down scale).computeR rnd a T h = .ok r h ∧
      NearOtsu ((a.size : K) ^ 2 * (2 * otsuError u a.size T)) a.size hist t ∧ (∀ j, IsSplit a.size hist j → IsSplit a.size hist t) ∧
      IsRaw otsu2 a.size hist t raw var ∧ 0 ≤ p ∧ 0 ≤ r ∧
      |(p : K) - texture tuning raw var| ≤ 1/2 + 7 * tuneError u a.size T * texture tuning raw var + 1300 * u ∧
      |(r : K) - scale * max (if down then raw - p else raw + p) 0| ≤
        1/2 + tuneError u a.size T * (scale * (raw + texture tuning raw var + 1) + 1) ∧
      (otsu2 = false → scale = 1 → r = max (if down then (t : Int) - p else t + p) 0) := by
  have hz0 : rnd 0 = some 0 := by simpa using hex 0 (by omega)
  obtain ⟨S, s, e1, e2, hb, hbig, hnear⟩ := otsuR_scan (V := V) F hid hz0 ha h0 hT hT0 hT32 h
  have hn : 0 < a.size := by
    rcases Nat.eq_zero_or_pos a.size with c | c
    · rw [c] at hT; simp [sumN] at hT; omega
    · exact c
  obtain ⟨f1, f2, f3, f4, f5, f6⟩ := F.facts hn hT0
  have hu := F.rounds.rel
  have huT : u ≤ u * T := le_mul_of_one_le_right hu f2
  have hρ0 : 0 ≤ tuneError u a.size T := by unfold tuneError; positivity
  have hκ : (a.size : K) * (u * T) ≤ a.size * (a.size * (u * T)) := le_mul_of_one_le_left (by positivity) f1
  have hκ1 : u * T ≤ a.size * (u * T) := le_mul_of_one_le_left (by linarith only [hu, huT]) f1
  have hρe : tuneError u a.size T = 18 * (a.size * (a.size * (u * T))) + 84 * (a.size * (u * T)) := by unfold tuneError; ring
  have huρ : 102 * u ≤ tuneError u a.size T := by rw [hρe]; linarith only [hκ, hκ1, huT]
  have hρ3 : 3 * ((6 * (a.size : K) + 28) * u * T * a.size) = tuneError u a.size T := by unfold tuneError; ring
  have hmid : (3 * (a.size : K) + 22) * a.size * u * T ≤ 1/3 * tuneError u a.size T := by
    rw [hρe]
    linarith only [hκ, hκ1, huT, hu, show (3 * (a.size : K) + 22) * a.size * u * T = 3 * (a.size * (a.size * (u * T))) + 22 * (a.size * (u * T)) by ring]
  -- from a threshold and a variance that are close
  have fin : ∀ (t : Nat) (raw raw' var var' : K), IsRaw otsu2 a.size hist t raw var → NearOtsu ((a.size : K) ^ 2 * (2 * otsuError u a.size T)) a.size hist t →
      (∀ j, IsSplit a.size hist j → IsSplit a.size hist t) → 0 ≤ raw → 0 ≤ raw' → raw' ≤ a.size → 0 ≤ var → 0 ≤ var' → var' + 1 ≤ big →
      |raw' - raw| ≤ 1/3 * tuneError u a.size T → |raw' - raw| ≤ 2/3 * tuneError u a.size T * raw → |var' - var| ≤ tuneError u a.size T * var →
      texture tuning raw var ≤ 2 ^ 28 → scale * (raw + texture tuning raw var + 1) ≤ 2 ^ 28 → (otsu2 = false → raw' = t) →
      ((if otsu2 then ComputeOtsu.computeOtsu2R rnd a T else ComputeOtsu.computeOtsuR rnd a T) : M V (K × K)) h = .ok (raw', var') h → 
      ∃ (t : Nat) (raw var : K) (p r : Int), (ComputeOtsu.mk otsu2 tuning down scale).computeR rnd a T h = .ok r h ∧
        NearOtsu ((a.size : K) ^ 2 * (2 * otsuError u a.size T)) a.size hist t ∧ (∀ j, IsSplit a.size hist j → IsSplit a.size hist t) ∧
        IsRaw otsu2 a.size hist t raw var ∧ 0 ≤ p ∧ 0 ≤ r ∧
        |(p : K) - texture tuning raw var| ≤ 1/2 + 7 * tuneError u a.size T * texture tuning raw var + 1300 * u ∧
        |(r : K) - scale * max (if down then raw - p else raw + p) 0| ≤
          1/2 + tuneError u a.size T * (scale * (raw + texture tuning raw var + 1) + 1) ∧
        (otsu2 = false → scale = 1 → r = max (if down then (t : Int) - p else t + p) 0) := by
    intro t raw raw' var var' i1 i2 i3 r0 r0' rN v0 v0' vb rd rd' vd x1 x2 rt e
    have hX := texture_near (τ := tuning) hρ0 herr r0 v0 rd' vd
    have hX0 : 0 ≤ texture tuning raw var := div_nonneg (sq_nonneg _) (by linarith only [v0])
    have hX' := abs_le.mp hX
    have rd1 := abs_le.mp rd
    have hρX : tuneError u a.size T * texture tuning raw var ≤ 1/2 * texture tuning raw var :=
      mul_le_mul_of_nonneg_right (by linarith only [herr]) hX0
    have hX4 : texture tuning raw' var' ≤ 4 * texture tuning raw var := by linarith only [hX'.2, hρX]
    have hZ : scale * (raw' + texture tuning raw' var' + 1) ≤ 4 * (scale * (raw + texture tuning raw var + 1)) := by
      have := mul_le_mul_of_nonneg_left (show raw' + texture tuning raw' var' + 1 ≤ 4 * (raw + texture tuning raw var + 1) by
        linarith only [rd1.2, herr, hX4, r0]) hs
      linarith only [this]
    have hX30 : texture tuning raw' var' ≤ 2 ^ 30 := by norm_num at x1 ⊢; linarith only [hX4, x1]
    have hZ30 : scale * (raw' + texture tuning raw' var' + 1) ≤ 2 ^ 30 := by norm_num at x2 ⊢; linarith only [hZ, x2]
    obtain ⟨p, r, er, p0, q0, c1, c2⟩ := tune_run (down := down) hfit hs r0' rN v0' vb hX30 hZ30 e
    have hM : |max (if down then raw' - (p : K) else raw' + p) 0 - max (if down then raw - (p : K) else raw + p) 0| ≤ |raw' - raw| := by
      refine le_trans (abs_max_sub_max_le_abs _ _ _) (le_of_eq ?_)
      cases down
      · simp
      · simp
    obtain ⟨d1, d2⟩ := tune_close hu hs hρ0 herr huρ r0 hX0 rd hX hM c1 c2
    refine ⟨t, raw, var, p, r, er, i2, i3, i1, p0, q0, d1, d2, fun ho h1 => ?_⟩
    rw [rt ho, h1, one_mul, one_mul] at c2
    have hsm : 4 * u * (raw' + texture tuning raw' var' + 1 + 1) < 1/2 := by
      rw [h1, one_mul] at hZ30
      have f40 := hfit.fine
      have hq := mul_le_mul_of_nonneg_left hZ30 hu
      norm_num at hq f40 ⊢
      linarith only [hq, f40, hu]
    rw [rt ho] at hsm
    have hI : ((max (if down then (t : Int) - p else t + p) 0 : Int) : K) = max (if down then (t : K) - p else t + p) 0 := by
      cases down <;> simp
    rw [← hI] at c2
    have c3 := abs_le.mp c2
    have c4 : (r : K) < ((max (if down then (t : Int) - p else t + p) 0 + 1 : Int) : K) := by
      push_cast at c3 ⊢; linarith only [c3.2, hsm]
    have c5 : ((max (if down then (t : Int) - p else t + p) 0 - 1 : Int) : K) < (r : K) := by
      push_cast at c3 ⊢; linarith only [c3.1, hsm]
    have c6 := Int.cast_lt.mp c4
    have c7 := Int.cast_lt.mp c5
    omega
  rcases hb.best with ⟨t, ht, hsp, hpos, b1, b2, b3, b4, b5⟩ | ⟨b1, b2, b3, b4⟩
  · obtain ⟨m0, m1, m2, m3, m4⟩ := variance_pos (K := K) h0 hsp
    have htn : (t : K) + 1 ≤ a.size := by exact_mod_cast ht
    have ht0 : (0 : K) ≤ t := Nat.cast_nonneg _
    rw [b1, Int.floor_natCast, Int.toNat_natCast] at hnear
    have vd := b5 hsharp hη
    rw [hρ3] at vd
    have v0 : 0 ≤ variance a.size hist t / (a.size : K) ^ 2 := by positivity
    cases otsu2
    · have hraw : (ComputeOtsu.computeOtsuR rnd a T : M V (K × K)) h = .ok ((t : K), s.variance) h := by
        unfold ComputeOtsu.computeOtsuR
        rw [← b1]
        exact (M.bind_ok e1).trans ((M.bind_ok e2).trans rfl)
      have hI : IsRaw false a.size hist t (t : K) (variance a.size hist t / (a.size : K) ^ 2) := ⟨fun _ => ⟨rfl, rfl⟩, fun c => absurd hsp c⟩
      obtain ⟨x1, x2⟩ := hrange.2 t _ _ hsp hI
      exact fin t _ _ _ _ hI hnear (fun _ _ => hsp) ht0 ht0 (by linarith only [htn]) v0 hb.nonneg hbig
        (by rw [sub_self, abs_zero]; linarith only [hρ0]) (by rw [sub_self, abs_zero]; positivity) vd x1 x2 (fun _ => rfl) hraw
    · obtain ⟨p, q, r, y, hp, hq, hr, hy, n1, n2, n3, n4, n5⟩ := midpoint_near F.rounds f1 f2 f4 hsharp.fine F.levels m3 (by linarith) (by linarith) m4 b3 b4
      have hraw : (ComputeOtsu.computeOtsu2R rnd a T : M V (K × K)) h = .ok (r, s.variance) h := by
        unfold ComputeOtsu.computeOtsu2R
        refine (M.bind_ok e1).trans ((M.bind_ok e2).trans ?_)
        rw [hp]
        refine (M.bind_ok (show (opt (some p) : M V K) h = .ok p h from rfl)).trans ?_
        simp only [hq]
        refine (M.bind_ok (show (opt (some q) : M V K) h = .ok q h from rfl)).trans ?_
        simp only [hr]
        rfl
      have hI : IsRaw true a.size hist t ((meanBelow hist t + meanAbove a.size hist t : K) / 2) (variance a.size hist t / (a.size : K) ^ 2) :=
        ⟨fun _ => ⟨rfl, rfl⟩, fun c => absurd hsp c⟩
      obtain ⟨x1, x2⟩ := hrange.2 t _ _ hsp hI
      have n5' := le_trans n5 hmid
      have n6 := abs_le.mp n5'
      have hρm : tuneError u a.size T * (1/2) ≤ tuneError u a.size T * ((meanBelow hist t + meanAbove a.size hist t : K) / 2) :=
        mul_le_mul_of_nonneg_left (by linarith only [m2, m3, ht0]) hρ0
      exact fin t _ _ _ _ hI hnear (fun _ _ => hsp) (by linarith only [m2, m3, ht0]) n1
        (by linarith only [n6.2, herr, m1, m4, htn]) v0 hb.nonneg hbig n5'
        (by linarith only [n5', hρm]) vd x1 x2 (fun c => by cases c) hraw
  · rw [b1, Int.floor_zero, Int.toNat_zero] at hnear
    have hno : ∀ j, ¬IsSplit a.size hist j := fun j hj => absurd (hb.pos hsharp j hj.1 hj) (by rw [b2]; exact lt_irrefl _)
    have hI : IsRaw otsu2 a.size hist 0 (0 : K) 0 := ⟨fun c => absurd c (hno 0), fun _ => ⟨rfl, rfl⟩⟩
    have htx : texture tuning (0 : K) 0 = 0 := by unfold texture; simp
    have hraw : ((if otsu2 then ComputeOtsu.computeOtsu2R rnd a T else ComputeOtsu.computeOtsuR rnd a T) : M V (K × K)) h = .ok ((0 : K), 0) h := by
      cases otsu2
      · simp only [Bool.false_eq_true, if_false]
        unfold ComputeOtsu.computeOtsuR
        refine (M.bind_ok e1).trans ((M.bind_ok e2).trans ?_)
        rw [b1, b2]; rfl
      · simp only [if_true]
        unfold ComputeOtsu.computeOtsu2R
        refine (M.bind_ok e1).trans ((M.bind_ok e2).trans ?_)
        rw [b3, b4, b2]
        simp only [add_zero, hz0]
        refine (M.bind_ok (show (opt (some (0 : K)) : M V K) h = .ok 0 h from rfl)).trans ?_
        simp only [mul_zero, hz0]
        refine (M.bind_ok (show (opt (some (0 : K)) : M V K) h = .ok 0 h from rfl)).trans ?_
        simp only [zero_div, hz0]
        rfl
    exact fin 0 _ _ _ _ hI hnear (fun j hj => absurd hj (hno j)) (le_refl _) (le_refl _) (by linarith only [f1]) (le_refl _) (le_refl _)
      (by rw [b2] at hbig; exact hbig) (by rw [sub_self, abs_zero]; linarith only [hρ0]) (by rw [sub_self, abs_zero, mul_zero])
      (by rw [sub_self, abs_zero, mul_zero]) (by rw [htx]; norm_num) (by rw [htx]; linarith only [hrange.1]) (fun _ => by simp) hraw

/-! ## Tuning never selects more -/

theorem M.bind_inv {α β : Type} {m : M V α} {f : α → M V β} {h h' : Heap V} {b : β} (e : (m >>= f) h = .ok b h') :
    ∃ a h1, m h = .ok a h1 ∧ f a h1 = .ok b h' := by
  have e' : (match m h with | .ok a s => f a s | .throw s => .throw s | .ub => .ub | .timeout => .timeout) = Res.ok b h' := e
  rcases hm : m h with ⟨a, h1⟩ | _ | _ | _
  · rw [hm] at e'; exact ⟨a, h1, rfl, e'⟩
  all_goals rw [hm] at e'; cases e'

theorem M.opt_inv {α β : Type} {o : Option α} {f : α → M V β} {h h' : Heap V} {b : β} (e : (opt o >>= f) h = .ok b h') :
    ∃ a, o = some a ∧ f a h = .ok b h' := by
  cases o with
  | none => cases e
  | some a => exact ⟨a, rfl, e⟩

theorem M.loopS_inv {β : Type} {P : β → Prop} {body : Nat → β → M V β} (step : ∀ i s h s' h', P s → body i s h = .ok s' h' → P s') {init : β}
    (h0 : P init) : ∀ {n : Nat} {h h' : Heap V} {s : β}, M.loopS n init body h = .ok s h' → P s
  | 0, _, _, _, e => by cases e; exact h0
  | n+1, _, _, _, e => by
      obtain ⟨s1, h1, e1, e2⟩ := M.bind_inv (m := M.loopS n init body) (f := fun s => body n s) e
      exact step _ _ _ _ _ (M.loopS_inv step h0 e1) e2

theorem scanR_nonneg {a : GrowArray Int} {S : K} {T : Nat} {s : ComputeOtsu.Scan K} {h h' : Heap V}
    (e : (ComputeOtsu.scanR rnd a S T : M V _) h = .ok s h') : 0 ≤ s.variance := by
  refine M.loopS_inv (P := fun s : ComputeOtsu.Scan K => 0 ≤ s.variance) ?_ (le_refl _) e
  intro i s h s' h' hs e
  dsimp only at e
  split at e
  · cases e; exact hs
  · obtain ⟨c, h1, -, e⟩ := M.bind_inv e
    split at e
    · cases e; exact hs
    · split at e
      · cases e; exact hs
      · obtain ⟨sB, -, e⟩ := M.opt_inv e
        obtain ⟨m, -, e⟩ := M.opt_inv e
        split at e
        · next c => cases e; exact le_trans hs c.le
        · cases e; exact hs

theorem rawR_nonneg {a : GrowArray Int} {T : Nat} {b : Bool} {r : K × K} {h h' : Heap V}
    (e : ((if b then ComputeOtsu.computeOtsu2R rnd a T else ComputeOtsu.computeOtsuR rnd a T) : M V (K × K)) h = .ok r h') : 0 ≤ r.2 := by
  cases b
  · simp only [Bool.false_eq_true, if_false] at e
    obtain ⟨S, h1, -, e⟩ := M.bind_inv e
    obtain ⟨s, h2, es, e⟩ := M.bind_inv e
    cases e
    exact scanR_nonneg es
  · simp only [if_true] at e
    obtain ⟨S, h1, -, e⟩ := M.bind_inv e
    obtain ⟨s, h2, es, e⟩ := M.bind_inv e
    obtain ⟨_, -, e⟩ := M.opt_inv e
    obtain ⟨_, -, e⟩ := M.opt_inv e
    obtain ⟨_, -, e⟩ := M.opt_inv e
    cases e
    exact scanR_nonneg es

theorem toInt_inv {v : K} (hv : 0 ≤ v) {h h' : Heap V} {n : Int} (e : (M.toInt S32 v : M V Int) h = .ok n h') : n = ⌊v⌋ ∧ n ≤ 2147483647 ∧ h' = h := by
  rw [toInt_if hv] at e
  split at e
  · next c => cases e; exact ⟨rfl, c, rfl⟩
  · cases e

/-- What a run that succeeds has computed. -/
theorem computeR_inv (Fm : Format rnd) {a : GrowArray Int} {T : Nat} {b down : Bool} {τ s : K} (hs : 0 ≤ s) {h h' : Heap V} {r : Int}
    (e : (ComputeOtsu.mk b τ down s).computeR rnd a T h = .ok r h') :
    ∃ (raw var : K) (h1 : Heap V) (q c x y z : K),
      ((if b then ComputeOtsu.computeOtsu2R rnd a T else ComputeOtsu.computeOtsuR rnd a T) : M V (K × K)) h = .ok (raw, var) h1 ∧
      0 ≤ q ∧ (τ = 0 → q = 0) ∧ rnd (q + 1/2) = some c ∧ 0 ≤ c ∧ rnd (raw + if down then -((⌊c⌋ : Int) : K) else ((⌊c⌋ : Int) : K)) = some x ∧
      rnd (s * max x 0) = some y ∧ rnd (y + 1/2) = some z ∧ r = ⌊z⌋ := by
  obtain ⟨⟨raw, var⟩, h1, er, e⟩ := M.bind_inv e
  have hv : 0 ≤ var := rawR_nonneg er
  obtain ⟨m, em, e⟩ := M.opt_inv e
  obtain ⟨w, ew, e⟩ := M.opt_inv e
  obtain ⟨a1, e1, e⟩ := M.opt_inv e
  obtain ⟨a2, e2, e⟩ := M.opt_inv e
  obtain ⟨a3, e3, e⟩ := M.opt_inv e
  dsimp only at em ew e1 e2 e3 e
  have hm : 0 ≤ m := Fm.nonneg (by norm_num) em
  have hw : 0 ≤ w := Fm.nonneg (by linarith) ew
  split at e
  · cases e
  obtain ⟨q, eq, e⟩ := M.opt_inv e
  obtain ⟨c, ec, e⟩ := M.opt_inv e
  have ha3 : 0 ≤ a3 := by
    rcases le_total 0 raw with hr | hr <;> rcases le_total 0 τ with ht | ht
    · have h1 := Fm.nonneg (mul_nonneg ht hr) e1
      have h2 := Fm.nonneg (mul_nonneg h1 ht) e2
      exact Fm.nonneg (mul_nonneg h2 hr) e3
    · have h1 := Fm.nonpos (mul_nonpos_of_nonpos_of_nonneg ht hr) e1
      have h2 := Fm.nonneg (mul_nonneg_of_nonpos_of_nonpos h1 ht) e2
      exact Fm.nonneg (mul_nonneg h2 hr) e3
    · have h1 := Fm.nonpos (mul_nonpos_of_nonneg_of_nonpos ht hr) e1
      have h2 := Fm.nonpos (mul_nonpos_of_nonpos_of_nonneg h1 ht) e2
      exact Fm.nonneg (mul_nonneg_of_nonpos_of_nonpos h2 hr) e3
    · have h1 := Fm.nonneg (mul_nonneg_of_nonpos_of_nonpos ht hr) e1
      have h2 := Fm.nonpos (mul_nonpos_of_nonneg_of_nonpos h1 ht) e2
      exact Fm.nonneg (mul_nonneg_of_nonpos_of_nonpos h2 hr) e3
  have hq : 0 ≤ q := Fm.nonneg (div_nonneg ha3 hw) eq
  have hc : 0 ≤ c := Fm.nonneg (by linarith) ec
  obtain ⟨p, h2, ep, e5⟩ := M.bind_inv e
  obtain ⟨rfl, hp31, rfl⟩ := toInt_inv hc ep
  obtain ⟨δ, h3, eδ, e6⟩ := M.bind_inv e5
  have hp0 : 0 ≤ ⌊c⌋ := Int.floor_nonneg.mpr hc
  have eD : ((if down then S32.arith (-⌊c⌋) else pure ⌊c⌋ : M V Int)) h2 = .ok (if down then -⌊c⌋ else ⌊c⌋) h2 := by
    cases down
    · rfl
    · simp only [if_true]
      unfold IntTy.arith
      rw [if_pos (by rfl), if_pos ⟨show (-2147483648 : Int) ≤ _ by omega, show _ ≤ (2147483647 : Int) by omega⟩]; rfl
  have eδ' := eδ.symm.trans eD
  cases eδ'
  obtain ⟨x, ex, e7⟩ := M.opt_inv e6
  obtain ⟨y, ey, e8⟩ := M.opt_inv e7
  obtain ⟨z, ez, e9⟩ := M.opt_inv e8
  have hy : 0 ≤ y := Fm.nonneg (mul_nonneg hs (le_max_right _ _)) ey
  have hz : 0 ≤ z := Fm.nonneg (by linarith) ez
  obtain ⟨rfl, -, -⟩ := toInt_inv hz e9
  refine ⟨raw, var, _, q, c, x, y, z, er, hq, ?_, ec, hc, ?_, ey, ez, rfl⟩
  · rintro rfl
    rw [zero_mul, Fm.zero] at e1
    cases e1
    rw [zero_mul, Fm.zero] at e2
    cases e2
    rw [zero_mul, Fm.zero] at e3
    cases e3
    rw [zero_div, Fm.zero] at eq
    cases eq
    rfl
  · rw [← ex]
    cases down <;> simp

/-- Tuning never selects more, for any floating point format, histogram and scale: the pixels selected with tuning are among those selected without
it.  Rounding errors make no exception to that. -/
theorem C113_selects_fewer (Fm : Format rnd) {a : GrowArray Int} {T : Nat} {otsu2 down : Bool} {tuning scale : K} (hs : 0 ≤ scale) {h h1 h2 : Heap V}
    {u v : Int} (hu : (ComputeOtsu.mk otsu2 (0 : K) down scale).computeR rnd a T h = .ok u h1)
    (hv : (ComputeOtsu.mk otsu2 tuning down scale).computeR rnd a T h = .ok v h2) (p : Int) :
    (down = true → p ≤ v → p ≤ u) ∧ (down = false → v < p → u < p) := by
  obtain ⟨raw, var, g, q, c, x, y, z, er, q0, qz, ec, c0, ex, ey, ez, rfl⟩ := computeR_inv Fm hs hu
  obtain ⟨raw', var', g', q', c', x', y', z', er', q0', -, ec', c0', ex', ey', ez', rfl⟩ := computeR_inv Fm hs hv
  have hh := er.symm.trans er'
  cases hh
  have hcc : c ≤ c' := Fm.mono _ _ _ _ (by rw [qz rfl]; linarith) ec ec'
  have hfl : ((⌊c⌋ : Int) : K) ≤ ((⌊c'⌋ : Int) : K) := by exact_mod_cast Int.floor_le_floor hcc
  constructor
  · rintro rfl hp
    simp only [if_true] at ex ex'
    refine le_trans hp (Int.floor_le_floor ?_)
    have hx : x' ≤ x := Fm.mono _ _ _ _ (by linarith) ex' ex
    have hy : y' ≤ y := Fm.mono _ _ _ _ (mul_le_mul_of_nonneg_left (max_le_max hx (le_refl _)) hs) ey' ey
    exact Fm.mono _ _ _ _ (by linarith) ez' ez
  · rintro rfl hp
    simp only [Bool.false_eq_true, if_false] at ex ex'
    refine lt_of_le_of_lt (Int.floor_le_floor ?_) hp
    have hx : x ≤ x' := Fm.mono _ _ _ _ (by linarith) ex ex'
    have hy : y ≤ y' := Fm.mono _ _ _ _ (mul_le_mul_of_nonneg_left (max_le_max hx (le_refl _)) hs) ey ey'
    exact Fm.mono _ _ _ _ (by linarith) ez ez'

example : (ComputeOtsu.mk false (0 : ℚ) true 1).computeR float64 ⟨[0,0,0,0,4,4,0,0], 8, 0, true⟩ 8 (⟨[]⟩ : Heap Int) = .ok 4 ⟨[]⟩ ∧
    (ComputeOtsu.mk false (1/8 : ℚ) true 1).computeR float64 ⟨[0,0,0,0,4,4,0,0], 8, 0, true⟩ 8 (⟨[]⟩ : Heap Int) = .ok 3 ⟨[]⟩ ∧
    (ComputeOtsu.mk false (1/8 : ℚ) false 1).computeR float64 ⟨[0,0,0,0,4,4,0,0], 8, 0, true⟩ 8 (⟨[]⟩ : Heap Int) = .ok 5 ⟨[]⟩ ∧
    (ComputeOtsu.mk true (1/8 : ℚ) false 2).computeR float64 ⟨[0,0,0,0,4,4,0,0], 8, 0, true⟩ 8 (⟨[]⟩ : Heap Int) = .ok 11 ⟨[]⟩ := by
  decide +kernel

/-! ## `double` -/

theorem texture_le {tuning raw var N : K} (ht : |tuning| ≤ 1) (hr0 : 0 ≤ raw) (hr : raw ≤ N) (hv : 0 ≤ var) : texture tuning raw var ≤ 1000 * N ^ 2 := by
  unfold texture
  have hD : 0 < var + 1/1000 := by linarith
  rw [div_le_iff₀ hD]
  have h1 : (tuning * raw) ^ 2 ≤ N ^ 2 := by
    rw [sq_le_sq, abs_mul, abs_of_nonneg hr0, abs_of_nonneg (le_trans hr0 hr)]
    exact le_trans (mul_le_of_le_one_left hr0 ht) hr
  have h2 := mul_nonneg (show 0 ≤ 1000 * N ^ 2 by positivity) hv
  linarith

theorem tuneRange_small {otsu2 : Bool} {tuning scale : K} {n : Nat} {hist : Nat → Int} (h0 : ∀ k, k < n → 0 ≤ hist k) (hn : n ≤ 256)
    (ht : |tuning| ≤ 1) (hs : 0 ≤ scale) (hs4 : scale ≤ 4) : TuneRange otsu2 tuning scale n hist := by
  refine ⟨by norm_num; linarith, fun t raw var hsp hI => ?_⟩
  obtain ⟨e1, e2⟩ := hI.1 hsp
  obtain ⟨m0, m1, m2, m3, m4⟩ := variance_pos (K := K) h0 hsp
  have hnK : (n : K) ≤ 256 := by exact_mod_cast hn
  have htn : (t : K) + 1 ≤ n := by exact_mod_cast hsp.1
  have ht0 : (0 : K) ≤ t := Nat.cast_nonneg _
  have hr : 0 ≤ raw ∧ raw ≤ 256 := by
    rw [e1]
    cases otsu2
    · simp only [Bool.false_eq_true, if_false]; constructor <;> linarith
    · simp only [if_true]; constructor <;> linarith
  have hv : 0 ≤ var := by rw [e2]; positivity
  have hX := texture_le ht hr.1 hr.2 hv
  have hX0 : 0 ≤ texture tuning raw var := div_nonneg (sq_nonneg _) (by linarith)
  norm_num at hX ⊢
  refine ⟨by linarith, ?_⟩
  have := mul_le_mul_of_nonneg_right hs4 (show 0 ≤ raw + texture tuning raw var + 1 by linarith [hr.1])
  linarith [hr.2]

/-- `double` is fine enough for 256 levels and a billion pixels. -/
theorem C113_fits {n T : Nat} {tuning scale : K} (hn : n ≤ 256) (hT : T ≤ 1073741824) (ht : |tuning| ≤ 1048576) (hs : 0 ≤ scale) (hs2 : scale ≤ 1048576) :
    TuneFits (float64 : K → Option K) (1 / 2 ^ 53) (1 / 2 ^ 1075) (2 ^ 1023) tuning scale n ∧ (n : K) ^ 2 * (1 / 2 ^ 1075) ≤ 1 / 2 ^ 53 ∧
      2 * tuneError (1 / 2 ^ 53 : K) n T ≤ 1 := by
  have hnK : (n : K) ≤ 256 := by exact_mod_cast hn
  have hn0 : (0 : K) ≤ n := Nat.cast_nonneg _
  have hTK : (T : K) ≤ 1073741824 := by exact_mod_cast hT
  have hT0 : (0 : K) ≤ T := Nat.cast_nonneg _
  have hsm : (1 : K) / 2 ^ 1075 ≤ 1 / 2 ^ 113 :=
    one_div_le_one_div_of_le (by positivity) (pow_le_pow_right₀ (by norm_num) (by norm_num))
  have hη0 : (0 : K) ≤ 1 / 2 ^ 1075 := by positivity
  have hbg : (2 : K) ^ 70 ≤ 2 ^ 1023 := pow_le_pow_right₀ (by norm_num) (by norm_num)
  have hta := abs_nonneg tuning
  have hB : (|tuning| + 1) * ((n : K) + 1) ≤ 1048577 * 257 := mul_le_mul (by linarith) (by linarith) (by linarith) (by norm_num)
  have hB0 : 0 ≤ (|tuning| + 1) * ((n : K) + 1) := mul_nonneg (by linarith) (by linarith)
  refine ⟨⟨float64_rounds, ?_, ?_, ?_, ?_⟩, ?_, ?_⟩
  · norm_num
  · have h1 : ((|tuning| + 1) * ((n : K) + 1) + scale) * (1 / 2 ^ 1075) ≤ (1048577 * 257 + 1048576) * (1 / 2 ^ 113) :=
      mul_le_mul (by linarith) hsm hη0 (by norm_num)
    generalize (1 : K) / 2 ^ 1075 = η at *
    norm_num at h1 ⊢
    linarith
  · have h1 : ((|tuning| + 1) * ((n : K) + 1)) ^ 2 ≤ (1048577 * 257) ^ 2 := pow_le_pow_left₀ hB0 hB 2
    generalize (2 : K) ^ 1023 = z at *
    norm_num at h1 hbg ⊢
    linarith
  · generalize (2 : K) ^ 1023 = z at *
    norm_num at hbg ⊢
    linarith
  · have h1 : (n : K) ^ 2 * (1 / 2 ^ 1075) ≤ 256 ^ 2 * (1 / 2 ^ 113) := mul_le_mul (by gcongr) hsm hη0 (by norm_num)
    generalize (1 : K) / 2 ^ 1075 = η at *
    norm_num at h1 ⊢
    linarith
  · unfold tuneError
    have h1 : (18 * (n : K) + 84) * n * T ≤ (18 * 256 + 84) * 256 * 1073741824 := by gcongr
    rw [show (18 * (n : K) + 84) * n * (1 / 2 ^ 53) * T = (18 * (n : K) + 84) * n * T / 2 ^ 53 by ring]
    norm_num at h1 ⊢
    linarith

theorem isRaw_nonneg {otsu2 : Bool} {n : Nat} {hist : Nat → Int} (h0 : ∀ k, k < n → 0 ≤ hist k) {t : Nat} {raw var : K}
    (hI : IsRaw otsu2 n hist t raw var) : 0 ≤ raw ∧ 0 ≤ var := by
  by_cases c : IsSplit n hist t
  · obtain ⟨e1, e2⟩ := hI.1 c
    obtain ⟨m0, m1, m2, m3, m4⟩ := variance_pos (K := K) h0 c
    have ht0 : (0 : K) ≤ t := Nat.cast_nonneg _
    rw [e1, e2]
    refine ⟨?_, by positivity⟩
    cases otsu2
    · exact ht0
    · simp only [if_true]; linarith
  · obtain ⟨e1, e2⟩ := hI.2 c
    rw [e1, e2]; exact ⟨le_refl _, le_refl _⟩

/-- With `double`, 256 levels and up to a million pixels: the penalty is off by less than one thousandth of its size. -/
theorem C113_double {a : GrowArray Int} {hist : Nat → Int} {T : Nat} (ha : ∀ k, k < a.size → a.data[k]? = some (hist k))
    (h0 : ∀ k, k < a.size → 0 ≤ hist k) (hsz : a.size ≤ 256) (hT : sumN a.size hist = T) (hT0 : 0 < T) (hTm : T ≤ 1048576) (otsu2 down : Bool)
    {tuning scale : K} (ht : |tuning| ≤ 1) (hs : 0 ≤ scale) (hs4 : scale ≤ 4) (h : Heap V) :
    ∃ (t : Nat) (raw var : K) (p r : Int), (ComputeOtsu.mk otsu2 tuning down scale).computeR float64 a T h = .ok r h ∧
      ((IsSplit a.size hist t ∧ 0 < hist t ∧
        ∀ j, IsSplit a.size hist j → (variance a.size hist j : K) ≤ variance a.size hist t + (T : K) ^ 2 / 10 ^ 6) ∨
      (t = 0 ∧ ∀ j, ¬IsSplit a.size hist j)) ∧
      IsRaw otsu2 a.size hist t raw var ∧ 0 ≤ p ∧ 0 ≤ r ∧ |(p : K) - texture tuning raw var| ≤ 51/100 + texture tuning raw var / 1000 ∧
      |(r : K) - scale * max (if down then raw - p else raw + p) 0| ≤ 51/100 + scale * (raw + texture tuning raw var) / 5000 ∧
      (otsu2 = false → scale = 1 → r = max (if down then (t : Int) - p else t + p) 0) := by
  obtain ⟨F, hid, hex, hsh⟩ := C104_double (K := K) (n := a.size) (T := T) (by omega) (by omega)
  obtain ⟨F2, hη, herr⟩ := C113_fits (K := K) (n := a.size) (T := T) (tuning := tuning) (scale := scale) hsz (by omega) (by linarith) hs (by linarith)
  obtain ⟨t, raw, var, p, r, e, hn, hsp, hI, p0, r0, c1, c2, c3⟩ := C113_tuned (V := V) (down := down) F (hsh hsz) hη herr F2 hid hex ha h0 hT hT0 (by omega) hs
    (tuneRange_small h0 hsz ht hs hs4) h
  have hE : tuneError (1 / 2 ^ 53 : K) a.size T ≤ 1 / 7100 := by
    have hnK : (a.size : K) ≤ 256 := by exact_mod_cast hsz
    have hTK : (T : K) ≤ 1048576 := by exact_mod_cast hTm
    unfold tuneError
    have h1 : (18 * (a.size : K) + 84) * a.size * T ≤ (18 * 256 + 84) * 256 * 1048576 := by gcongr
    rw [show (18 * (a.size : K) + 84) * a.size * (1 / 2 ^ 53) * T = (18 * (a.size : K) + 84) * a.size * T / 2 ^ 53 by ring]
    norm_num at h1 ⊢
    linarith
  have hr := isRaw_nonneg h0 hI
  have hX0 : 0 ≤ texture tuning raw var := div_nonneg (sq_nonneg _) (by linarith [hr.2])
  refine ⟨t, raw, var, p, r, e, near_double h0 hsz hn hsp, hI, p0, r0, le_trans c1 ?_, le_trans c2 ?_, c3⟩
  · have := mul_le_mul_of_nonneg_right hE hX0
    norm_num
    linarith
  · have h1 : 0 ≤ scale * (raw + texture tuning raw var) := mul_nonneg hs (by linarith [hr.1])
    have h2 := mul_le_mul_of_nonneg_right hE (show 0 ≤ scale * (raw + texture tuning raw var + 1) + 1 by
      have := mul_nonneg hs (show 0 ≤ raw + texture tuning raw var + 1 by linarith [hr.1])
      linarith)
    linarith [show scale * (raw + texture tuning raw var + 1) = scale * (raw + texture tuning raw var) + scale by ring]

end Boof
