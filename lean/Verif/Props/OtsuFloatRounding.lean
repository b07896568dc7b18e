import Verif.Spec.OtsuFloatRounding
import Verif.Model.RoundedOtsuFloat
import Verif.Props.OtsuFloat
import Verif.Props.OtsuRounding
import Verif.Props.Rounding
import Verif.Proofs.GaussRounding
/-
C115: Otsu's threshold of images of `float` with rounded arithmetic.
-/
namespace Boof
open M OtsuSpec
variable {K : Type} [Field K] [LinearOrder K] [IsStrictOrderedRing K] [FloorRing K] {rnd rndD : K → Option K} {u η big : K}

/-- Entry `k` of the histogram becomes the number of pixels whose difference to `m`, rounded to `d x y`, lies from `k` up to but not including
`k+1`, provided that all these differences lie in `[0, size)`. -/
theorem C115_histogram {h : Heap K} {g : Gray}
    (hv : g.Valid h) {f d : Nat → Nat → K} (hf : g.Shows h f) {m : K} {a : GrowArray Int}
    (hsz : a.size ≤ a.data.length) (h32 : a.size ≤ 4294967296)
    (hd : ∀ x y, x < g.width → y < g.height → rnd (f x y - m) = some (d x y))
    (hr : ∀ x y, x < g.width → y < g.height → 0 ≤ d x y ∧ d x y < a.size) :
    ∃ a', ImageStatistics.histogramFR rnd g m a h = .ok a' h ∧ a'.size = a.size ∧
      (∀ k : Nat, k < a.size → a'.data[k]? = some (pixelCount g.width g.height (fun x y => ⌊d x y⌋) k)) ∧
      -- hence the entries add up to the number of pixels
      sumN a.size (fun k => (a'.data[k]?).getD 0) = (g.width * g.height : Nat) := by
  have hfl : ∀ x y, x < g.width → y < g.height → 0 ≤ ⌊d x y⌋ ∧ ⌊d x y⌋ < a.size := fun x y hx hy => by
    obtain ⟨b1, b2⟩ := hr x y hx hy
    refine ⟨Int.floor_nonneg.mpr (by linarith), Int.floor_lt.mpr ?_⟩
    push_cast
    linarith
  suffices hmain : Spec (ImageStatistics.histogramFR rnd g m a) h (fun a' h' => h' = h ∧ a'.size = a.size ∧
      (∀ k : Nat, k < a.size → a'.data[k]? = some (pixelCount g.width g.height (fun x y => ⌊d x y⌋) k))) by
    obtain ⟨a', _, e, rfl, es, ec⟩ := hmain
    refine ⟨a', e, es, ec, ?_⟩
    rw [sumN_congr (g := fun k => pixelCount g.width g.height (fun x y => ⌊d x y⌋) ((0 : Int) + k)) (fun k hk => by
      rw [ec k hk, Int.zero_add]; rfl)]
    exact sumN_pixelCount (fun x y hx hy => ⟨(hfl x y hx hy).1, by have := (hfl x y hx hy).2; omega⟩)
  unfold ImageStatistics.histogramFR GrowArray.fill
  rw [if_pos hsz]
  refine Spec.bind_eq (M.pure_run _ h) ?_
  have harea := hv.area_lt
  refine Spec.conseq (Spec.loopS (fun y (a' : GrowArray Int) h' => h' = h ∧ a'.size = a.size ∧ (∀ k : Nat, k < a.size →
    a'.data[k]? = some (prefixSum g.width (fun x y => if ⌊d x y⌋ = k then 1 else 0) y 0))) ?_ ?_) ?_
  · refine ⟨rfl, rfl, fun k hk => ?_⟩
    simp only [intElem, memset_zero]
    rw [List.getElem?_append_left (by simpa using hk)]
    simp [prefixSum, sumN, hk]
  · rintro y a1 h' hy ⟨rfl, hs1, hc1⟩
    simp only [hv.row_len hy]
    refine Spec.conseq (Spec.loopS (fun x (a' : GrowArray Int) h1 => h1 = h' ∧ a'.size = a.size ∧ (∀ k : Nat, k < a.size →
      a'.data[k]? = some (prefixSum g.width (fun x y => if ⌊d x y⌋ = k then 1 else 0) y x))) ⟨rfl, hs1, hc1⟩ ?_) ?_
    · rintro x a2 h1 hx ⟨rfl, hs2, hc2⟩
      obtain ⟨b1, b2⟩ := hfl x y hx hy
      refine Spec.bind_eq (hv.rd hf hx hy) ?_
      refine Spec.bind_eq (show (opt (rnd (f x y - m)) : M K K) h1 = .ok (d x y) h1 by rw [hd x y hx hy]; rfl) ?_
      refine Spec.bind_eq (toInt_run (t := U32) (n := ⌊d x y⌋) (by linarith [(hr x y hx hy).1]) rfl
        ⟨b1, by show _ ≤ (4294967295 : Int); omega⟩ _) ?_
      have hklt : ⌊d x y⌋.toNat < a.size := by omega
      rw [hc2 _ hklt]
      refine Spec.pure ⟨rfl, hs2, ?_⟩
      intro k hk'
      simp only [List.getElem?_set]
      rw [count_step g.width (fun x y => ⌊d x y⌋)]
      by_cases e : ⌊d x y⌋.toNat = k
      · have he : ⌊d x y⌋ = k := by omega
        have hlen : k < a2.data.length := by
          rcases Nat.lt_or_ge k a2.data.length with h | h
          · exact h
          · have := hc2 k hk'; rw [List.getElem?_eq_none h] at this; cases this
        rw [if_pos e, if_pos (by omega), if_pos he]
        simp only [e]
        congr 1
        apply IntTy.cast_of_inRange (by decide)
        have hp := prefixSum_le (w := g.width) (ht := g.height) (f := fun x y => if ⌊d x y⌋ = k then 1 else 0)
          (lo := 0) (hi := 1) (by omega) (by omega) (fun x y _ _ => by constructor <;> split <;> omega) hy
          (x := x+1) (by omega)
        rw [count_step g.width (fun x y => ⌊d x y⌋), if_pos he] at hp
        show (0:Int) ≤ _ ∧ _ ≤ (4294967295 : Int)
        have hP : (P32 : Int) = 4294967296 := rfl
        omega
      · rw [if_neg e, hc2 k hk', if_neg (by omega)]; simp
    · rintro a2 h2 ⟨rfl, hs2, hc2⟩
      refine ⟨rfl, hs2, fun k hk => ?_⟩
      rw [hc2 k hk]
      simp [prefixSum, sumN]
  · rintro a2 h2 ⟨rfl, hs2, hc2⟩
    refine ⟨rfl, hs2, fun k hk => ?_⟩
    rw [hc2 k hk]
    simp [prefixSum, sumN, pixelCount, pixelSum]

example : ImageStatistics.histogramFR float32 ⟨0, 3, 3, 1, 0, 3, false⟩ (5/2) ⟨[9,9], 2, 0, true⟩ (⟨[some [5/2,13/4,7/2]]⟩ : Heap ℚ)
    = .ok ⟨[2,1], 2, 0, true⟩ ⟨[some [5/2,13/4,7/2]]⟩ := by decide +kernel

/-- Levels of the histogram: level `k` contains only pixels less than `k+1` above the minimal value, and at least `k` above it up to one rounding;
where the difference is a number of the format it is not rounded. -/
theorem C115_levels (G : Format rnd) (R : Rounds rnd u η big) {lo v : K} {N : Nat} (hex : ExactTo rnd N) (h0 : lo ≤ v) (hN : v - lo < N) (hb : v - lo ≤ big) :
    0 ≤ roundedLevel rnd lo v ∧ v - lo < roundedLevel rnd lo v + 1 ∧ (roundedLevel rnd lo v : K) ≤ v - lo + (u * (v - lo) + η) ∧
      (rnd (v - lo) = some (v - lo) → roundedLevel rnd lo v = ⌊v - lo⌋) ∧ (lo = 0 → rnd v = some v → roundedLevel rnd lo v = ⌊v⌋) := by
  have h0' : 0 ≤ v - lo := by linarith
  obtain ⟨d, ed, hd⟩ := R.near (v - lo) (by rw [abs_of_nonneg h0']; exact hb)
  rw [abs_of_nonneg h0'] at hd
  have hl : roundedLevel rnd lo v = ⌊d⌋ := by unfold roundedLevel; rw [ed]; rfl
  have d0 : 0 ≤ d := G.mono 0 (v - lo) 0 d h0' G.zero ed
  have fl0 : 0 ≤ ⌊d⌋ := Int.floor_nonneg.mpr d0
  rw [hl]
  refine ⟨fl0, ?_, ?_, fun e => ?_, fun e1 e2 => ?_⟩
  · by_contra hc
    push Not at hc
    obtain ⟨k, hk⟩ := Int.eq_ofNat_of_zero_le fl0
    have hkN : k + 1 ≤ N := by
      have : ((k + 1 : Nat) : K) < N := by
        refine lt_of_le_of_lt ?_ hN
        rw [hk] at hc
        push_cast at hc ⊢
        exact hc
      have : k + 1 < N := by exact_mod_cast this
      omega
    have h1 := G.mono ((k + 1 : Nat) : K) (v - lo) _ d (by rw [hk] at hc; push_cast at hc ⊢; exact hc) (hex (k + 1) hkN) ed
    have h2 := Int.lt_floor_add_one d
    rw [hk] at h2
    push_cast at h1 h2
    linarith
  · have h1 := Int.floor_le d
    have h2 := (abs_le.1 hd).2
    linarith
  · rw [e] at ed
    rw [Option.some.inj ed]
  · subst e1
    rw [sub_zero] at ed
    rw [e2] at ed
    rw [Option.some.inj ed]

/-- `ThresholdOps::computeOtsu` on an image of `float`: if the histogram has room for the largest pixel, which is a matter of rounding, then the value
is the Otsu split of the image's own histogram up to rounding errors. -/
theorem C115_image (G : Format rnd) {h : Heap K} {g : Gray} (hv : g.Valid h)
    {f d : Nat → Nat → K} (hf : g.Shows h f) {lo hi a b e : K}
    (hr : ∀ x y, x < g.width → y < g.height → lo ≤ f x y ∧ f x y ≤ hi)
    (hd : ∀ x y, x < g.width → y < g.height → rnd (f x y - lo) = some (d x y))
    (ra : rnd (1 + hi) = some a) (rb : rnd (a - lo) = some b) (re : rnd (hi - lo) = some e) (hfit : ⌊e⌋ < ⌊b⌋) (hb : b < 2147483648)
    (hpos : 0 < g.width * g.height)
    (F : OtsuFits rndD u η big ⌊b⌋.toNat (g.width * g.height)) (hid : Idempotent rndD) (hex : ExactTo rndD ⌊b⌋.toNat) (junk : Nat → Int) :
    ∃ v : Nat, ThresholdOps.computeOtsuFR rnd rndD junk g lo hi false h = .ok (v : Int) h ∧ v < ⌊b⌋.toNat ∧
      NearOtsu ((⌊b⌋.toNat : K) ^ 2 * (2 * otsuError u ⌊b⌋.toNat (g.width * g.height))) ⌊b⌋.toNat
        (fun k => pixelCount g.width g.height (fun x y => ⌊d x y⌋) k) v ∧
      (OtsuSharp u η ⌊b⌋.toNat (g.width * g.height) →
        ∀ j, IsSplit ⌊b⌋.toNat (fun k => pixelCount g.width g.height (fun x y => ⌊d x y⌋) k) j →
          IsSplit ⌊b⌋.toNat (fun k => pixelCount g.width g.height (fun x y => ⌊d x y⌋) k) v) := by
  have hx0 : 0 < g.width ∧ 0 < g.height := by
    constructor
    · exact Nat.pos_of_ne_zero (fun q => by rw [q, Nat.zero_mul] at hpos; omega)
    · exact Nat.pos_of_ne_zero (fun q => by rw [q, Nat.mul_zero] at hpos; omega)
  have hle : lo ≤ hi := by obtain ⟨q1, q2⟩ := hr 0 0 hx0.1 hx0.2; linarith
  have e0 : 0 ≤ e := G.mono 0 _ 0 e (by linarith) G.zero re
  have f0 : 0 ≤ ⌊e⌋ := Int.floor_nonneg.mpr e0
  have b0 : 0 < ⌊b⌋ := by omega
  have b1 : ⌊b⌋ < 2147483648 := Int.floor_lt.mpr (by push_cast; exact hb)
  have hbp : 0 ≤ b := by have := Int.floor_le b; have : (0 : K) < ⌊b⌋ := by exact_mod_cast b0
                         linarith
  have e1 : (toInt U32 b : M K Int) h = .ok ⌊b⌋ h :=
    toInt_run hbp rfl ⟨by show (0 : Int) ≤ _; omega, by show _ ≤ (4294967295 : Int); omega⟩ h
  set n := ⌊b⌋.toNat with hn
  have hnI : (n : Int) = ⌊b⌋ := by omega
  obtain ⟨a0, ea, as, al⟩ : ∃ a, GrowArray.new (intElem U32 junk) n = .ok () a ∧ a.size = n ∧ a.size ≤ a.data.length := by
    unfold GrowArray.new GrowArray.fill
    rw [if_pos (by simp)]
    exact ⟨_, rfl, rfl, by simp⟩
  obtain ⟨a', eh, es, ec, et⟩ := C115_histogram (rnd := rnd) hv hf (d := d) (m := lo) (a := a0) al (by omega) hd (fun x y hx hy => by
    obtain ⟨q1, q2⟩ := hr x y hx hy
    have dp := hd x y hx hy
    refine ⟨G.mono 0 _ 0 _ (by linarith) G.zero dp, ?_⟩
    have de : d x y ≤ e := G.mono _ _ _ _ (by linarith) dp re
    have h1 := Int.lt_floor_add_one e
    have h2 : (⌊e⌋ : K) + 1 ≤ (n : K) := by
      have : ⌊e⌋ + 1 ≤ (n : Int) := by omega
      exact_mod_cast this
    rw [as]
    linarith)
  have hcnt : ∀ k, k < a'.size → a'.data[k]? = some (pixelCount g.width g.height (fun x y => ⌊d x y⌋) k) := by
    intro k hk; exact ec k (by omega)
  have hsum : sumN a'.size (fun k => pixelCount g.width g.height (fun x y => ⌊d x y⌋) k) = (g.width * g.height : Nat) := by
    rw [← et, es]
    exact sumN_congr (fun k hk => by rw [ec k hk]; rfl)
  have hnn : ∀ k, k < a'.size → 0 ≤ pixelCount g.width g.height (fun x y => ⌊d x y⌋) k := by
    intro k hk
    unfold pixelCount pixelSum
    exact sumN_nonneg (fun y _ => sumN_nonneg (fun x _ => by
      show (0 : Int) ≤ if ⌊d x _⌋ = k then 1 else 0
      split <;> omega))
  have htp : g.totalPixels = g.width * g.height := by
    unfold Gray.totalPixels; exact wrap32_of_lt hv.area_lt
  have ean : a'.size = n := by omega
  obtain ⟨v, ev, hnear, hsh, hno⟩ := C104_otsu (K := K) (V := K) (rnd := rndD) (u := u) (η := η) (big := big) (a := a') (by rw [ean]; exact F) hid
    (by rw [ean]; exact hex) hcnt hnn (by omega) hsum hpos hv.area_lt true h
  rw [ean] at hnear hsh hno
  have hvlt : v < n := by
    rcases hnear with ⟨⟨q, _⟩, _⟩ | ⟨rfl, _⟩ <;> omega
  refine ⟨v, ?_, hvlt, hnear, hsh⟩
  unfold ThresholdOps.computeOtsuFR
  refine (M.bind_ok (show (opt (rnd (1 + hi)) : M K K) h = .ok a h by rw [ra]; rfl)).trans ?_
  refine (M.bind_ok (show (opt (rnd (a - lo)) : M K K) h = .ok b h by rw [rb]; rfl)).trans ?_
  refine (M.bind_ok e1).trans ?_
  simp only [← hn, ea]
  refine (M.bind_ok (M.pure_run _ h)).trans ((M.bind_ok eh).trans ?_)
  rw [htp]
  refine (M.bind_ok ev).trans ?_
  refine toInt_run (by positivity) ?_ ?_ h
  · exact_mod_cast Int.floor_intCast (v : Int)
  · exact ⟨by show (0 : Int) ≤ _; omega, by show _ ≤ (4294967295 : Int); omega⟩

/-- Integers of either sign are numbers of the format. -/
theorem ExactTo.int (G : Format rnd) {N : Nat} (hex : ExactTo rnd N) {z : Int} (h1 : -(N : Int) ≤ z) (h2 : z ≤ N) : rnd (z : K) = some (z : K) := by
  rcases Int.le_total 0 z with q | q
  · obtain ⟨k, rfl⟩ := Int.eq_ofNat_of_zero_le q
    have := hex k (by omega)
    simpa using this
  · obtain ⟨k, hk⟩ := Int.eq_ofNat_of_zero_le (show 0 ≤ -z by omega)
    have h := G.neg _ _ (hex k (by omega))
    have e : (z : K) = -((k : Nat) : K) := by
      have : z = -(k : Int) := by omega
      rw [this]; push_cast; ring
    rw [e]; exact h

/-- With `float` images, a range given by integers from -2^22 to 2^22 of at most 2^18 levels, and `double` for the threshold: `computeOtsu` succeeds, and
the value is an Otsu split, up to rounding errors, of the histogram of the pixels' levels (`C115_levels`).  Missing for
the full property: other ranges, for which it is false (`C115_refuted`, `C115_large_refuted`); `C115_image` has the exact condition. -/
theorem C115_integers_partial {h : Heap K} {g : Gray} (hv : g.Valid h) {f : Nat → Nat → K} (hf : g.Shows h f) {lo hi : Int}
    (hlo : -4194304 ≤ lo) (hhi : hi ≤ 4194304) (hr : ∀ x y, x < g.width → y < g.height → (lo : K) ≤ f x y ∧ f x y ≤ hi)
    (hn : hi - lo < 262144) (hpos : 0 < g.width * g.height) (junk : Nat → Int) :
    ∃ v : Nat, ThresholdOps.computeOtsuFR float32 float64 junk g (lo : K) hi false h = .ok (v : Int) h ∧ v < (hi - lo + 1).toNat ∧
      (∀ x y, x < g.width → y < g.height → 0 ≤ roundedLevel float32 (lo : K) (f x y) ∧ roundedLevel float32 (lo : K) (f x y) ≤ hi - lo ∧
        f x y - lo < roundedLevel float32 (lo : K) (f x y) + 1 ∧
        (roundedLevel float32 (lo : K) (f x y) : K) ≤ f x y - lo + (1 / 2 ^ 24 * (f x y - lo) + 1 / 2 ^ 150)) ∧
      NearOtsu (((hi - lo + 1).toNat : K) ^ 2 * (2 * otsuError (1 / 2 ^ 53) (hi - lo + 1).toNat (g.width * g.height))) (hi - lo + 1).toNat
        (fun k => pixelCount g.width g.height (fun x y => roundedLevel float32 (lo : K) (f x y)) k) v ∧
      (hi - lo < 256 → ((IsSplit (hi - lo + 1).toNat (fun k => pixelCount g.width g.height (fun x y => roundedLevel float32 (lo : K) (f x y)) k) v ∧
          0 < pixelCount g.width g.height (fun x y => roundedLevel float32 (lo : K) (f x y)) v ∧
          ∀ j, IsSplit (hi - lo + 1).toNat (fun k => pixelCount g.width g.height (fun x y => roundedLevel float32 (lo : K) (f x y)) k) j →
            (variance (hi - lo + 1).toNat (fun k => pixelCount g.width g.height (fun x y => roundedLevel float32 (lo : K) (f x y)) k) j : K) ≤
              variance (hi - lo + 1).toNat (fun k => pixelCount g.width g.height (fun x y => roundedLevel float32 (lo : K) (f x y)) k) v +
                ((g.width * g.height : Nat) : K) ^ 2 / 10 ^ 6) ∨
        (v = 0 ∧ ∀ j, ¬IsSplit (hi - lo + 1).toNat (fun k => pixelCount g.width g.height (fun x y => roundedLevel float32 (lo : K) (f x y)) k) j))) := by
  have hx0 : 0 < g.width ∧ 0 < g.height := by
    constructor
    · exact Nat.pos_of_ne_zero (fun q => by rw [q, Nat.zero_mul] at hpos; omega)
    · exact Nat.pos_of_ne_zero (fun q => by rw [q, Nat.mul_zero] at hpos; omega)
  have hle : lo ≤ hi := by
    obtain ⟨q1, q2⟩ := hr 0 0 hx0.1 hx0.2
    exact_mod_cast le_trans q1 q2
  have hbig : (2 : K) ^ 24 ≤ 2 ^ 127 := pow_le_pow_right₀ (by norm_num) (by norm_num)
  have ia : float32 (1 + (hi : K)) = some (((1 + hi : Int)) : K) := by
    have := ExactTo.int (float32_format (K := K)) float32_exact (z := 1 + hi) (by push_cast; omega) (by push_cast; omega)
    push_cast at this ⊢
    exact this
  have ib : float32 ((((1 + hi : Int)) : K) - lo) = some (((hi - lo + 1 : Int)) : K) := by
    have := ExactTo.int (float32_format (K := K)) float32_exact (z := hi - lo + 1) (by push_cast; omega) (by push_cast; omega)
    rw [← this]; congr 1; push_cast; ring
  have ie : float32 ((hi : K) - lo) = some (((hi - lo : Int)) : K) := by
    have := ExactTo.int (float32_format (K := K)) float32_exact (z := hi - lo) (by push_cast; omega) (by push_cast; omega)
    rw [← this]; congr 1; push_cast; ring
  have hdiff : ∀ x y, x < g.width → y < g.height → 0 ≤ f x y - lo ∧ f x y - lo ≤ ((hi - lo : Int) : K) := fun x y hx hy => by
    obtain ⟨q1, q2⟩ := hr x y hx hy
    push_cast
    constructor <;> linarith
  have hsm : ((hi - lo : Int) : K) < ((2 ^ 24 : Nat) : K) := by
    have : hi - lo < (((2 ^ 24 : Nat)) : Int) := by push_cast; omega
    exact_mod_cast this
  have hd : ∀ x y, x < g.width → y < g.height → float32 (f x y - lo) = some ((float32 (f x y - (lo : K))).getD 0) := fun x y hx hy => by
    obtain ⟨q1, q2⟩ := hdiff x y hx hy
    obtain ⟨d, ed, -⟩ := (float32_rounds (K := K)).near (f x y - lo) (by
      rw [abs_of_nonneg q1]
      push_cast at hsm q2 ⊢
      linarith)
    rw [ed]; rfl
  have hlev : ∀ x y, x < g.width → y < g.height → 0 ≤ roundedLevel float32 (lo : K) (f x y) ∧ roundedLevel float32 (lo : K) (f x y) ≤ hi - lo ∧
        f x y - lo < roundedLevel float32 (lo : K) (f x y) + 1 ∧
        (roundedLevel float32 (lo : K) (f x y) : K) ≤ f x y - lo + (1 / 2 ^ 24 * (f x y - lo) + 1 / 2 ^ 150) := fun x y hx hy => by
    obtain ⟨q1, q2⟩ := hdiff x y hx hy
    obtain ⟨c1, c2, c3, -⟩ := C115_levels (float32_format (K := K)) float32_rounds float32_exact (lo := (lo : K)) (v := f x y) (by linarith)
      (lt_of_le_of_lt q2 hsm) (by push_cast at hsm q2 ⊢; linarith)
    refine ⟨c1, ?_, c2, c3⟩
    have := (float32_format (K := K)).mono _ _ _ _ (show f x y - (lo : K) ≤ (hi : K) - lo by push_cast at q2; exact q2) (hd x y hx hy) ie
    have h2 := Int.floor_le_floor this
    rwa [Int.floor_intCast] at h2
  obtain ⟨F, hid, hex, hsh⟩ := C104_double (K := K) (n := (hi - lo + 1).toNat) (T := g.width * g.height) (by omega) hv.area_lt
  have hfl : (⌊((hi - lo + 1 : Int) : K)⌋).toNat = (hi - lo + 1).toNat := by rw [Int.floor_intCast]
  obtain ⟨v, e, h1, h2, h3⟩ := C115_image (K := K) (rnd := float32) (rndD := float64) float32_format hv hf hr hd ia ib ie
    (by rw [Int.floor_intCast, Int.floor_intCast]; omega) (by
      have : ((hi - lo + 1 : Int) : K) < ((2147483648 : Int) : K) := Int.cast_lt.mpr (by omega)
      exact_mod_cast this) hpos (by rw [hfl]; exact F) hid (by rw [hfl]; exact hex) junk
  rw [hfl] at h1 h2 h3
  refine ⟨v, e, h1, hlev, h2, fun h256 => ?_⟩
  refine near_double (T := g.width * g.height) ?_ (by omega) h2 (h3 (hsh (by omega)))
  intro k hk
  unfold pixelCount pixelSum
  exact sumN_nonneg (fun y _ => sumN_nonneg (fun x _ => by dsimp only; split <;> omega))

/-- The global Otsu filter with the range 0 to 255 on an image of `float` numbers in this range: the levels are the integer parts of the pixels, exactly;
the threshold `v` is Otsu's up to rounding errors; and the pixels are compared with `v`. -/
theorem C115_global {h : Heap K} {g output : Gray} (hv : g.Valid h) (hov : output.Valid h) {f : Nat → Nat → K} (hf : g.Shows h f)
    (hfl : ∀ x y, x < g.width → y < g.height → float32 (f x y) = some (f x y))
    (hr : ∀ x y, x < g.width → y < g.height → 0 ≤ f x y ∧ f x y ≤ 255) (hpos : 0 < g.width * g.height)
    (hc : output.CanBe g.width g.height) (hs : g.SepOrSame output g.width g.height) (down : Bool) (junk : Nat → Int) :
    ∃ (v : Nat) (o : Gray) (h' : Heap K),
      ThresholdOps.globalOtsuFR (K := K) float32 float64 junk 0 255 down g output h = .ok o h' ∧
      Produced h h' output o g.width g.height
        (fun x y => if (down = true ∧ f x y ≤ v) ∨ (down = false ∧ (v : K) < f x y) then 1 else 0) ∧
      ((IsSplit 256 (fun k => pixelCount g.width g.height (fun x y => ⌊f x y⌋) k) v ∧ 0 < pixelCount g.width g.height (fun x y => ⌊f x y⌋) v ∧
        ∀ j, IsSplit 256 (fun k => pixelCount g.width g.height (fun x y => ⌊f x y⌋) k) j →
          (variance 256 (fun k => pixelCount g.width g.height (fun x y => ⌊f x y⌋) k) j : K) ≤
            variance 256 (fun k => pixelCount g.width g.height (fun x y => ⌊f x y⌋) k) v + ((g.width * g.height : Nat) : K) ^ 2 / 10 ^ 6) ∨
      (v = 0 ∧ ∀ j, ¬IsSplit 256 (fun k => pixelCount g.width g.height (fun x y => ⌊f x y⌋) k) j)) := by
  obtain ⟨v, e, h1, h2, -, h3⟩ := C115_integers_partial (K := K) hv hf (lo := 0) (hi := 255) (by omega) (by omega)
    (fun x y hx hy => by obtain ⟨q1, q2⟩ := hr x y hx hy; push_cast; exact ⟨q1, q2⟩) (by omega) hpos junk
  have h1' : v < 256 := h1
  have hlev : ∀ x y, x < g.width → y < g.height → roundedLevel float32 (((0 : Int)) : K) (f x y) = ⌊f x y⌋ := fun x y hx hy => by
    unfold roundedLevel
    rw [Int.cast_zero, sub_zero, hfl x y hx hy]; rfl
  have hpc : ∀ k : Int, pixelCount g.width g.height (fun x y => roundedLevel float32 (((0 : Int)) : K) (f x y)) k =
      pixelCount g.width g.height (fun x y => ⌊f x y⌋) k := fun k => by
    unfold pixelCount pixelSum
    refine sumN_congr (fun y hy => sumN_congr (fun x hx => ?_))
    simp only [hlev x y hx hy]
  have h3' := h3 (by omega)
  simp only [hpc] at h3'
  have hthr : float32 (((v : Int)) : K) = some (v : K) := by
    have := float32_exact (K := K) v (by omega)
    rw [Int.cast_natCast]; exact this
  obtain ⟨o, h', eo, hp⟩ := threshold_run (fun a b => decide (a ≤ b)) (fun a b => decide (b < a)) (fun b => if b then (1 : K) else 0) 0
    (v : K) down hv hov hf hc hs
  refine ⟨v, o, h', ?_, ?_, h3'⟩
  · unfold ThresholdOps.globalOtsuFR
    have e' : ThresholdOps.computeOtsuFR float32 float64 junk g (0 : K) 255 false h = .ok (v : Int) h := by
      have := e
      push_cast at this
      exact this
    refine (M.bind_ok e').trans ?_
    refine (M.bind_ok (show (opt (float32 (((v : Int)) : K)) : M K K) h = .ok (v : K) h by rw [hthr]; rfl)).trans eo
  · refine hp.congr (fun x y _ _ => ?_)
    cases down <;> simp

/-- Pixels 10, 10.5, 20 and 20.5: the hypotheses hold, the threshold is 10, and so 10.5, which has the level 10, is above it (see
`C35_float_refuted`). -/
example : (∀ v ∈ ([10, 21/2, 20, 41/2] : List ℚ), float32 v = some v) ∧
    ThresholdOps.computeOtsuFR float32 float64 (fun _ => 0) ⟨0, 4, 4, 1, 0, 4, false⟩ (0 : ℚ) 255 false
      (⟨[some [10, 21/2, 20, 41/2], some [7,7,7,7]]⟩ : Heap ℚ) = .ok 10 ⟨[some [10, 21/2, 20, 41/2], some [7,7,7,7]]⟩ ∧
    ThresholdOps.globalOtsuFR float32 float64 (fun _ => 0) (0 : ℚ) 255 true ⟨0, 4, 4, 1, 0, 4, false⟩ ⟨1, 4, 4, 1, 0, 4, false⟩
      (⟨[some [10, 21/2, 20, 41/2], some [7,7,7,7]]⟩ : Heap ℚ) =
      .ok ⟨1, 4, 4, 1, 0, 4, false⟩ ⟨[some [10, 21/2, 20, 41/2], some [1,0,0,0]]⟩ := by decide +kernel

/-- In general the histogram may be too small for the largest pixel.  The extreme pixels of this image are given as the range, as the documentation
asks: about -0.25 and 0.75.  Their difference is less than 1, but rounded to `float` it is 1, so the largest pixel is counted at index 1; and one plus
the largest pixel minus the smallest, each rounded, is less than 2, so the histogram has one entry: the program writes behind its end.  With exact
arithmetic the call is fine. -/
theorem C115_refuted :
    float32 (-1/4 + 5/2^26 : ℚ) = some (-1/4 + 5/2^26) ∧ float32 (3/4 + 1/2^24 : ℚ) = some (3/4 + 1/2^24) ∧
    ThresholdOps.computeOtsuFR float32 float64 (fun _ => 0) ⟨0, 2, 2, 1, 0, 2, false⟩ (-1/4 + 5/2^26 : ℚ) (3/4 + 1/2^24) false
      ⟨[some [-1/4 + 5/2^26, 3/4 + 1/2^24]]⟩ = .ub ∧
    ThresholdOps.computeOtsuF (fun _ => 0) ⟨0, 2, 2, 1, 0, 2, false⟩ (-1/4 + 5/2^26 : ℚ) (3/4 + 1/2^24) false
      ⟨[some [-1/4 + 5/2^26, 3/4 + 1/2^24]]⟩ = .ok 0 ⟨[some [-1/4 + 5/2^26, 3/4 + 1/2^24]]⟩ := by decide +kernel

/-- Large pixels are enough: 2^24-1 and 2^24, because 2^24+1 is not a `float`. -/
theorem C115_large_refuted :
    ThresholdOps.computeOtsuFR float32 float64 (fun _ => 0) ⟨0, 2, 2, 1, 0, 2, false⟩ (16777215 : ℚ) 16777216 false
      ⟨[some [16777215, 16777216]]⟩ = .ub := by decide +kernel

end Boof
