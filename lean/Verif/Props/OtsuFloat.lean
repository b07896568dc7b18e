import Verif.Model.OtsuFloat
import Verif.Props.Otsu
/-
C28, C34, C35 for images of floating point numbers.
-/
namespace Boof
open M OtsuSpec

section
variable {K : Type} [Field K] [LinearOrder K] [IsStrictOrderedRing K] [FloorRing K]

/-- Entry `k` of the histogram becomes the number of pixels from `m+k` up to but not including `m+k+1`, whatever the array contained
before, provided that all pixels lie in `[m, m+size)`. -/
theorem C28_histogram_float {h : Heap K} {g : Gray}
    (hv : g.Valid h) {f : Nat → Nat → K} (hf : g.Shows h f) {m : K} {a : GrowArray Int}
    (hsz : a.size ≤ a.data.length) (h32 : a.size ≤ 4294967296)
    (hr : ∀ x y, x < g.width → y < g.height → m ≤ f x y ∧ f x y < m + a.size) :
    ∃ a', ImageStatistics.histogramF g m a h = .ok a' h ∧ a'.size = a.size ∧
      (∀ k : Nat, k < a.size → a'.data[k]? = some (pixelCount g.width g.height (fun x y => ⌊f x y - m⌋) k)) ∧
      -- hence the entries add up to the number of pixels
      sumN a.size (fun k => (a'.data[k]?).getD 0) = (g.width * g.height : Nat) := by
  have hfl : ∀ x y, x < g.width → y < g.height → 0 ≤ ⌊f x y - m⌋ ∧ ⌊f x y - m⌋ < a.size := fun x y hx hy => by
    obtain ⟨b1, b2⟩ := hr x y hx hy
    refine ⟨Int.floor_nonneg.mpr (by linarith), Int.floor_lt.mpr ?_⟩
    push_cast
    linarith
  suffices hmain : Spec (ImageStatistics.histogramF g m a) h (fun a' h' => h' = h ∧ a'.size = a.size ∧
      (∀ k : Nat, k < a.size → a'.data[k]? = some (pixelCount g.width g.height (fun x y => ⌊f x y - m⌋) k))) by
    obtain ⟨a', _, e, rfl, es, ec⟩ := hmain
    refine ⟨a', e, es, ec, ?_⟩
    rw [sumN_congr (g := fun k => pixelCount g.width g.height (fun x y => ⌊f x y - m⌋) ((0 : Int) + k)) (fun k hk => by
      rw [ec k hk, Int.zero_add]; rfl)]
    exact sumN_pixelCount (fun x y hx hy => ⟨(hfl x y hx hy).1, by have := (hfl x y hx hy).2; omega⟩)
  unfold ImageStatistics.histogramF GrowArray.fill
  rw [if_pos hsz]
  refine Spec.bind_eq (M.pure_run _ h) ?_
  have harea := hv.area_lt
  refine Spec.conseq (Spec.loopS (fun y (a' : GrowArray Int) h' => h' = h ∧ a'.size = a.size ∧ (∀ k : Nat, k < a.size →
    a'.data[k]? = some (prefixSum g.width (fun x y => if ⌊f x y - m⌋ = k then 1 else 0) y 0))) ?_ ?_) ?_
  · refine ⟨rfl, rfl, fun k hk => ?_⟩
    simp only [intElem, memset_zero]
    rw [List.getElem?_append_left (by simpa using hk)]
    simp [prefixSum, sumN, hk]
  · rintro y a1 h' hy ⟨rfl, hs1, hc1⟩
    simp only [hv.row_len hy]
    refine Spec.conseq (Spec.loopS (fun x (a' : GrowArray Int) h1 => h1 = h' ∧ a'.size = a.size ∧ (∀ k : Nat, k < a.size →
      a'.data[k]? = some (prefixSum g.width (fun x y => if ⌊f x y - m⌋ = k then 1 else 0) y x))) ⟨rfl, hs1, hc1⟩ ?_) ?_
    · rintro x a2 h1 hx ⟨rfl, hs2, hc2⟩
      obtain ⟨b1, b2⟩ := hfl x y hx hy
      refine Spec.bind_eq (hv.rd hf hx hy) ?_
      refine Spec.bind_eq (toInt_run (t := U32) (n := ⌊f x y - m⌋) (by linarith [(hr x y hx hy).1]) rfl
        ⟨b1, by show _ ≤ (4294967295 : Int); omega⟩ _) ?_
      have hklt : ⌊f x y - m⌋.toNat < a.size := by omega
      rw [hc2 _ hklt]
      refine Spec.pure ⟨rfl, hs2, ?_⟩
      intro k hk'
      simp only [List.getElem?_set]
      rw [count_step g.width (fun x y => ⌊f x y - m⌋)]
      by_cases e : ⌊f x y - m⌋.toNat = k
      · have he : ⌊f x y - m⌋ = k := by omega
        have hlen : k < a2.data.length := by
          rcases Nat.lt_or_ge k a2.data.length with h | h
          · exact h
          · have := hc2 k hk'; rw [List.getElem?_eq_none h] at this; cases this
        rw [if_pos e, if_pos (by omega), if_pos he]
        simp only [e]
        congr 1
        apply IntTy.cast_of_inRange (by decide)
        have hp := prefixSum_le (w := g.width) (ht := g.height) (f := fun x y => if ⌊f x y - m⌋ = k then 1 else 0)
          (lo := 0) (hi := 1) (by omega) (by omega) (fun x y _ _ => by constructor <;> split <;> omega) hy
          (x := x+1) (by omega)
        rw [count_step g.width (fun x y => ⌊f x y - m⌋), if_pos he] at hp
        show (0:Int) ≤ _ ∧ _ ≤ (4294967295 : Int)
        have hP : (P32 : Int) = 4294967296 := rfl
        omega
      · rw [if_neg e, hc2 k hk', if_neg (by omega)]; simp
    · rintro a2 h2 ⟨rfl, hs2, hc2⟩
      refine ⟨rfl, hs2, fun k hk => ?_⟩
      rw [hc2 k hk]
      simp [prefixSum, sumN]
  · rintro a2 h2 ⟨rfl, hs2, hc2⟩
    refine ⟨rfl, hs2, fun k hk => ?_⟩
    rw [hc2 k hk]
    simp [prefixSum, sumN, pixelCount, pixelSum]

example : ImageStatistics.histogramF ⟨0, 3, 3, 1, 0, 3, false⟩ (5/2) ⟨[9,9], 2, 0, true⟩ (⟨[some [5/2,13/4,7/2]]⟩ : Heap ℚ)
    = .ok ⟨[2,1], 2, 0, true⟩ ⟨[some [5/2,13/4,7/2]]⟩ := by decide +kernel

/-- `ThresholdOps::computeOtsu` on a float image: the value is the Otsu split of the image's own histogram, in which level `k` stands
for the pixels from `min_value + k` up to `min_value + k + 1`. -/
theorem C34_image_float {h : Heap K} {g : Gray} (hv : g.Valid h)
    {f : Nat → Nat → K} (hf : g.Shows h f) {lo hi : K} (hle : lo ≤ hi)
    (hr : ∀ x y, x < g.width → y < g.height → lo ≤ f x y ∧ f x y ≤ hi)
    (hrange : hi - lo < 2147483647) (junk : Nat → Int) :
    ∃ v : Nat, ThresholdOps.computeOtsuF junk g lo hi false h = .ok (v : Int) h ∧
      IsOtsu K (⌊hi - lo⌋.toNat + 1) (fun k => pixelCount g.width g.height (fun x y => ⌊f x y - lo⌋) k) v := by
  have f0 : 0 ≤ ⌊hi - lo⌋ := Int.floor_nonneg.mpr (by linarith)
  have f1 : ⌊hi - lo⌋ < 2147483647 := Int.floor_lt.mpr (by push_cast; exact hrange)
  have e1 : (toInt U32 (1 + hi - lo) : M K Int) h = .ok (⌊hi - lo⌋ + 1) h := by
    refine toInt_run (by linarith) ?_ ⟨by show (0 : Int) ≤ _; omega, by show _ ≤ (4294967295 : Int); omega⟩ h
    rw [← Int.floor_add_one]
    congr 1; ring
  have e3 : (⌊hi - lo⌋ + 1).toNat = ⌊hi - lo⌋.toNat + 1 := by omega
  set n := ⌊hi - lo⌋.toNat + 1 with hn
  obtain ⟨a, ea, as, al⟩ : ∃ a, GrowArray.new (intElem U32 junk) n = .ok () a ∧ a.size = n ∧ a.size ≤ a.data.length := by
    unfold GrowArray.new GrowArray.fill
    rw [if_pos (by simp)]
    exact ⟨_, rfl, rfl, by simp⟩
  have hnK : (n : K) = (⌊hi - lo⌋ : K) + 1 := by
    have : (n : Int) = ⌊hi - lo⌋ + 1 := by omega
    exact_mod_cast congrArg (Int.cast (R := K)) this
  obtain ⟨a', eh, es, ec, et⟩ := C28_histogram_float hv hf (m := lo) (a := a) al (by omega) (fun x y hx hy => by
    obtain ⟨q1, q2⟩ := hr x y hx hy
    refine ⟨q1, ?_⟩
    rw [as, hnK]
    have := Int.lt_floor_add_one (hi - lo)
    linarith)
  have hcnt : ∀ k, k < a'.size → a'.data[k]? = some (pixelCount g.width g.height (fun x y => ⌊f x y - lo⌋) k) := by
    intro k hk; exact ec k (by omega)
  have hsum : sumN a'.size (fun k => pixelCount g.width g.height (fun x y => ⌊f x y - lo⌋) k) = (g.width * g.height : Nat) := by
    rw [← et, es]
    exact sumN_congr (fun k hk => by rw [ec k hk]; rfl)
  have hnn : ∀ k, k < a'.size → 0 ≤ pixelCount g.width g.height (fun x y => ⌊f x y - lo⌋) k := by
    intro k hk
    unfold pixelCount pixelSum
    exact sumN_nonneg (fun y _ => sumN_nonneg (fun x _ => by
      show (0 : Int) ≤ if ⌊f x _ - lo⌋ = k then 1 else 0
      split <;> omega))
  have htp : g.totalPixels = g.width * g.height := by
    unfold Gray.totalPixels; exact wrap32_of_lt hv.area_lt
  obtain ⟨v, ev, hv'⟩ := C34_otsu (K := K) hcnt hnn (by omega) hsum hv.area_lt true h
  rw [es, as] at hv'
  have hvlt : v < 2147483648 := by
    rcases hv' with ⟨⟨q, _⟩, _⟩ | ⟨_, rfl⟩
    · omega
    · omega
  refine ⟨v, ?_, hv'⟩
  unfold ThresholdOps.computeOtsuF
  refine (M.bind_ok e1).trans ?_
  simp only [e3, ea]
  refine (M.bind_ok (M.pure_run _ h)).trans ((M.bind_ok eh).trans ?_)
  rw [htp]
  refine (M.bind_ok ev).trans ?_
  refine toInt_run (by positivity) ?_ ?_ h
  · exact_mod_cast Int.floor_intCast (v : Int)
  · exact ⟨by show (0 : Int) ≤ _; omega, by show _ ≤ (4294967295 : Int); omega⟩

/-- What the global Otsu filter does on float images: pixels are compared with the Otsu split `v` of the histogram, as it is.  With
`min_value = 0` and pixels which are whole numbers this separates the classes `Otsu` chose.  Missing for the full property: other
minimal values and other pixels, for which it is false (`C35_float_refuted`). -/
theorem C35_float_partial {h : Heap K} {g output : Gray} (hv : g.Valid h)
    (hov : output.Valid h) {f : Nat → Nat → K} (hf : g.Shows h f) {lo hi : K} (hle : lo ≤ hi)
    (hr : ∀ x y, x < g.width → y < g.height → lo ≤ f x y ∧ f x y ≤ hi) (hrange : hi - lo < 2147483647)
    (hc : output.CanBe g.width g.height) (hs : g.SepOrSame output g.width g.height) (down : Bool) (junk : Nat → Int) :
    ∃ (v : Nat) (F : Nat → Nat → K) (o : Gray) (h' : Heap K), ThresholdOps.globalOtsuF junk lo hi down g output h = .ok o h' ∧
      IsOtsu K (⌊hi - lo⌋.toNat + 1) (fun k => pixelCount g.width g.height (fun x y => ⌊f x y - lo⌋) k) v ∧
      Produced h h' output o g.width g.height F ∧
      (∀ x y, F x y = if down then (if f x y ≤ v then 1 else 0) else (if v < f x y then 1 else 0)) ∧
      (lo = 0 → (∀ x y, x < g.width → y < g.height → ∃ k : Int, f x y = k) → ∀ x y, x < g.width → y < g.height →
        F x y = if (⌊f x y - lo⌋ ≤ v ↔ down = true) then 1 else 0) := by
  obtain ⟨v, e, ho⟩ := C34_image_float hv hf hle hr hrange junk
  obtain ⟨o, h', eo, hp⟩ := threshold_run (fun a b => decide (a ≤ b)) (fun a b => decide (b < a)) (fun b => if b then (1 : K) else 0) 0
    (((v : Int) : K)) down hv hov hf hc hs
  have hF : ∀ x y, (if (if down = true then decide (f x y ≤ (((v : Int) : K))) else decide ((((v : Int) : K)) < f x y)) = true then (1 : K) else 0) =
      if down then (if f x y ≤ v then 1 else 0) else (if v < f x y then 1 else 0) := fun x y => by
    rw [Int.cast_natCast]
    cases down <;> simp
  refine ⟨v, _, o, h', ?_, ho, hp, hF, ?_⟩
  · unfold ThresholdOps.globalOtsuF
    exact (M.bind_ok e).trans eo
  · intro h0 hk x y hx hy
    obtain ⟨k, hk⟩ := hk x y hx hy
    rw [hF, h0, sub_zero, hk, Int.floor_intCast]
    have : ((k : K) ≤ (v : K)) ↔ k ≤ (v : Int) := by
      rw [← Int.cast_natCast (R := K) v]; exact Int.cast_le
    have this2 : ((v : K) < (k : K)) ↔ ¬k ≤ (v : Int) := by rw [← this, not_le]
    cases down <;> simp [this, this2]

/-- Pixels 1/2 and 21/2 fall into different classes, yet no pixel is marked: the class of 1/2 is level 0, and 1/2 is above the
threshold 0. -/
theorem C35_float_refuted :
    ThresholdOps.computeOtsuF (fun _ => 0) ⟨0, 2, 2, 1, 0, 2, false⟩ (0 : ℚ) 20 false ⟨[some [1/2, 21/2], some [7, 7]]⟩ =
      .ok 0 ⟨[some [1/2, 21/2], some [7, 7]]⟩ ∧
    ThresholdOps.globalOtsuF (fun _ => 0) (0 : ℚ) 20 true ⟨0, 2, 2, 1, 0, 2, false⟩ ⟨1, 2, 2, 1, 0, 2, false⟩
      ⟨[some [1/2, 21/2], some [7, 7]]⟩ = .ok ⟨1, 2, 2, 1, 0, 2, false⟩ ⟨[some [1/2, 21/2], some [0, 0]]⟩ ∧
    ThresholdOps.globalOtsuF (fun _ => 0) (0 : ℚ) 20 true ⟨0, 2, 2, 1, 0, 2, false⟩ ⟨1, 2, 2, 1, 0, 2, false⟩
      ⟨[some [0, 10], some [7, 7]]⟩ = .ok ⟨1, 2, 2, 1, 0, 2, false⟩ ⟨[some [0, 10], some [1, 0]]⟩ := by decide +kernel

end
end Boof
