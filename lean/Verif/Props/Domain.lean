import Verif.Props.Statistics
import Verif.Props.Extrema
import Verif.Props.Config
import Verif.Proofs.OrUb
/-
C25, C57, C71: exactly when these functions are defined, and what they return then.
-/
namespace Boof
open M
variable {V : Type}

/-- **C25, exactly.** For signed pixel types the sum is defined exactly when all sums of the first pixels, row by row, are representable in
the sum type; then it is the sum of the pixels. -/
theorem C25_sum_iff {t : IntTy} (ht : t = S16 ∨ t = S32 ∨ t = S64) {h : Heap Int} {g : Gray} (hv : g.Valid h)
    {f : Nat → Nat → Int} (hf : g.Shows h f) (h0 : 0 < g.width) (h1 : 0 < g.height) :
    (ImageStatistics.sum t g h = .ok (pixelSum g.width g.height f) h ∧
      ∀ y x, y < g.height → x ≤ g.width → t.sumType.InRange (prefixSum g.width f y x)) ∨
    (ImageStatistics.sum t g h = .ub ∧ ∃ y x, y < g.height ∧ x ≤ g.width ∧ ¬t.sumType.InRange (prefixSum g.width f y x)) := by
  have hb : 0 < t.sumType.bits := sumType_bits (by rcases ht with h | h | h <;> simp [h])
  have hs : t.sumType.signed = true := by rcases ht with rfl | rfl | rfl <;> rfl
  have key : SpecOrUb (ImageStatistics.sum t g) h (fun s h' => (s = pixelSum g.width g.height f ∧ h' = h) ∧
      ∀ y x, y < g.height → x ≤ g.width → t.sumType.InRange (prefixSum g.width f y x)) := by
    unfold ImageStatistics.sum
    refine SpecOrUb.loopS (fun k s h' => (s = sumN k (fun y' => sumN g.width (fun x' => f x' y')) ∧ h' = h) ∧
      ∀ y x, y < k → x ≤ g.width → t.sumType.InRange (prefixSum g.width f y x)) ⟨⟨rfl, rfl⟩, fun y x hy => by omega⟩ ?_
    rintro k s h' hk ⟨⟨rfl, rfl⟩, hp⟩
    simp only [hv.row_len hk]
    have hstart : t.sumType.InRange (prefixSum g.width f k 0) := by
      cases k with
      | zero => exact IntTy.inRange_zero
      | succ k =>
        have := hp k g.width (by omega) (Nat.le_refl _)
        unfold prefixSum at this ⊢
        simp only [sumN] at this ⊢
        rw [Int.add_zero]; exact this
    refine SpecOrUb.conseq (SpecOrUb.loopS (fun i s h'' => (s = prefixSum g.width f k i ∧ h'' = h') ∧
      ∀ x, x ≤ i → t.sumType.InRange (prefixSum g.width f k x)) ⟨⟨by simp [prefixSum, sumN], rfl⟩, ?_⟩ ?_) ?_
    · intro x hx
      have : x = 0 := by omega
      subst this; exact hstart
    · rintro i s h'' hi ⟨⟨rfl, rfl⟩, hq⟩
      refine SpecOrUb.bind_eq (hv.rd hf hi hk) ?_
      refine SpecOrUb.conseq (SpecOrUb.arithS hs) ?_
      rintro r h3 ⟨rfl, rfl, hr⟩
      have e : prefixSum g.width f k i + f i k = prefixSum g.width f k (i + 1) := by
        simp only [prefixSum, sumN]; rw [Int.add_assoc]
      refine ⟨⟨e, rfl⟩, fun x hx => ?_⟩
      rcases Nat.lt_or_ge i x with hxi | hxi
      · have : x = i + 1 := by omega
        subst this
        rw [← e]; exact hr
      · exact hq x hxi
    · rintro s h'' ⟨⟨rfl, rfl⟩, hq⟩
      refine ⟨⟨rfl, rfl⟩, fun y x hy hx => ?_⟩
      rcases Nat.lt_or_ge y k with hyk | hyk
      · exact hp y x hyk hx
      · have : y = k := by omega
        subst this; exact hq x hx
  by_cases hall : ∀ y x, y < g.height → x ≤ g.width → t.sumType.InRange (prefixSum g.width f y x)
  · exact Or.inl ⟨C25_sum_partial ht hv hf h0 h1 hall, hall⟩
  · refine Or.inr ⟨key.ub (fun _ _ q => hall q.2), ?_⟩
    by_contra hn
    refine hall (fun y x hy hx => ?_)
    by_contra hr
    exact hn ⟨y, x, hy, hx, hr⟩

/-- The two cases occur: 1, 2 and 3 have a sum; the largest 32-bit number, 1 and -5 have none in this order. -/
example : ImageStatistics.sum S32 (Gray.wrap 0 3 3 1 0 3) (⟨[some [1,2,3]]⟩ : Heap Int) = .ok 6 ⟨[some [1,2,3]]⟩ ∧
    ImageStatistics.sum S32 (Gray.wrap 0 3 3 1 0 3) (⟨[some [2147483647,1,-5]]⟩ : Heap Int) = .ub := ⟨rfl, rfl⟩

/-- **C57, exactly.** For coordinates of the element type: `distanceSq` is defined exactly when both differences and the squared distance are
representable in the signed type, and then it is the squared distance. -/
theorem C57_distanceSq_iff {t : IntTy} (ht : t = U8 ∨ t = U16 ∨ t = S16 ∨ t = S32 ∨ t = S64) (p : Point2D) (x y : Int) (h : Heap V) :
    (p.distanceSq t x y h = .ok ((x - p.x)^2 + (y - p.y)^2) h ∧ t.signedType.InRange (x - p.x) ∧ t.signedType.InRange (y - p.y) ∧
      (x - p.x)^2 + (y - p.y)^2 ≤ t.signedType.hi) ∨
    (p.distanceSq t x y h = .ub ∧ ¬(t.signedType.InRange (x - p.x) ∧ t.signedType.InRange (y - p.y) ∧
      (x - p.x)^2 + (y - p.y)^2 ≤ t.signedType.hi)) := by
  by_cases hd : t.signedType.InRange (x - p.x) ∧ t.signedType.InRange (y - p.y) ∧ (x - p.x)^2 + (y - p.y)^2 ≤ t.signedType.hi
  · exact Or.inl ⟨C57_distanceSq ht p x y hd.1 hd.2.1 hd.2.2 h, hd⟩
  · refine Or.inr ⟨?_, hd⟩
    have hp : t.promote = t.signedType := by rcases ht with rfl | rfl | rfl | rfl | rfl <;> decide
    have hpp : t.signedType.promote = t.signedType := by rcases ht with rfl | rfl | rfl | rfl | rfl <;> decide
    have hb : 0 < t.signedType.bits := by rcases ht with rfl | rfl | rfl | rfl | rfl <;> decide
    have hsg : t.signedType.signed = true := by rcases ht with rfl | rfl | rfl | rfl | rfl <;> decide
    have key : SpecOrUb (p.distanceSq t x y) h (fun _ _ => t.signedType.InRange (x - p.x) ∧ t.signedType.InRange (y - p.y) ∧
        (x - p.x)^2 + (y - p.y)^2 ≤ t.signedType.hi) := by
      unfold Point2D.distanceSq
      rw [hp, hpp]
      refine SpecOrUb.bind (SpecOrUb.arithS hsg) ?_
      rintro _ _ ⟨rfl, rfl, hx⟩
      rw [IntTy.cast_of_inRange hb hx]
      refine SpecOrUb.bind (SpecOrUb.arithS hsg) ?_
      rintro _ _ ⟨rfl, rfl, hy⟩
      rw [IntTy.cast_of_inRange hb hy]
      refine SpecOrUb.bind (SpecOrUb.arithS hsg) ?_
      rintro _ _ ⟨rfl, rfl, _⟩
      refine SpecOrUb.bind (SpecOrUb.arithS hsg) ?_
      rintro _ _ ⟨rfl, rfl, _⟩
      refine SpecOrUb.bind (SpecOrUb.arithS hsg) ?_
      rintro _ _ ⟨rfl, rfl, hs⟩
      refine SpecOrUb.pure ⟨hx, hy, ?_⟩
      rw [pow_two, pow_two]; exact hs.2
    exact key.ub (fun _ _ q => hd q)

example : Point2D.distanceSq S32 ⟨-3, 0⟩ 46337 1 (⟨[]⟩ : Heap Int) = .ok 2147395601 ⟨[]⟩ ∧
    Point2D.distanceSq S32 ⟨-3, 0⟩ 46338 500 (⟨[]⟩ : Heap Int) = .ub := ⟨rfl, rfl⟩

/-- The magnitude an integral type narrower than `int` can hold: that of the most negative number is the number itself. -/
def storedAbs (t : IntTy) (a : Int) : Int := if a = t.lo then t.lo else |a|

theorem absIn_small {t : IntTy} (ht : t = S16) {a : Int} (hr : t.InRange a) (h : Heap V) :
    (absIn t a : M V Int) h = .ok (storedAbs t a) h := by
  subst ht
  have h1 : (-32768 : Int) ≤ a := hr.1
  have h2 : a ≤ (32767 : Int) := hr.2
  by_cases hl : a = -32768
  · subst hl; rfl
  · have : storedAbs S16 a = |a| := if_neg hl
    rw [this]
    refine absIn_run (by decide) ?_ h2 h
    show -(32767 : Int) ≤ a
    omega

/-- **C71, exactly, 16-bit kernels.** Every kernel: the result is the largest (smallest) of the stored magnitudes. -/
theorem C71_abs_s16 {k : Kernel Int} {n : Nat} {c : Nat → Int} (hs : k.data.size = n)
    (hn : 0 < n) (hc : ∀ i, i < n → k.data.data[i]? = some (c i)) (hr : ∀ i, i < n → S16.InRange (c i)) (h : Heap V) :
    (∃ m, k.elementAbsMaxInt S16 h = .ok m h ∧ IsLargest n (fun i => storedAbs S16 (c i)) m) ∧
    (∃ m, k.elementAbsMinInt S16 h = .ok m h ∧ IsSmallest n (fun i => storedAbs S16 (c i)) m) := by
  have ha : ∀ i, i < n → ∀ h : Heap V, (absIn S16 (c i) : M V Int) h = .ok (storedAbs S16 (c i)) h :=
    fun i hi h => absIn_small rfl (hr i hi) h
  unfold Kernel.elementAbsMaxInt Kernel.elementAbsMinInt
  rw [scanAbs_run _ hs hn hc ha, scanAbs_run _ hs hn hc ha]
  refine ⟨?_, ?_⟩
  · exact scan_best hs hn hc (storedAbs S16) _ (fun a b => b ≤ a) (fun a => le_refl a) (fun a b c h1 h2 => le_trans h2 h1)
      (fun a b hb => le_of_lt (by simpa using hb)) (fun a b hb => by simpa using hb) h
  · exact scan_best hs hn hc (storedAbs S16) _ (fun a b => a ≤ b) (fun a => le_refl a) (fun a b c h1 h2 => le_trans h1 h2)
      (fun a b hb => le_of_lt (by simpa using hb)) (fun a b hb => by simpa using hb) h

theorem absIn_wide {t : IntTy} (ht : t = S32 ∨ t = S64) (a : Int) (h : Heap V) :
    SpecOrUb (absIn t a : M V Int) h (fun _ h' => h' = h ∧ a ≠ t.lo) := by
  have hlo : -t.lo = t.hi + 1 := by rcases ht with rfl | rfl <;> rfl
  have hneg : t.lo < 0 := by rcases ht with rfl | rfl <;> decide
  unfold absIn
  rw [if_neg (by rcases ht with rfl | rfl <;> decide)]
  split
  · split
    · exact SpecOrUb.pure ⟨rfl, by omega⟩
    · exact Or.inl rfl
  · exact SpecOrUb.pure ⟨rfl, by omega⟩

theorem scanAbs_wide {t : IntTy} (ht : t = S32 ∨ t = S64) {k : Kernel Int} {n : Nat} {c : Nat → Int} (hs : k.data.size = n)
    (hn : 0 < n) (hc : ∀ i, i < n → k.data.data[i]? = some (c i)) (better : Int → Int → Bool) (h : Heap V) :
    SpecOrUb (k.scanAbsInt t better) h (fun _ _ => ∀ i, i < n → c i ≠ t.lo) := by
  have hget : ∀ i, i < n → k.get i h = .ok (c i) h := by
    intro i hi
    unfold Kernel.get
    rw [hc i hi]; rfl
  have hat : Kernel1D.at' k 0 h = .ok (c 0) h := by
    unfold Kernel1D.at'
    rw [if_neg (by omega)]
    exact hget 0 hn
  unfold Kernel.scanAbsInt
  refine SpecOrUb.bind_eq hat (SpecOrUb.bind (absIn_wide ht _ _) ?_)
  rintro best h' ⟨rfl, h0⟩
  rw [hs]
  refine SpecOrUb.conseq (SpecOrUb.loopS (fun m _ h'' => h'' = h' ∧ ∀ i, i < m + 1 → c i ≠ t.lo) ⟨rfl, fun i hi => ?_⟩ ?_) ?_
  · have : i = 0 := by omega
    subst this; exact h0
  · rintro m b _ hm ⟨rfl, hp⟩
    refine SpecOrUb.bind_eq (hget (1 + m) (by omega)) (SpecOrUb.bind (absIn_wide ht _ _) ?_)
    rintro a _ ⟨rfl, hne⟩
    refine SpecOrUb.pure ⟨rfl, fun i hi => ?_⟩
    rcases Nat.lt_or_ge i (m + 1) with hi' | hi'
    · exact hp i hi'
    · have : i = 1 + m := by omega
      subst this; exact hne
  · rintro _ _ ⟨_, hp⟩
    exact fun i hi => hp i (by omega)

/-- **C71, exactly, 32- and 64-bit kernels.** The calls are undefined exactly when a coefficient is the most negative number of the type. -/
theorem C71_abs_wide {t : IntTy} (ht : t = S32 ∨ t = S64) {k : Kernel Int} {n : Nat} {c : Nat → Int} (hs : k.data.size = n)
    (hn : 0 < n) (hc : ∀ i, i < n → k.data.data[i]? = some (c i)) (hr : ∀ i, i < n → t.InRange (c i)) (h : Heap V) :
    ((∃ i, i < n ∧ c i = t.lo) ↔ k.elementAbsMaxInt t h = .ub) ∧ ((∃ i, i < n ∧ c i = t.lo) ↔ k.elementAbsMinInt t h = .ub) := by
  have hlo : -t.hi = t.lo + 1 := by rcases ht with rfl | rfl <;> rfl
  have hb : 0 < t.bits := by rcases ht with rfl | rfl <;> decide
  have hgood : ¬(∃ i, i < n ∧ c i = t.lo) → ∀ i, i < n → -t.hi ≤ c i ∧ c i ≤ t.hi := by
    intro hn i hi
    have h1 := (hr i hi).1
    have h2 : c i ≠ t.lo := fun e => hn ⟨i, hi, e⟩
    exact ⟨by omega, (hr i hi).2⟩
  constructor
  · constructor
    · rintro ⟨i, hi, e⟩
      exact (scanAbs_wide ht hs hn hc _ h).ub (fun _ _ q => q i hi e)
    · intro hu
      by_contra hno
      obtain ⟨m, e, _⟩ := (C71_abs_int_partial hb hs hn hc (hgood hno) h).1
      rw [hu] at e; cases e
  · constructor
    · rintro ⟨i, hi, e⟩
      exact (scanAbs_wide ht hs hn hc _ h).ub (fun _ _ q => q i hi e)
    · intro hu
      by_contra hno
      obtain ⟨m, e, _⟩ := (C71_abs_int_partial hb hs hn hc (hgood hno) h).2
      rw [hu] at e; cases e

example (h : Heap V) : (⟨2, 0, ⟨[-32768, 5], 2, 0, true⟩⟩ : Kernel Int).elementAbsMaxInt S16 h = .ok 5 h ∧
    (⟨2, 0, ⟨[7, -2147483648], 2, 0, true⟩⟩ : Kernel Int).elementAbsMinInt S32 h = .ub := ⟨rfl, rfl⟩

end Boof
