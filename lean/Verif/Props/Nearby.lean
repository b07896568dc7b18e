import Verif.Proofs.Nearby
import Verif.Proofs.Order
import Verif.Props.Blocks
import Verif.Props.LocalRounding
import Verif.Props.Brightness
/-
C118: adaptive thresholds look at nearby pixels only, the two directions are complementary, and mirrored pictures have mirrored results.
-/
namespace Boof
open M OtsuSpec
variable {K : Type} [Field K] [LinearOrder K] [IsStrictOrderedRing K] [FloorRing K]

theorem roundedMean_near {t : IntTy} {r n x : Nat} {v w : Nat → Int} (e : ∀ i, Near r n x i → v i = w i) :
    roundedMean t r n v x = roundedMean t r n w x := by
  unfold roundedMean localSum
  rw [sumF_same (g := fun i => w (x - r + i)) (fun i hi => e _ (by unfold localCount at hi; exact ⟨by omega, by omega, by omega⟩))]

theorem complement_cases {o1 o2 : Option Int} {P : Prop} [Decidable P] (c1 : o1 = some (if true = decide P then 1 else 0))
    (c2 : o2 = some (if false = decide P then 1 else 0)) : (o1 = some 0 ∧ o2 = some 1) ∨ (o1 = some 1 ∧ o2 = some 0) := by
  by_cases hc : P
  · rw [decide_eq_true hc] at c1 c2
    exact Or.inr ⟨c1, c2⟩
  · rw [decide_eq_false hc] at c1 c2
    exact Or.inl ⟨c1, c2⟩

/-! ### Local mean -/

/-- What the local mean threshold decides for two runs. -/
theorem localMean_pair (junk junk' : Nat → Int) {h k : Heap Int} {i1 o1 a1 b1 i2 o2 a2 b2 : Gray} {f g : Nat → Nat → Int}
    {width : ConfigLength ℚ} {down down' : Bool} {n p : Nat} {scale : ℚ} (hp : 85 ≤ p) (hp2 : p ≤ 103) (hs : float32 ((p : ℚ) / 100) = some scale)
    (hn : ∀ h : Heap Int, width.computeIR float64 ((min i1.width i1.height : Nat) : ℚ) h = .ok n h) (hn2 : 2 ≤ n) (hn3 : n ≤ 1000000)
    (A : LocalArgs h i1 o1 a1 b1 n f) (B : LocalArgs k i2 o2 a2 b2 n g)
    (hw : i2.width = i1.width) (hh : i2.height = i1.height)
    (hf : ∀ x y, x < i1.width → y < i1.height → 0 ≤ f x y ∧ f x y ≤ 255) (hg : ∀ x y, x < i1.width → y < i1.height → 0 ≤ g x y ∧ g x y ≤ 255) :
    ∃ (r1 r2 p1 p2 q1 q2 : Gray) (h' k' : Heap Int),
      ThresholdOps.localMeanR float32 float64 0 (fun a b r s => BlurImageOps.meanInt U8 (intElem U8 junk) a b r s)
        (fun v => float32 (v : ℚ)) (fun b => if b then 1 else 0) i1 o1 width scale down a1 b1 h = .ok (r1, p1, q1) h' ∧
      ThresholdOps.localMeanR float32 float64 0 (fun a b r s => BlurImageOps.meanInt U8 (intElem U8 junk') a b r s)
        (fun v => float32 (v : ℚ)) (fun b => if b then 1 else 0) i2 o2 width scale down' a2 b2 k = .ok (r2, p2, q2) k' ∧
      ∀ x y, x < i1.width → y < i1.height →
        h'.px r1 x y = some (if (if down then 100 * f x y ≤ p * meanImage U8 (n / 2) i1.width i1.height f x y
          else p * f x y > 100 * meanImage U8 (n / 2) i1.width i1.height f x y) then 1 else 0) ∧
        k'.px r2 x y = some (if (if down' then 100 * g x y ≤ p * meanImage U8 (n / 2) i1.width i1.height g x y
          else p * g x y > 100 * meanImage U8 (n / 2) i1.width i1.height g x y) then 1 else 0) := by
  obtain ⟨r1, p1, q1, h', e1, t1, -⟩ := C110_u8_partial junk (down := down) hp hp2 hs hn hn2 hn3 A.inputValid A.outputValid
    A.firstValid A.secondValid A.shows A.canBe A.firstCanBe A.secondCanBe A.sep A.firstSep A.secondSep A.apart.1 A.apart.2.1 A.apart.2.2
    A.width A.height A.length A.secondLength A.shape hf
  obtain ⟨r2, p2, q2, k', e2, t2, -⟩ := C110_u8_partial junk' (down := down') hp hp2 hs
    (by rw [hw, hh]; exact hn) hn2 hn3 B.inputValid B.outputValid
    B.firstValid B.secondValid B.shows B.canBe B.firstCanBe B.secondCanBe B.sep B.firstSep B.secondSep B.apart.1 B.apart.2.1 B.apart.2.2
    B.width B.height B.length B.secondLength B.shape (by rw [hw, hh]; exact hg)
  refine ⟨r1, r2, p1, p2, q1, q2, h', k', e1, e2, fun x y hx hy => ⟨t1.pix x y hx hy, ?_⟩⟩
  rw [t2.pix x y (by omega) (by omega), hw, hh]

/-- Two 8-bit pictures with the same pixels at distance at most half the width have the same result there. -/
theorem C118_localMean_local (junk junk' : Nat → Int) {h k : Heap Int} {i1 o1 a1 b1 i2 o2 a2 b2 : Gray} {f g : Nat → Nat → Int}
    {width : ConfigLength ℚ} {down : Bool} {n p : Nat} {scale : ℚ} (hp : 85 ≤ p) (hp2 : p ≤ 103) (hs : float32 ((p : ℚ) / 100) = some scale)
    (hn : ∀ h : Heap Int, width.computeIR float64 ((min i1.width i1.height : Nat) : ℚ) h = .ok n h) (hn2 : 2 ≤ n) (hn3 : n ≤ 1000000)
    (A : LocalArgs h i1 o1 a1 b1 n f) (B : LocalArgs k i2 o2 a2 b2 n g)
    (hw : i2.width = i1.width) (hh : i2.height = i1.height)
    (hf : ∀ x y, x < i1.width → y < i1.height → 0 ≤ f x y ∧ f x y ≤ 255) (hg : ∀ x y, x < i1.width → y < i1.height → 0 ≤ g x y ∧ g x y ≤ 255) :
    ∃ (r1 r2 p1 p2 q1 q2 : Gray) (h' k' : Heap Int),
      ThresholdOps.localMeanR float32 float64 0 (fun a b r s => BlurImageOps.meanInt U8 (intElem U8 junk) a b r s)
        (fun v => float32 (v : ℚ)) (fun b => if b then 1 else 0) i1 o1 width scale down a1 b1 h = .ok (r1, p1, q1) h' ∧
      ThresholdOps.localMeanR float32 float64 0 (fun a b r s => BlurImageOps.meanInt U8 (intElem U8 junk') a b r s)
        (fun v => float32 (v : ℚ)) (fun b => if b then 1 else 0) i2 o2 width scale down a2 b2 k = .ok (r2, p2, q2) k' ∧
      ∀ x y, x < i1.width → y < i1.height →
        (∀ x' y', Near (n / 2) i1.width x x' → Near (n / 2) i1.height y y' → f x' y' = g x' y') →
        ∃ v, h'.px r1 x y = some v ∧ k'.px r2 x y = some v := by
  obtain ⟨r1, r2, p1, p2, q1, q2, h', k', e1, e2, pix⟩ := localMean_pair junk junk' (down := down) (down' := down) hp hp2 hs hn hn2 hn3 A B hw hh hf hg
  refine ⟨r1, r2, p1, p2, q1, q2, h', k', e1, e2, fun x y hx hy e => ?_⟩
  obtain ⟨c1, c2⟩ := pix x y hx hy
  have ex : f x y = g x y := e x y ⟨hx, by omega, by omega⟩ ⟨hy, by omega, by omega⟩
  have em : meanImage U8 (n / 2) i1.width i1.height f x y = meanImage U8 (n / 2) i1.width i1.height g x y := by
    unfold meanImage
    refine roundedMean_near (fun j hj => roundedMean_near (fun i hi => e i j hi hj))
  rw [ex, em] at c1
  exact ⟨_, c1, c2⟩

/-- The hypotheses are met: width 2, two images which differ in the bottom right pixel only; no pixel at distance at most 1 from the top left one differs. -/
example : ∃ (h k : Heap Int) (f g : Nat → Nat → Int),
    LocalArgs h ⟨0, 9, 3, 3, 0, 3, false⟩ ⟨1, 9, 3, 3, 0, 3, false⟩ ⟨2, 9, 3, 3, 0, 3, false⟩ ⟨3, 9, 3, 3, 0, 3, false⟩ 2 f ∧
    LocalArgs k ⟨0, 9, 3, 3, 0, 3, false⟩ ⟨1, 9, 3, 3, 0, 3, false⟩ ⟨2, 9, 3, 3, 0, 3, false⟩ ⟨3, 9, 3, 3, 0, 3, false⟩ 2 g ∧
    (∀ h : Heap Int, (ConfigLength.fixed (2 : ℚ)).computeIR float64 ((min 3 3 : Nat) : ℚ) h = .ok ((2 : Nat) : Int) h) ∧
    (∀ x' y', Near (2 / 2) 3 0 x' → Near (2 / 2) 3 0 y' → f x' y' = g x' y') ∧ f 2 2 ≠ g 2 2 := by
  have val : ∀ (b : Nat) (h : Heap Int), (∃ l, h.get b = some l ∧ l.length = 9) → (⟨b, 9, 3, 3, 0, 3, false⟩ : Gray).Valid h := by
    rintro b h ⟨l, e, hl⟩
    refine ⟨by rw [e]; rfl, ?_, by show 9 < P32; decide, by show 3 < P32; decide, by show 3 < P32; decide, by show 3 ≤ 3; decide, ?_,
      fun _ => ⟨rfl, rfl⟩⟩
    · intro i hi
      change i < 9 at hi
      unfold Heap.cell
      show ∃ v, (h.get b).bind (fun l => l[i]?) = some v
      rw [e]
      exact ⟨l[i], by simp [List.getElem?_eq_getElem (show i < l.length by omega)]⟩
    · intro y hy
      change y < 3 at hy
      show 0 + y * 3 + 3 ≤ 9
      omega
  refine ⟨⟨[some [0,100,0,100,0,0,0,100,100], some (List.replicate 9 0), some (List.replicate 9 0), some (List.replicate 9 0)]⟩,
    ⟨[some [0,100,0,100,0,0,0,100,0], some (List.replicate 9 0), some (List.replicate 9 0), some (List.replicate 9 0)]⟩,
    fun x y => [0,100,0,100,0,0,0,100,100].getD (y * 3 + x) 0, fun x y => [0,100,0,100,0,0,0,100,0].getD (y * 3 + x) 0, ?_, ?_, ?_, ?_, by decide⟩
  · refine ⟨val _ _ ⟨_, rfl, rfl⟩, val _ _ ⟨_, rfl, rfl⟩, val _ _ ⟨_, rfl, rfl⟩, val _ _ ⟨_, rfl, rfl⟩, ?_, Or.inl rfl, Or.inl rfl,
      Or.inl rfl, Or.inl (by decide), Or.inl (by decide), Or.inl (by decide), by decide, by decide, by decide, by decide, by decide, by decide⟩
    intro x y hx hy
    change x < 3 at hx
    change y < 3 at hy
    have hx : x = 0 ∨ x = 1 ∨ x = 2 := by omega
    have hy : y = 0 ∨ y = 1 ∨ y = 2 := by omega
    rcases hx with rfl | rfl | rfl <;> rcases hy with rfl | rfl | rfl <;> rfl
  · refine ⟨val _ _ ⟨_, rfl, rfl⟩, val _ _ ⟨_, rfl, rfl⟩, val _ _ ⟨_, rfl, rfl⟩, val _ _ ⟨_, rfl, rfl⟩, ?_, Or.inl rfl, Or.inl rfl,
      Or.inl rfl, Or.inl (by decide), Or.inl (by decide), Or.inl (by decide), by decide, by decide, by decide, by decide, by decide, by decide⟩
    intro x y hx hy
    change x < 3 at hx
    change y < 3 at hy
    have hx : x = 0 ∨ x = 1 ∨ x = 2 := by omega
    have hy : y = 0 ∨ y = 1 ∨ y = 2 := by omega
    rcases hx with rfl | rfl | rfl <;> rcases hy with rfl | rfl | rfl <;> rfl
  · exact fun h => C110_width_fixed (n := 2) (by decide +kernel) (by omega) _ h
  · rintro x y ⟨h1, h2, h3⟩ ⟨h4, h5, h6⟩
    have hx : x = 0 ∨ x = 1 := by omega
    have hy : y = 0 ∨ y = 1 := by omega
    rcases hx with rfl | rfl <;> rcases hy with rfl | rfl <;> rfl

/-- What the filter does with the two images. -/
example :
    (match ThresholdOps.localMeanR (K := ℚ) float32 float64 0 (fun a b r s => BlurImageOps.meanInt U8 (intElem U8 (fun _ => 7)) a b r s)
        (fun v => float32 (v : ℚ)) (fun b => if b then 1 else 0) ⟨0, 9, 3, 3, 0, 3, false⟩ ⟨1, 9, 3, 3, 0, 3, false⟩
        (ConfigLength.fixed 2) 1 true ⟨2, 9, 3, 3, 0, 3, false⟩ ⟨3, 9, 3, 3, 0, 3, false⟩
        ⟨[some [0,100,0,100,0,0,0,100,100], some (List.replicate 9 0), some (List.replicate 9 0), some (List.replicate 9 0)]⟩ with
      | .ok _ h => h.get 1
      | _ => none) = some [1,0,1,0,1,1,1,0,0] ∧
    (match ThresholdOps.localMeanR (K := ℚ) float32 float64 0 (fun a b r s => BlurImageOps.meanInt U8 (intElem U8 (fun _ => 7)) a b r s)
        (fun v => float32 (v : ℚ)) (fun b => if b then 1 else 0) ⟨0, 9, 3, 3, 0, 3, false⟩ ⟨1, 9, 3, 3, 0, 3, false⟩
        (ConfigLength.fixed 2) 1 true ⟨2, 9, 3, 3, 0, 3, false⟩ ⟨3, 9, 3, 3, 0, 3, false⟩
        ⟨[some [0,100,0,100,0,0,0,100,0], some (List.replicate 9 0), some (List.replicate 9 0), some (List.replicate 9 0)]⟩ with
      | .ok _ h => h.get 1
      | _ => none) = some [1,0,1,0,1,1,1,0,1] := by
  decide +kernel

/-- Scale 1: the two directions give complementary pictures. -/
theorem C118_localMean_complement (junk junk' : Nat → Int) {h k : Heap Int} {i1 o1 a1 b1 i2 o2 a2 b2 : Gray} {f : Nat → Nat → Int}
    {width : ConfigLength ℚ} {n : Nat}
    (hn : ∀ h : Heap Int, width.computeIR float64 ((min i1.width i1.height : Nat) : ℚ) h = .ok n h) (hn2 : 2 ≤ n) (hn3 : n ≤ 1000000)
    (A : LocalArgs h i1 o1 a1 b1 n f) (B : LocalArgs k i2 o2 a2 b2 n f)
    (hw : i2.width = i1.width) (hh : i2.height = i1.height)
    (hf : ∀ x y, x < i1.width → y < i1.height → 0 ≤ f x y ∧ f x y ≤ 255) :
    ∃ (r1 r2 p1 p2 q1 q2 : Gray) (h' k' : Heap Int),
      ThresholdOps.localMeanR float32 float64 0 (fun a b r s => BlurImageOps.meanInt U8 (intElem U8 junk) a b r s)
        (fun v => float32 (v : ℚ)) (fun b => if b then 1 else 0) i1 o1 width 1 true a1 b1 h = .ok (r1, p1, q1) h' ∧
      ThresholdOps.localMeanR float32 float64 0 (fun a b r s => BlurImageOps.meanInt U8 (intElem U8 junk') a b r s)
        (fun v => float32 (v : ℚ)) (fun b => if b then 1 else 0) i2 o2 width 1 false a2 b2 k = .ok (r2, p2, q2) k' ∧
      Complementary h' r1 k' r2 i1.width i1.height := by
  have hs : float32 (((100 : Nat) : ℚ) / 100) = some 1 := by
    have := float32_exact (K := ℚ) 1 (by omega)
    norm_num at this ⊢
    exact this
  obtain ⟨r1, r2, p1, p2, q1, q2, h', k', e1, e2, pix⟩ := localMean_pair junk junk' (down := true) (down' := false) (p := 100) (by omega) (by omega) hs hn hn2 hn3 A B
    hw hh hf hf
  refine ⟨r1, r2, p1, p2, q1, q2, h', k', e1, e2, fun x y hx hy => ?_⟩
  obtain ⟨c1, c2⟩ := pix x y hx hy
  generalize meanImage U8 (n / 2) i1.width i1.height f x y = m at *
  simp only [if_true, Bool.false_eq_true, if_false] at c1 c2
  push_cast at c1 c2
  by_cases hc : f x y ≤ m
  · right
    exact ⟨by rw [c1, if_pos (by omega)], by rw [c2, if_neg (by omega)]⟩
  · left
    exact ⟨by rw [c1, if_neg (by omega)], by rw [c2, if_pos (by omega)]⟩

/-- What the filter does with the image of the example above. -/
example :
    (match ThresholdOps.localMeanR (K := ℚ) float32 float64 0 (fun a b r s => BlurImageOps.meanInt U8 (intElem U8 (fun _ => 7)) a b r s)
        (fun v => float32 (v : ℚ)) (fun b => if b then 1 else 0) ⟨0, 9, 3, 3, 0, 3, false⟩ ⟨1, 9, 3, 3, 0, 3, false⟩
        (ConfigLength.fixed 2) 1 true ⟨2, 9, 3, 3, 0, 3, false⟩ ⟨3, 9, 3, 3, 0, 3, false⟩
        ⟨[some [0,100,0,100,0,0,0,100,100], some (List.replicate 9 0), some (List.replicate 9 0), some (List.replicate 9 0)]⟩ with
      | .ok _ h => h.get 1
      | _ => none) = some [1,0,1,0,1,1,1,0,0] ∧
    (match ThresholdOps.localMeanR (K := ℚ) float32 float64 0 (fun a b r s => BlurImageOps.meanInt U8 (intElem U8 (fun _ => 7)) a b r s)
        (fun v => float32 (v : ℚ)) (fun b => if b then 1 else 0) ⟨0, 9, 3, 3, 0, 3, false⟩ ⟨1, 9, 3, 3, 0, 3, false⟩
        (ConfigLength.fixed 2) 1 false ⟨2, 9, 3, 3, 0, 3, false⟩ ⟨3, 9, 3, 3, 0, 3, false⟩
        ⟨[some [0,100,0,100,0,0,0,100,100], some (List.replicate 9 0), some (List.replicate 9 0), some (List.replicate 9 0)]⟩ with
      | .ok _ h => h.get 1
      | _ => none) = some [0,1,0,1,0,0,0,1,1] := by
  decide +kernel

/-- With scale 0.95 the two directions are not complementary: pixels near the mean are 0 in both. -/
theorem C118_localMean_complement_refuted :
    (match ThresholdOps.localMeanR (K := ℚ) float32 float64 0 (fun a b r s => BlurImageOps.meanInt U8 (intElem U8 (fun _ => 7)) a b r s)
        (fun v => float32 (v : ℚ)) (fun b => if b then 1 else 0) ⟨0, 9, 3, 3, 0, 3, false⟩ ⟨1, 9, 3, 3, 0, 3, false⟩
        (ConfigLength.fixed 2) (15938355 / 2 ^ 24) true ⟨2, 9, 3, 3, 0, 3, false⟩ ⟨3, 9, 3, 3, 0, 3, false⟩
        ⟨[some (List.replicate 9 100), some (List.replicate 9 0), some (List.replicate 9 0), some (List.replicate 9 0)]⟩ with
      | .ok _ h => h.get 1
      | _ => none) = some (List.replicate 9 0) ∧
    (match ThresholdOps.localMeanR (K := ℚ) float32 float64 0 (fun a b r s => BlurImageOps.meanInt U8 (intElem U8 (fun _ => 7)) a b r s)
        (fun v => float32 (v : ℚ)) (fun b => if b then 1 else 0) ⟨0, 9, 3, 3, 0, 3, false⟩ ⟨1, 9, 3, 3, 0, 3, false⟩
        (ConfigLength.fixed 2) (15938355 / 2 ^ 24) false ⟨2, 9, 3, 3, 0, 3, false⟩ ⟨3, 9, 3, 3, 0, 3, false⟩
        ⟨[some (List.replicate 9 100), some (List.replicate 9 0), some (List.replicate 9 0), some (List.replicate 9 0)]⟩ with
      | .ok _ h => h.get 1
      | _ => none) = some (List.replicate 9 0) := by
  decide +kernel

/-- The result of a mirrored picture is the mirrored result. -/
theorem C118_localMean_mirrored (junk junk' : Nat → Int) {h k : Heap Int} {i1 o1 a1 b1 i2 o2 a2 b2 : Gray} {f : Nat → Nat → Int}
    {width : ConfigLength ℚ} {down : Bool} (a b : Bool) {n p : Nat} {scale : ℚ} (hp : 85 ≤ p) (hp2 : p ≤ 103) (hs : float32 ((p : ℚ) / 100) = some scale)
    (hn : ∀ h : Heap Int, width.computeIR float64 ((min i1.width i1.height : Nat) : ℚ) h = .ok n h) (hn2 : 2 ≤ n) (hn3 : n ≤ 1000000)
    (A : LocalArgs h i1 o1 a1 b1 n f) (B : LocalArgs k i2 o2 a2 b2 n (mirrored a b i1.width i1.height f))
    (hw : i2.width = i1.width) (hh : i2.height = i1.height)
    (hf : ∀ x y, x < i1.width → y < i1.height → 0 ≤ f x y ∧ f x y ≤ 255) :
    ∃ (r1 r2 p1 p2 q1 q2 : Gray) (h' k' : Heap Int),
      ThresholdOps.localMeanR float32 float64 0 (fun a b r s => BlurImageOps.meanInt U8 (intElem U8 junk) a b r s)
        (fun v => float32 (v : ℚ)) (fun b => if b then 1 else 0) i1 o1 width scale down a1 b1 h = .ok (r1, p1, q1) h' ∧
      ThresholdOps.localMeanR float32 float64 0 (fun a b r s => BlurImageOps.meanInt U8 (intElem U8 junk') a b r s)
        (fun v => float32 (v : ℚ)) (fun b => if b then 1 else 0) i2 o2 width scale down a2 b2 k = .ok (r2, p2, q2) k' ∧
      ∀ x y, x < i1.width → y < i1.height →
        ∃ v, h'.px r1 (mirrorIf a i1.width x) (mirrorIf b i1.height y) = some v ∧ k'.px r2 x y = some v := by
  obtain ⟨r1, r2, p1, p2, q1, q2, h', k', e1, e2, pix⟩ := localMean_pair junk junk' (down := down) (down' := down) hp hp2 hs hn hn2 hn3 A B
    hw hh hf (fun x y hx hy => hf _ _ (mirrorIf_lt hx) (mirrorIf_lt hy))
  refine ⟨r1, r2, p1, p2, q1, q2, h', k', e1, e2, fun x y hx hy => ?_⟩
  have c1 := (pix _ _ (mirrorIf_lt (b := a) hx) (mirrorIf_lt (b := b) hy)).1
  have c2 := (pix x y hx hy).2
  have em : meanImage U8 (n / 2) i1.width i1.height (mirrored a b i1.width i1.height f) x y =
      meanImage U8 (n / 2) i1.width i1.height f (mirrorIf a i1.width x) (mirrorIf b i1.height y) := by
    unfold meanImage mirrored
    rw [← roundedMean_mirrorIf hy]
    refine roundedMean_same (fun j hj => ?_)
    rw [roundedMean_mirrorIf hx (fun i => f i (mirrorIf b i1.height j))]
  rw [em] at c2
  exact ⟨_, c1, c2⟩

/-- What the filter does with an image and with its mirror image (left and right). -/
example :
    (match ThresholdOps.localMeanR (K := ℚ) float32 float64 0 (fun a b r s => BlurImageOps.meanInt U8 (intElem U8 (fun _ => 7)) a b r s)
        (fun v => float32 (v : ℚ)) (fun b => if b then 1 else 0) ⟨0, 9, 3, 3, 0, 3, false⟩ ⟨1, 9, 3, 3, 0, 3, false⟩
        (ConfigLength.fixed 2) 1 true ⟨2, 9, 3, 3, 0, 3, false⟩ ⟨3, 9, 3, 3, 0, 3, false⟩
        ⟨[some [0,100,0,100,0,0,0,100,100], some (List.replicate 9 0), some (List.replicate 9 0), some (List.replicate 9 0)]⟩ with
      | .ok _ h => h.get 1
      | _ => none) = some [1,0,1,0,1,1,1,0,0] ∧
    (match ThresholdOps.localMeanR (K := ℚ) float32 float64 0 (fun a b r s => BlurImageOps.meanInt U8 (intElem U8 (fun _ => 7)) a b r s)
        (fun v => float32 (v : ℚ)) (fun b => if b then 1 else 0) ⟨0, 9, 3, 3, 0, 3, false⟩ ⟨1, 9, 3, 3, 0, 3, false⟩
        (ConfigLength.fixed 2) 1 true ⟨2, 9, 3, 3, 0, 3, false⟩ ⟨3, 9, 3, 3, 0, 3, false⟩
        ⟨[some [0,100,0,0,0,100,100,100,0], some (List.replicate 9 0), some (List.replicate 9 0), some (List.replicate 9 0)]⟩ with
      | .ok _ h => h.get 1
      | _ => none) = some [1,0,1,1,1,0,0,0,1] := by
  decide +kernel

/-! ### Block mean -/

/-- Two pictures with the same pixels in the blocks that count for `(x, y)` have the same result there. -/
theorem C118_mean_local {t : IntTy} (ht : t = U8 ∨ t = U16 ∨ t = S16) {scaled : Int → Nat → K} {useLocal down : Bool}
    {z z' : Int} {config : ConfigLength K} {h k : Heap Int} {s1 s2 : Interleaved} {i1 o1 i2 o2 : Gray} {f g : Nat → Nat → Int}
    (A : BlockArgs h s1 i1 o1 f) (B : BlockArgs k s2 i2 o2 g)
    (hb1 : s1.numBands = 1) (hb2 : s2.numBands = 1) (ew : i2.width = i1.width) (eh : i2.height = i1.height)
    {req : Nat} (h1 : 1 ≤ req) (hw : req ≤ i1.width) (hh : req ≤ i1.height)
    (hreq : ∀ h : Heap Int, config.computeI ((min i1.width i1.height : Nat) : K) h = .ok (req : Int) h)
    (hf0 : ∀ x y, x < i1.width → y < i1.height → 0 ≤ f x y)
    (hsum0 : ∀ i j, i < Grid.count i1.width req → j < Grid.count i1.height req →
      rectSum f (Grid.lo i1.width req i) (Grid.hi i1.width req i) (Grid.lo i1.height req j) (Grid.hi i1.height req j) ≤ t.sumType.hi)
    (hstat0 : ∀ i j, i < Grid.count i1.width req → j < Grid.count i1.height req →
      0 ≤ meanStat scaled i1.width i1.height req f i j ∧ meanStat scaled i1.width i1.height req f i j ≤ t.hi)
    (hf1 : ∀ x y, x < i1.width → y < i1.height → 0 ≤ g x y)
    (hsum1 : ∀ i j, i < Grid.count i1.width req → j < Grid.count i1.height req →
      rectSum g (Grid.lo i1.width req i) (Grid.hi i1.width req i) (Grid.lo i1.height req j) (Grid.hi i1.height req j) ≤ t.sumType.hi)
    (hstat1 : ∀ i j, i < Grid.count i1.width req → j < Grid.count i1.height req →
      0 ≤ meanStat scaled i1.width i1.height req g i j ∧ meanStat scaled i1.width i1.height req g i j ≤ t.hi) :
    ∃ b h' d k', Blocks.process (BlockMean.ops t scaled useLocal down) z config s1 i1 o1 h = .ok b h' ∧
      Blocks.process (BlockMean.ops t scaled useLocal down) z' config s2 i2 o2 k = .ok d k' ∧
      ∀ x y, x < i1.width → y < i1.height →
        (∀ x' y', Grid.Sees useLocal i1.width req x x' → Grid.Sees useLocal i1.height req y y' → f x' y' = g x' y') →
        ∃ v, h'.px o1 x y = some v ∧ k'.px o2 x y = some v := by
  obtain ⟨b, h', e1, t1⟩ := C39_mean_partial (useLocal := useLocal) (down := down) (z := z) ht A hb1 h1 hw hh (hreq h) hf0 hsum0 hstat0
  obtain ⟨d, k', e2, t2⟩ := C39_mean_partial (useLocal := useLocal) (down := down) (z := z') ht B hb2 h1 (by omega) (by omega)
    (by rw [ew, eh]; exact hreq k) (by rw [ew, eh]; exact hf1) (by rw [ew, eh]; exact hsum1) (by rw [ew, eh]; exact hstat1)
  refine ⟨b, h', d, k', e1, e2, fun x y hx hy e => ⟨_, t1.pix x y (by rw [A.width]; exact hx) (by rw [A.height]; exact hy), ?_⟩⟩
  rw [t2.pix x y (by rw [B.width]; omega) (by rw [B.height]; omega), ew, eh]
  obtain ⟨hi, hx1⟩ := Grid.has_blockOf h1 hw hx
  obtain ⟨hj, hy1⟩ := Grid.has_blockOf h1 hh hy
  have own : f x y = g x y := by
    have a := block_inside (u := useLocal) h1 hw hi (Grid.first_le _ _) (Grid.le_last hi)
    have b := block_inside (u := useLocal) h1 hh hj (Grid.first_le _ _) (Grid.le_last hj)
    exact e x y ⟨le_trans a.1 hx1.1, lt_of_lt_of_le hx1.2 a.2⟩ ⟨le_trans b.1 hy1.1, lt_of_lt_of_le hy1.2 b.2⟩
  rw [← own, localMean_near (S' := meanStat scaled i1.width i1.height req f) (fun i' j' q1 q2 q3 q4 => ?_)]
  have a := block_inside h1 hw hi q1 q2
  have b := block_inside h1 hh hj q3 q4
  unfold meanStat
  rw [rectSum_near (fun x' y' c1 c2 c3 c4 => (e x' y' ⟨le_trans a.1 c1, lt_of_lt_of_le c2 a.2⟩ ⟨le_trans b.1 c3, lt_of_lt_of_le c4 b.2⟩).symm)]

/-- The images of the next examples differ at `(3, 0)` only, which does not count for the first block. -/
example : (∀ x, x < 2 → ¬ Grid.Sees false 5 2 x 3) ∧ Grid.Sees false 5 2 4 3 ∧ Grid.Sees true 5 2 0 3 ∧
    (∀ x', x' < 5 → ∀ y', y' < 2 → (x', y') ≠ (3, 0) → ([1,2,9,8,7,3,4,5,6,7] : List Int).getD (y' * 5 + x') 0 =
      ([1,2,9,0,7,3,4,5,6,7] : List Int).getD (y' * 5 + x') 0) := by
  unfold Grid.Sees
  decide +kernel

/-- The first two columns are the same. -/
example :
    (match Blocks.process (BlockMean.ops U8 (fun s a => (s : ℚ) / a) false true) 0 (ConfigLength.fixed (2 : ℚ)) ⟨2, 0, 0, 0, 1, 0, 0, false⟩ ⟨0, 10, 5, 2, 0, 5, false⟩ ⟨1, 10, 5, 2, 0, 5, false⟩
      ⟨[some [1,2,9,8,7,3,4,5,6,7], some [0,0,0,0,0,0,0,0,0,0], some []]⟩ with
      | .ok _ h => h.get 1
      | _ => none) = some [1,1,0,0,1,0,0,1,1,1] ∧
    (match Blocks.process (BlockMean.ops U8 (fun s a => (s : ℚ) / a) false true) 0 (ConfigLength.fixed (2 : ℚ)) ⟨2, 0, 0, 0, 1, 0, 0, false⟩ ⟨0, 10, 5, 2, 0, 5, false⟩ ⟨1, 10, 5, 2, 0, 5, false⟩
      ⟨[some [1,2,9,0,7,3,4,5,6,7], some [0,0,0,0,0,0,0,0,0,0], some []]⟩ with
      | .ok _ h => h.get 1
      | _ => none) = some [1,1,0,1,0,0,0,1,0,0] := by
  decide +kernel

/-- The two directions give complementary pictures. -/
theorem C118_mean_complement {t : IntTy} (ht : t = U8 ∨ t = U16 ∨ t = S16) {scaled : Int → Nat → K} {useLocal : Bool}
    {z z' : Int} {config : ConfigLength K} {h k : Heap Int} {s1 s2 : Interleaved} {i1 o1 i2 o2 : Gray} {f : Nat → Nat → Int}
    (A : BlockArgs h s1 i1 o1 f) (B : BlockArgs k s2 i2 o2 f)
    (hb1 : s1.numBands = 1) (hb2 : s2.numBands = 1) (ew : i2.width = i1.width) (eh : i2.height = i1.height)
    {req : Nat} (h1 : 1 ≤ req) (hw : req ≤ i1.width) (hh : req ≤ i1.height)
    (hreq : ∀ h : Heap Int, config.computeI ((min i1.width i1.height : Nat) : K) h = .ok (req : Int) h)
    (hf0 : ∀ x y, x < i1.width → y < i1.height → 0 ≤ f x y)
    (hsum0 : ∀ i j, i < Grid.count i1.width req → j < Grid.count i1.height req →
      rectSum f (Grid.lo i1.width req i) (Grid.hi i1.width req i) (Grid.lo i1.height req j) (Grid.hi i1.height req j) ≤ t.sumType.hi)
    (hstat0 : ∀ i j, i < Grid.count i1.width req → j < Grid.count i1.height req →
      0 ≤ meanStat scaled i1.width i1.height req f i j ∧ meanStat scaled i1.width i1.height req f i j ≤ t.hi) :
    ∃ b h' d k', Blocks.process (BlockMean.ops t scaled useLocal true) z config s1 i1 o1 h = .ok b h' ∧
      Blocks.process (BlockMean.ops t scaled useLocal false) z' config s2 i2 o2 k = .ok d k' ∧
      Complementary h' o1 k' o2 i1.width i1.height := by
  obtain ⟨b, h', e1, t1⟩ := C39_mean_partial (useLocal := useLocal) (down := true) (z := z) ht A hb1 h1 hw hh (hreq h) hf0 hsum0 hstat0
  obtain ⟨d, k', e2, t2⟩ := C39_mean_partial (useLocal := useLocal) (down := false) (z := z') ht B hb2 h1 (by omega) (by omega)
    (by rw [ew, eh]; exact hreq k) (by rw [ew, eh]; exact hf0) (by rw [ew, eh]; exact hsum0) (by rw [ew, eh]; exact hstat0)
  refine ⟨b, h', d, k', e1, e2, fun x y hx hy => ?_⟩
  have c1 := t1.pix x y (by rw [A.width]; exact hx) (by rw [A.height]; exact hy)
  have c2 := t2.pix x y (by rw [B.width]; omega) (by rw [B.height]; omega)
  rw [ew, eh] at c2
  exact complement_cases c1 c2

/-- Both directions. -/
example :
    (match Blocks.process (BlockMean.ops U8 (fun s a => (s : ℚ) / a) false true) 0 (ConfigLength.fixed (2 : ℚ)) ⟨2, 0, 0, 0, 1, 0, 0, false⟩ ⟨0, 10, 5, 2, 0, 5, false⟩ ⟨1, 10, 5, 2, 0, 5, false⟩
      ⟨[some [1,2,9,8,7,3,4,5,6,7], some [0,0,0,0,0,0,0,0,0,0], some []]⟩ with
      | .ok _ h => h.get 1
      | _ => none) = some [1,1,0,0,1,0,0,1,1,1] ∧
    (match Blocks.process (BlockMean.ops U8 (fun s a => (s : ℚ) / a) false false) 0 (ConfigLength.fixed (2 : ℚ)) ⟨2, 0, 0, 0, 1, 0, 0, false⟩ ⟨0, 10, 5, 2, 0, 5, false⟩ ⟨1, 10, 5, 2, 0, 5, false⟩
      ⟨[some [1,2,9,8,7,3,4,5,6,7], some [0,0,0,0,0,0,0,0,0,0], some []]⟩ with
      | .ok _ h => h.get 1
      | _ => none) = some [0,0,1,1,0,1,1,0,0,0] := by
  decide +kernel

/-- With blocks of one size the result of a mirrored picture is the mirrored result.  Missing: other sizes, for which it is false
(`C118_mirrored_refuted`). -/
theorem C118_mean_mirrored_partial {t : IntTy} (ht : t = U8 ∨ t = U16 ∨ t = S16) {scaled : Int → Nat → K} {useLocal down : Bool} {a b' : Bool}
    {z z' : Int} {config : ConfigLength K} {h k : Heap Int} {s1 s2 : Interleaved} {i1 o1 i2 o2 : Gray} {f : Nat → Nat → Int}
    (A : BlockArgs h s1 i1 o1 f) (B : BlockArgs k s2 i2 o2 (mirrored a b' i1.width i1.height f))
    (hb1 : s1.numBands = 1) (hb2 : s2.numBands = 1) (ew : i2.width = i1.width) (eh : i2.height = i1.height)
    {req : Nat} (h1 : 1 ≤ req) (hw : req ≤ i1.width) (hh : req ≤ i1.height)
    (hreq : ∀ h : Heap Int, config.computeI ((min i1.width i1.height : Nat) : K) h = .ok (req : Int) h)
    (gw : Grid.Even i1.width req) (gh : Grid.Even i1.height req)
    (hf0 : ∀ x y, x < i1.width → y < i1.height → 0 ≤ f x y)
    (hsum0 : ∀ i j, i < Grid.count i1.width req → j < Grid.count i1.height req →
      rectSum f (Grid.lo i1.width req i) (Grid.hi i1.width req i) (Grid.lo i1.height req j) (Grid.hi i1.height req j) ≤ t.sumType.hi)
    (hstat0 : ∀ i j, i < Grid.count i1.width req → j < Grid.count i1.height req →
      0 ≤ meanStat scaled i1.width i1.height req f i j ∧ meanStat scaled i1.width i1.height req f i j ≤ t.hi) :
    ∃ b h' d k', Blocks.process (BlockMean.ops t scaled useLocal down) z config s1 i1 o1 h = .ok b h' ∧
      Blocks.process (BlockMean.ops t scaled useLocal down) z' config s2 i2 o2 k = .ok d k' ∧
      ∀ x y, x < i1.width → y < i1.height →
        ∃ v, h'.px o1 (mirrorIf a i1.width x) (mirrorIf b' i1.height y) = some v ∧ k'.px o2 x y = some v := by
  obtain ⟨b, h', e1, t1⟩ := C39_mean_partial (useLocal := useLocal) (down := down) (z := z) ht A hb1 h1 hw hh (hreq h) hf0 hsum0 hstat0
  have st : ∀ i j, i < Grid.count i1.width req → j < Grid.count i1.height req →
      meanStat scaled i1.width i1.height req (mirrored a b' i1.width i1.height f) i j =
      mirrored a b' (Grid.count i1.width req) (Grid.count i1.height req) (meanStat scaled i1.width i1.height req f) i j := by
    intro i j hi hj
    have := meanStat_mirror (a := a) (b := b') gw gh h1 hw hh (scaled := scaled) (f := f) (mirrorIf_lt (b := a) hi) (mirrorIf_lt (b := b') hj)
    rw [mirrorIf_twice hi, mirrorIf_twice hj] at this
    exact this
  obtain ⟨d, k', e2, t2⟩ := C39_mean_partial (useLocal := useLocal) (down := down) (z := z') (scaled := scaled) ht B hb2 h1 (by omega) (by omega)
    (by rw [ew, eh]; exact hreq k) (by rw [ew, eh]; exact fun x y hx hy => hf0 _ _ (mirrorIf_lt hx) (mirrorIf_lt hy))
    (by
      rw [ew, eh]
      intro i j hi hj
      have := hsum0 _ _ (mirrorIf_lt (b := a) hi) (mirrorIf_lt (b := b') hj)
      have m := rectSum_mirror (a := a) (b := b') (Grid.lo_le h1 hw (mirrorIf_lt (b := a) hi)).2 (Grid.lo_le h1 hh (mirrorIf_lt (b := b') hj)).2 f
        (x0 := Grid.lo i1.width req (mirrorIf a (Grid.count i1.width req) i)) (y0 := Grid.lo i1.height req (mirrorIf b' (Grid.count i1.height req) j))
      rw [← gw.lo_mirror (mirrorIf_lt hi), ← gw.hi_mirror (mirrorIf_lt hi), ← gh.lo_mirror (mirrorIf_lt hj), ← gh.hi_mirror (mirrorIf_lt hj),
        mirrorIf_twice hi, mirrorIf_twice hj] at m
      rw [m]
      exact this)
    (by
      rw [ew, eh]
      intro i j hi hj
      rw [st i j hi hj]
      exact hstat0 _ _ (mirrorIf_lt hi) (mirrorIf_lt hj))
  refine ⟨b, h', d, k', e1, e2, fun x y hx hy => ⟨_, t1.pix _ _ (by rw [A.width]; exact mirrorIf_lt hx) (by rw [A.height]; exact mirrorIf_lt hy), ?_⟩⟩
  rw [t2.pix x y (by rw [B.width]; omega) (by rw [B.height]; omega), ew, eh]
  have hi := (Grid.has_blockOf h1 hw hx).1
  have hj := (Grid.has_blockOf h1 hh hy).1
  rw [gw.blockOf_mirror h1 hw hx, gh.blockOf_mirror h1 hh hy, localMean_congr st hi hj]
  have := localMean_mirror (S := meanStat scaled i1.width i1.height req f) (u := useLocal) (mirrorIf_lt (b := a) hi) (mirrorIf_lt (b := b') hj) (a := a) (b := b')
  rw [mirrorIf_twice hi, mirrorIf_twice hj] at this
  rw [this]
  rfl

/-- Blocks of one size, and not. -/
example : Grid.Even 4 2 ∧ Grid.Even 2 2 ∧ Grid.Even 12 5 ∧ ¬ Grid.Even 5 2 := by
  unfold Grid.Even
  decide +kernel

/-- An image and its mirror image. -/
example :
    (match Blocks.process (BlockMean.ops U8 (fun s a => (s : ℚ) / a) false true) 0 (ConfigLength.fixed (2 : ℚ)) ⟨2, 0, 0, 0, 1, 0, 0, false⟩ ⟨0, 8, 4, 2, 0, 4, false⟩ ⟨1, 8, 4, 2, 0, 4, false⟩
      ⟨[some [1,2,9,8,3,4,5,7], some [0,0,0,0,0,0,0,0], some []]⟩ with
      | .ok _ h => h.get 1
      | _ => none) = some [1,1,0,0,0,0,1,1] ∧
    (match Blocks.process (BlockMean.ops U8 (fun s a => (s : ℚ) / a) false true) 0 (ConfigLength.fixed (2 : ℚ)) ⟨2, 0, 0, 0, 1, 0, 0, false⟩ ⟨0, 8, 4, 2, 0, 4, false⟩ ⟨1, 8, 4, 2, 0, 4, false⟩
      ⟨[some [8,9,2,1,7,5,4,3], some [0,0,0,0,0,0,0,0], some []]⟩ with
      | .ok _ h => h.get 1
      | _ => none) = some [0,0,1,1,1,1,0,0] := by
  decide +kernel

/-- Five columns in blocks of 2 and 3 columns: the mirror image is divided at another place, and the pixel `(2, 1)` of value 5, which is in the same column of both, changes. -/
theorem C118_mirrored_refuted :
    (match Blocks.process (BlockMean.ops U8 (fun s a => (s : ℚ) / a) false true) 0 (ConfigLength.fixed (2 : ℚ)) ⟨2, 0, 0, 0, 1, 0, 0, false⟩ ⟨0, 10, 5, 2, 0, 5, false⟩ ⟨1, 10, 5, 2, 0, 5, false⟩
      ⟨[some [1,2,9,8,7,3,4,5,6,7], some [0,0,0,0,0,0,0,0,0,0], some []]⟩ with
      | .ok _ h => h.get 1
      | _ => none) = some [1,1,0,0,1,0,0,1,1,1] ∧
    (match Blocks.process (BlockMean.ops U8 (fun s a => (s : ℚ) / a) false true) 0 (ConfigLength.fixed (2 : ℚ)) ⟨2, 0, 0, 0, 1, 0, 0, false⟩ ⟨0, 10, 5, 2, 0, 5, false⟩ ⟨1, 10, 5, 2, 0, 5, false⟩
      ⟨[some [7,8,9,2,1,7,6,5,4,3], some [0,0,0,0,0,0,0,0,0,0], some []]⟩ with
      | .ok _ h => h.get 1
      | _ => none) = some [1,0,0,1,1,1,1,0,1,1] := by
  decide +kernel

/-! ### Block min-max -/

/-- Two pictures with the same pixels in the blocks that count for `(x, y)` have the same result there. -/
theorem C118_minmax_local {t : IntTy} (ht : t = U8 ∨ t = U16 ∨ t = S16) {minimumSpread : K} {scaleMul : Int → K} {useLocal down : Bool}
    {z z' : Int} {config : ConfigLength K} {h k : Heap Int} {s1 s2 : Interleaved} {i1 o1 i2 o2 : Gray} {f g : Nat → Nat → Int}
    (A : BlockArgs h s1 i1 o1 f) (B : BlockArgs k s2 i2 o2 g)
    (hb1 : s1.numBands = 2) (hb2 : s2.numBands = 2) (ew : i2.width = i1.width) (eh : i2.height = i1.height)
    {req : Nat} (h1 : 1 ≤ req) (hw : req ≤ i1.width) (hh : req ≤ i1.height)
    (hreq : ∀ h : Heap Int, config.computeI ((min i1.width i1.height : Nat) : K) h = .ok (req : Int) h)
    (hf0 : ∀ x y, x < i1.width → y < i1.height → t.InRange (f x y))
    (hf1 : ∀ x y, x < i1.width → y < i1.height → t.InRange (g x y))
    (hsize : Grid.count i1.width req * Grid.count i1.height req * 2 < 4294967296)
    (hspread : t.sumType.InRange (truncK minimumSpread))
    (hscale : ∀ m, t.InRange m → t.sumType.InRange (truncK (scaleMul m))) :
    ∃ b h' d k', Blocks.process (BlockMinMax.ops t minimumSpread scaleMul useLocal down) z config s1 i1 o1 h = .ok b h' ∧
      Blocks.process (BlockMinMax.ops t minimumSpread scaleMul useLocal down) z' config s2 i2 o2 k = .ok d k' ∧
      ∀ x y, x < i1.width → y < i1.height →
        (∀ x' y', Grid.Sees useLocal i1.width req x x' → Grid.Sees useLocal i1.height req y y' → f x' y' = g x' y') →
        ∃ v, h'.px o1 x y = some v ∧ k'.px o2 x y = some v := by
  obtain ⟨b, h', S, mn, mx, e1, p1, t1⟩ := C40_minmax_partial (useLocal := useLocal) (down := down) (z := z) ht A hb1 h1 hw hh (hreq h) hf0 hsize hspread hscale
  obtain ⟨d, k', S', mn', mx', e2, p2, t2⟩ := C40_minmax_partial (useLocal := useLocal) (down := down) (z := z') ht B hb2 h1 (by omega) (by omega)
    (by rw [ew, eh]; exact hreq k) (by rw [ew, eh]; exact hf1) (by rw [ew, eh]; exact hsize) hspread hscale
  refine ⟨b, h', d, k', e1, e2, fun x y hx hy e => ⟨_, t1.pix x y (by rw [A.width]; exact hx) (by rw [A.height]; exact hy), ?_⟩⟩
  rw [t2.pix x y (by rw [B.width]; omega) (by rw [B.height]; omega)]
  rw [ew, eh] at p2 ⊢
  obtain ⟨hi, hx1⟩ := Grid.has_blockOf h1 hw hx
  obtain ⟨hj, hy1⟩ := Grid.has_blockOf h1 hh hy
  have own : f x y = g x y := by
    have a := block_inside (u := useLocal) h1 hw hi (Grid.first_le _ _) (Grid.le_last hi)
    have b := block_inside (u := useLocal) h1 hh hj (Grid.first_le _ _) (Grid.le_last hj)
    exact e x y ⟨le_trans a.1 hx1.1, lt_of_lt_of_le hx1.2 a.2⟩ ⟨le_trans b.1 hy1.1, lt_of_lt_of_le hy1.2 b.2⟩
  obtain ⟨m1, m2⟩ := p1 _ _ hi hj
  obtain ⟨m1', m2'⟩ := p2 _ _ hi hj
  have q1 := m1.near (fun x y c1 c2 c3 c4 => e x y ⟨c1, c2⟩ ⟨c3, c4⟩) m1'
  have q2 := m2.near (fun x y c1 c2 c3 c4 => e x y ⟨c1, c2⟩ ⟨c3, c4⟩) m2'
  simp only [q1, q2, own]

/-- The first two columns are the same. -/
example :
    (match Blocks.process (BlockMinMax.ops U8 (3 : ℚ) (fun s => (s : ℚ)) false true) 0 (ConfigLength.fixed (2 : ℚ)) ⟨2, 0, 0, 0, 2, 0, 0, false⟩ ⟨0, 10, 5, 2, 0, 5, false⟩ ⟨1, 10, 5, 2, 0, 5, false⟩
      ⟨[some [1,2,9,8,7,3,4,5,6,7], some [0,0,0,0,0,0,0,0,0,0], some []]⟩ with
      | .ok _ h => h.get 1
      | _ => none) = some [1,1,0,0,1,1,1,1,1,1] ∧
    (match Blocks.process (BlockMinMax.ops U8 (3 : ℚ) (fun s => (s : ℚ)) false true) 0 (ConfigLength.fixed (2 : ℚ)) ⟨2, 0, 0, 0, 2, 0, 0, false⟩ ⟨0, 10, 5, 2, 0, 5, false⟩ ⟨1, 10, 5, 2, 0, 5, false⟩
      ⟨[some [1,2,9,0,7,3,4,5,6,7], some [0,0,0,0,0,0,0,0,0,0], some []]⟩ with
      | .ok _ h => h.get 1
      | _ => none) = some [1,1,0,1,0,1,1,0,0,0] := by
  decide +kernel

/-- Where the local contrast is above the limit the two directions give complementary pixels.  Missing: other pixels, which are 1 in both directions
(`C118_minmax_flat`). -/
theorem C118_minmax_complement_partial {t : IntTy} (ht : t = U8 ∨ t = U16 ∨ t = S16) {minimumSpread : K} {scaleMul : Int → K} {useLocal : Bool}
    {z z' : Int} {config : ConfigLength K} {h k : Heap Int} {s1 s2 : Interleaved} {i1 o1 i2 o2 : Gray} {f : Nat → Nat → Int}
    (A : BlockArgs h s1 i1 o1 f) (B : BlockArgs k s2 i2 o2 f)
    (hb1 : s1.numBands = 2) (hb2 : s2.numBands = 2) (ew : i2.width = i1.width) (eh : i2.height = i1.height)
    {req : Nat} (h1 : 1 ≤ req) (hw : req ≤ i1.width) (hh : req ≤ i1.height)
    (hreq : ∀ h : Heap Int, config.computeI ((min i1.width i1.height : Nat) : K) h = .ok (req : Int) h)
    (hf0 : ∀ x y, x < i1.width → y < i1.height → t.InRange (f x y))
    (hsize : Grid.count i1.width req * Grid.count i1.height req * 2 < 4294967296)
    (hspread : t.sumType.InRange (truncK minimumSpread))
    (hscale : ∀ m, t.InRange m → t.sumType.InRange (truncK (scaleMul m))) :
    ∃ b h' d k', Blocks.process (BlockMinMax.ops t minimumSpread scaleMul useLocal true) z config s1 i1 o1 h = .ok b h' ∧
      Blocks.process (BlockMinMax.ops t minimumSpread scaleMul useLocal false) z' config s2 i2 o2 k = .ok d k' ∧
      ∀ x y, x < i1.width → y < i1.height →
        (∃ xa ya xb yb, Grid.Sees useLocal i1.width req x xa ∧ Grid.Sees useLocal i1.height req y ya ∧ Grid.Sees useLocal i1.width req x xb ∧
          Grid.Sees useLocal i1.height req y yb ∧ truncK minimumSpread < f xb yb - f xa ya) →
        (h'.px o1 x y = some 0 ∧ k'.px o2 x y = some 1) ∨ (h'.px o1 x y = some 1 ∧ k'.px o2 x y = some 0) := by
  obtain ⟨b, h', S, mn, mx, e1, p1, t1⟩ := C40_minmax_partial (useLocal := useLocal) (down := true) (z := z) ht A hb1 h1 hw hh (hreq h) hf0 hsize hspread hscale
  obtain ⟨d, k', S', mn', mx', e2, p2, t2⟩ := C40_minmax_partial (useLocal := useLocal) (down := false) (z := z') ht B hb2 h1 (by omega) (by omega)
    (by rw [ew, eh]; exact hreq k) (by rw [ew, eh]; exact hf0) (by rw [ew, eh]; exact hsize) hspread hscale
  refine ⟨b, h', d, k', e1, e2, fun x y hx hy e => ?_⟩
  have c1 := t1.pix x y (by rw [A.width]; exact hx) (by rw [A.height]; exact hy)
  have c2 := t2.pix x y (by rw [B.width]; omega) (by rw [B.height]; omega)
  rw [ew, eh] at p2 c2
  obtain ⟨hi, -⟩ := Grid.has_blockOf h1 hw hx
  obtain ⟨hj, -⟩ := Grid.has_blockOf h1 hh hy
  obtain ⟨m1, m2⟩ := p1 _ _ hi hj
  obtain ⟨m1', m2'⟩ := p2 _ _ hi hj
  have q1 := m1.near (fun _ _ _ _ _ _ => rfl) m1'
  have q2 := m2.near (fun _ _ _ _ _ _ => rfl) m2'
  obtain ⟨xa, ya, xb, yb, s1, s2, s3, s4, lt⟩ := e
  have l1 := m1.1 xa ya s1.1 s1.2 s2.1 s2.2
  have l2 := m2.1 xb yb s3.1 s3.2 s4.1 s4.2
  simp only [q1, q2] at c1 c2
  rw [if_neg (by omega)] at c1 c2
  exact complement_cases c1 c2

/-- Where the local contrast is not above the limit the result is 1, in both directions. -/
theorem C118_minmax_flat {t : IntTy} (ht : t = U8 ∨ t = U16 ∨ t = S16) {minimumSpread : K} {scaleMul : Int → K} {useLocal down : Bool}
    {z : Int} {config : ConfigLength K} {h : Heap Int} {s1 : Interleaved} {i1 o1 : Gray} {f : Nat → Nat → Int}
    (A : BlockArgs h s1 i1 o1 f) (hb1 : s1.numBands = 2) {req : Nat} (h1 : 1 ≤ req) (hw : req ≤ i1.width) (hh : req ≤ i1.height)
    (hreq : ∀ h : Heap Int, config.computeI ((min i1.width i1.height : Nat) : K) h = .ok (req : Int) h)
    (hf0 : ∀ x y, x < i1.width → y < i1.height → t.InRange (f x y))
    (hsize : Grid.count i1.width req * Grid.count i1.height req * 2 < 4294967296)
    (hspread : t.sumType.InRange (truncK minimumSpread))
    (hscale : ∀ m, t.InRange m → t.sumType.InRange (truncK (scaleMul m))) :
    ∃ b h', Blocks.process (BlockMinMax.ops t minimumSpread scaleMul useLocal down) z config s1 i1 o1 h = .ok b h' ∧
      ∀ x y, x < i1.width → y < i1.height →
        (∀ xa ya xb yb, Grid.Sees useLocal i1.width req x xa → Grid.Sees useLocal i1.height req y ya → Grid.Sees useLocal i1.width req x xb →
          Grid.Sees useLocal i1.height req y yb → f xb yb - f xa ya ≤ truncK minimumSpread) →
        h'.px o1 x y = some 1 := by
  obtain ⟨b, h', S, mn, mx, e1, p1, t1⟩ := C40_minmax_partial (useLocal := useLocal) (down := down) (z := z) ht A hb1 h1 hw hh (hreq h) hf0 hsize hspread hscale
  refine ⟨b, h', e1, fun x y hx hy e => ?_⟩
  rw [t1.pix x y (by rw [A.width]; exact hx) (by rw [A.height]; exact hy)]
  obtain ⟨m1, m2⟩ := p1 _ _ (Grid.has_blockOf h1 hw hx).1 (Grid.has_blockOf h1 hh hy).1
  obtain ⟨-, xa, ya, a1, a2, a3, a4, ea⟩ := m1
  obtain ⟨-, xb, yb, b1, b2, b3, b4, eb⟩ := m2
  have := e xa ya xb yb ⟨a1, a2⟩ ⟨a3, a4⟩ ⟨b1, b2⟩ ⟨b3, b4⟩
  rw [ea, eb] at this
  exact congrArg some (if_pos this)

/-- The contrast is 3 in the first two columns, which are 1 in both directions, and 4 in the others. -/
theorem C118_minmax_complement_refuted :
    (match Blocks.process (BlockMinMax.ops U8 (3 : ℚ) (fun s => (s : ℚ)) false true) 0 (ConfigLength.fixed (2 : ℚ)) ⟨2, 0, 0, 0, 2, 0, 0, false⟩ ⟨0, 10, 5, 2, 0, 5, false⟩ ⟨1, 10, 5, 2, 0, 5, false⟩
      ⟨[some [1,2,9,8,7,3,4,5,6,7], some [0,0,0,0,0,0,0,0,0,0], some []]⟩ with
      | .ok _ h => h.get 1
      | _ => none) = some [1,1,0,0,1,1,1,1,1,1] ∧
    (match Blocks.process (BlockMinMax.ops U8 (3 : ℚ) (fun s => (s : ℚ)) false false) 0 (ConfigLength.fixed (2 : ℚ)) ⟨2, 0, 0, 0, 2, 0, 0, false⟩ ⟨0, 10, 5, 2, 0, 5, false⟩ ⟨1, 10, 5, 2, 0, 5, false⟩
      ⟨[some [1,2,9,8,7,3,4,5,6,7], some [0,0,0,0,0,0,0,0,0,0], some []]⟩ with
      | .ok _ h => h.get 1
      | _ => none) = some [1,1,1,1,0,1,1,0,0,0] := by
  decide +kernel

/-- With blocks of one size the result of a mirrored picture is the mirrored result. -/
theorem C118_minmax_mirrored_partial {t : IntTy} (ht : t = U8 ∨ t = U16 ∨ t = S16) {minimumSpread : K} {scaleMul : Int → K} {useLocal down : Bool} {a b' : Bool}
    {z z' : Int} {config : ConfigLength K} {h k : Heap Int} {s1 s2 : Interleaved} {i1 o1 i2 o2 : Gray} {f : Nat → Nat → Int}
    (A : BlockArgs h s1 i1 o1 f) (B : BlockArgs k s2 i2 o2 (mirrored a b' i1.width i1.height f))
    (hb1 : s1.numBands = 2) (hb2 : s2.numBands = 2) (ew : i2.width = i1.width) (eh : i2.height = i1.height)
    {req : Nat} (h1 : 1 ≤ req) (hw : req ≤ i1.width) (hh : req ≤ i1.height)
    (hreq : ∀ h : Heap Int, config.computeI ((min i1.width i1.height : Nat) : K) h = .ok (req : Int) h)
    (gw : Grid.Even i1.width req) (gh : Grid.Even i1.height req)
    (hf0 : ∀ x y, x < i1.width → y < i1.height → t.InRange (f x y))
    (hsize : Grid.count i1.width req * Grid.count i1.height req * 2 < 4294967296)
    (hspread : t.sumType.InRange (truncK minimumSpread))
    (hscale : ∀ m, t.InRange m → t.sumType.InRange (truncK (scaleMul m))) :
    ∃ b h' d k', Blocks.process (BlockMinMax.ops t minimumSpread scaleMul useLocal down) z config s1 i1 o1 h = .ok b h' ∧
      Blocks.process (BlockMinMax.ops t minimumSpread scaleMul useLocal down) z' config s2 i2 o2 k = .ok d k' ∧
      ∀ x y, x < i1.width → y < i1.height →
        ∃ v, h'.px o1 (mirrorIf a i1.width x) (mirrorIf b' i1.height y) = some v ∧ k'.px o2 x y = some v := by
  obtain ⟨b, h', S, mn, mx, e1, p1, t1⟩ := C40_minmax_partial (useLocal := useLocal) (down := down) (z := z) ht A hb1 h1 hw hh (hreq h) hf0 hsize hspread hscale
  obtain ⟨d, k', S', mn', mx', e2, p2, t2⟩ := C40_minmax_partial (useLocal := useLocal) (down := down) (z := z') ht B hb2 h1 (by omega) (by omega)
    (by rw [ew, eh]; exact hreq k) (by rw [ew, eh]; exact fun x y hx hy => hf0 _ _ (mirrorIf_lt hx) (mirrorIf_lt hy)) (by rw [ew, eh]; exact hsize) hspread hscale
  refine ⟨b, h', d, k', e1, e2, fun x y hx hy => ⟨_, t1.pix _ _ (by rw [A.width]; exact mirrorIf_lt hx) (by rw [A.height]; exact mirrorIf_lt hy), ?_⟩⟩
  rw [t2.pix x y (by rw [B.width]; omega) (by rw [B.height]; omega)]
  rw [ew, eh] at p2 ⊢
  have hi := (Grid.has_blockOf h1 hw hx).1
  have hj := (Grid.has_blockOf h1 hh hy).1
  rw [gw.blockOf_mirror h1 hw hx, gh.blockOf_mirror h1 hh hy]
  generalize Grid.blockOf i1.width req x = i at *
  generalize Grid.blockOf i1.height req y = j at *
  have lx : localHi useLocal i1.width req (mirrorIf a (Grid.count i1.width req) i) ≤ i1.width := (Grid.lo_le h1 hw (Grid.last_lt (u := useLocal) (mirrorIf_lt (b := a) hi))).2
  have ly : localHi useLocal i1.height req (mirrorIf b' (Grid.count i1.height req) j) ≤ i1.height := (Grid.lo_le h1 hh (Grid.last_lt (u := useLocal) (mirrorIf_lt (b := b') hj))).2
  obtain ⟨m1, m2⟩ := p1 _ _ (mirrorIf_lt (b := a) hi) (mirrorIf_lt (b := b') hj)
  obtain ⟨m1', m2'⟩ := p2 _ _ hi hj
  have n1 := m1.mirror (a := a) (b := b') lx ly
  have n2 := m2.mirror (a := a) (b := b') lx ly
  rw [← gw.localLo_mirror (mirrorIf_lt hi), ← gw.localHi_mirror (mirrorIf_lt hi), ← gh.localLo_mirror (mirrorIf_lt hj), ← gh.localHi_mirror (mirrorIf_lt hj),
    mirrorIf_twice hi, mirrorIf_twice hj] at n1 n2
  have q1 := n1.near (fun _ _ _ _ _ _ => rfl) m1'
  have q2 := n2.near (fun _ _ _ _ _ _ => rfl) m2'
  simp only [q1, q2]
  rfl

/-- An image and its mirror image. -/
example :
    (match Blocks.process (BlockMinMax.ops U8 (2 : ℚ) (fun s => (s : ℚ)) false true) 0 (ConfigLength.fixed (2 : ℚ)) ⟨2, 0, 0, 0, 2, 0, 0, false⟩ ⟨0, 8, 4, 2, 0, 4, false⟩ ⟨1, 8, 4, 2, 0, 4, false⟩
      ⟨[some [1,2,9,8,3,4,5,7], some [0,0,0,0,0,0,0,0], some []]⟩ with
      | .ok _ h => h.get 1
      | _ => none) = some [1,1,0,0,0,0,1,1] ∧
    (match Blocks.process (BlockMinMax.ops U8 (2 : ℚ) (fun s => (s : ℚ)) false true) 0 (ConfigLength.fixed (2 : ℚ)) ⟨2, 0, 0, 0, 2, 0, 0, false⟩ ⟨0, 8, 4, 2, 0, 4, false⟩ ⟨1, 8, 4, 2, 0, 4, false⟩
      ⟨[some [8,9,2,1,7,5,4,3], some [0,0,0,0,0,0,0,0], some []]⟩ with
      | .ok _ h => h.get 1
      | _ => none) = some [0,0,1,1,1,1,0,0] := by
  decide +kernel

/-! ### Block Otsu -/

/-- Two pictures with the same pixels in the blocks that count for `(x, y)` have the same result there. -/
theorem C118_otsu_local {useLocal down : Bool}
    {z z' : Int} {config : ConfigLength K} {h k : Heap Int} {s1 s2 : Interleaved} {i1 o1 i2 o2 : Gray} {f g : Nat → Nat → Int}
    (A : BlockArgs h s1 i1 o1 f) (B : BlockArgs k s2 i2 o2 g)
    (hb1 : s1.numBands = 256) (hb2 : s2.numBands = 256) (ew : i2.width = i1.width) (eh : i2.height = i1.height)
    {req : Nat} (h1 : 1 ≤ req) (hw : req ≤ i1.width) (hh : req ≤ i1.height)
    (hreq : ∀ h : Heap Int, config.computeI ((min i1.width i1.height : Nat) : K) h = .ok (req : Int) h)
    (hf0 : ∀ x y, x < i1.width → y < i1.height → 0 ≤ f x y ∧ f x y ≤ 255)
    (hf1 : ∀ x y, x < i1.width → y < i1.height → 0 ≤ g x y ∧ g x y ≤ 255)
    (harea : i1.width * i1.height < 2147483648)
    (hsize : Grid.count i1.width req * Grid.count i1.height req * 256 < 4294967296) :
    ∃ b h' d k', Blocks.process (BlockOtsu.ops (ComputeOtsu.mk false (0 : K) down 1) useLocal) z config s1 i1 o1 h = .ok b h' ∧
      Blocks.process (BlockOtsu.ops (ComputeOtsu.mk false (0 : K) down 1) useLocal) z' config s2 i2 o2 k = .ok d k' ∧
      ∀ x y, x < i1.width → y < i1.height →
        (∀ x' y', Grid.Sees useLocal i1.width req x x' → Grid.Sees useLocal i1.height req y y' → f x' y' = g x' y') →
        ∃ v, h'.px o1 x y = some v ∧ k'.px o2 x y = some v := by
  obtain ⟨b, h', S, th, e1, p1, t1⟩ := C41_standard (K := K) (useLocal := useLocal) (down := down) (z := z) A hb1 h1 hw hh (hreq h) hf0 harea hsize
  obtain ⟨d, k', S', th', e2, p2, t2⟩ := C41_standard (K := K) (useLocal := useLocal) (down := down) (z := z') B hb2 h1 (by omega) (by omega)
    (by rw [ew, eh]; exact hreq k) (by rw [ew, eh]; exact hf1) (by rw [ew, eh]; exact harea) (by rw [ew, eh]; exact hsize)
  refine ⟨b, h', d, k', e1, e2, fun x y hx hy e => ⟨_, t1.pix x y (by rw [A.width]; exact hx) (by rw [A.height]; exact hy), ?_⟩⟩
  rw [t2.pix x y (by rw [B.width]; omega) (by rw [B.height]; omega)]
  rw [ew, eh] at p2 ⊢
  obtain ⟨hi, hx1⟩ := Grid.has_blockOf h1 hw hx
  obtain ⟨hj, hy1⟩ := Grid.has_blockOf h1 hh hy
  have own : f x y = g x y := by
    have a := block_inside (u := useLocal) h1 hw hi (Grid.first_le _ _) (Grid.le_last hi)
    have b := block_inside (u := useLocal) h1 hh hj (Grid.first_le _ _) (Grid.le_last hj)
    exact e x y ⟨le_trans a.1 hx1.1, lt_of_lt_of_le hx1.2 a.2⟩ ⟨le_trans b.1 hy1.1, lt_of_lt_of_le hy1.2 b.2⟩
  have q := p1 _ _ hi hj
  have q' := p2 _ _ hi hj
  have eq : (fun k : Nat => rectCount f k (localLo useLocal i1.width req (Grid.blockOf i1.width req x)) (localHi useLocal i1.width req (Grid.blockOf i1.width req x))
      (localLo useLocal i1.height req (Grid.blockOf i1.height req y)) (localHi useLocal i1.height req (Grid.blockOf i1.height req y))) =
    (fun k : Nat => rectCount g k (localLo useLocal i1.width req (Grid.blockOf i1.width req x)) (localHi useLocal i1.width req (Grid.blockOf i1.width req x))
      (localLo useLocal i1.height req (Grid.blockOf i1.height req y)) (localHi useLocal i1.height req (Grid.blockOf i1.height req y))) := by
    funext k
    unfold rectCount
    exact rectSum_near (fun x' y' c1 c2 c3 c4 => by rw [e x' y' ⟨c1, c2⟩ ⟨c3, c4⟩])
  rw [eq] at q
  rw [IsOtsu_unique q' q, own]

/-- The first two columns are the same. -/
example :
    (match Blocks.process (BlockOtsu.ops (ComputeOtsu.mk false (0 : ℚ) true 1) false) 0 (ConfigLength.fixed (2 : ℚ)) ⟨2, 0, 0, 0, 256, 0, 0, false⟩ ⟨0, 10, 5, 2, 0, 5, false⟩ ⟨1, 10, 5, 2, 0, 5, false⟩
      ⟨[some [1,2,9,8,7,3,4,5,6,7], some [0,0,0,0,0,0,0,0,0,0], some []]⟩ with
      | .ok _ h => h.get 1
      | _ => none) = some [1,1,0,0,0,0,0,1,1,0] ∧
    (match Blocks.process (BlockOtsu.ops (ComputeOtsu.mk false (0 : ℚ) true 1) false) 0 (ConfigLength.fixed (2 : ℚ)) ⟨2, 0, 0, 0, 256, 0, 0, false⟩ ⟨0, 10, 5, 2, 0, 5, false⟩ ⟨1, 10, 5, 2, 0, 5, false⟩
      ⟨[some [1,2,9,0,7,3,4,5,6,7], some [0,0,0,0,0,0,0,0,0,0], some []]⟩ with
      | .ok _ h => h.get 1
      | _ => none) = some [1,1,0,1,0,0,0,0,0,0] := by
  decide +kernel

/-- The two directions give complementary pictures. -/
theorem C118_otsu_complement {useLocal : Bool}
    {z z' : Int} {config : ConfigLength K} {h k : Heap Int} {s1 s2 : Interleaved} {i1 o1 i2 o2 : Gray} {f : Nat → Nat → Int}
    (A : BlockArgs h s1 i1 o1 f) (B : BlockArgs k s2 i2 o2 f)
    (hb1 : s1.numBands = 256) (hb2 : s2.numBands = 256) (ew : i2.width = i1.width) (eh : i2.height = i1.height)
    {req : Nat} (h1 : 1 ≤ req) (hw : req ≤ i1.width) (hh : req ≤ i1.height)
    (hreq : ∀ h : Heap Int, config.computeI ((min i1.width i1.height : Nat) : K) h = .ok (req : Int) h)
    (hf0 : ∀ x y, x < i1.width → y < i1.height → 0 ≤ f x y ∧ f x y ≤ 255)
    (harea : i1.width * i1.height < 2147483648)
    (hsize : Grid.count i1.width req * Grid.count i1.height req * 256 < 4294967296) :
    ∃ b h' d k', Blocks.process (BlockOtsu.ops (ComputeOtsu.mk false (0 : K) true 1) useLocal) z config s1 i1 o1 h = .ok b h' ∧
      Blocks.process (BlockOtsu.ops (ComputeOtsu.mk false (0 : K) false 1) useLocal) z' config s2 i2 o2 k = .ok d k' ∧
      Complementary h' o1 k' o2 i1.width i1.height := by
  obtain ⟨b, h', S, th, e1, p1, t1⟩ := C41_standard (K := K) (useLocal := useLocal) (down := true) (z := z) A hb1 h1 hw hh (hreq h) hf0 harea hsize
  obtain ⟨d, k', S', th', e2, p2, t2⟩ := C41_standard (K := K) (useLocal := useLocal) (down := false) (z := z') B hb2 h1 (by omega) (by omega)
    (by rw [ew, eh]; exact hreq k) (by rw [ew, eh]; exact hf0) (by rw [ew, eh]; exact harea) (by rw [ew, eh]; exact hsize)
  refine ⟨b, h', d, k', e1, e2, fun x y hx hy => ?_⟩
  have c1 := t1.pix x y (by rw [A.width]; exact hx) (by rw [A.height]; exact hy)
  have c2 := t2.pix x y (by rw [B.width]; omega) (by rw [B.height]; omega)
  rw [ew, eh] at c2 p2
  have hi := (Grid.has_blockOf h1 hw hx).1
  have hj := (Grid.has_blockOf h1 hh hy).1
  rw [IsOtsu_unique (p2 _ _ hi hj) (p1 _ _ hi hj)] at c2
  exact complement_cases c1 c2

/-- Both directions. -/
example :
    (match Blocks.process (BlockOtsu.ops (ComputeOtsu.mk false (0 : ℚ) true 1) false) 0 (ConfigLength.fixed (2 : ℚ)) ⟨2, 0, 0, 0, 256, 0, 0, false⟩ ⟨0, 10, 5, 2, 0, 5, false⟩ ⟨1, 10, 5, 2, 0, 5, false⟩
      ⟨[some [1,2,9,8,7,3,4,5,6,7], some [0,0,0,0,0,0,0,0,0,0], some []]⟩ with
      | .ok _ h => h.get 1
      | _ => none) = some [1,1,0,0,0,0,0,1,1,0] ∧
    (match Blocks.process (BlockOtsu.ops (ComputeOtsu.mk false (0 : ℚ) false 1) false) 0 (ConfigLength.fixed (2 : ℚ)) ⟨2, 0, 0, 0, 256, 0, 0, false⟩ ⟨0, 10, 5, 2, 0, 5, false⟩ ⟨1, 10, 5, 2, 0, 5, false⟩
      ⟨[some [1,2,9,8,7,3,4,5,6,7], some [0,0,0,0,0,0,0,0,0,0], some []]⟩ with
      | .ok _ h => h.get 1
      | _ => none) = some [0,0,1,1,1,1,1,0,0,1] := by
  decide +kernel

/-- With blocks of one size the result of a mirrored picture is the mirrored result. -/
theorem C118_otsu_mirrored_partial {useLocal down : Bool} {a b' : Bool}
    {z z' : Int} {config : ConfigLength K} {h k : Heap Int} {s1 s2 : Interleaved} {i1 o1 i2 o2 : Gray} {f : Nat → Nat → Int}
    (A : BlockArgs h s1 i1 o1 f) (B : BlockArgs k s2 i2 o2 (mirrored a b' i1.width i1.height f))
    (hb1 : s1.numBands = 256) (hb2 : s2.numBands = 256) (ew : i2.width = i1.width) (eh : i2.height = i1.height)
    {req : Nat} (h1 : 1 ≤ req) (hw : req ≤ i1.width) (hh : req ≤ i1.height)
    (hreq : ∀ h : Heap Int, config.computeI ((min i1.width i1.height : Nat) : K) h = .ok (req : Int) h)
    (gw : Grid.Even i1.width req) (gh : Grid.Even i1.height req)
    (hf0 : ∀ x y, x < i1.width → y < i1.height → 0 ≤ f x y ∧ f x y ≤ 255)
    (harea : i1.width * i1.height < 2147483648)
    (hsize : Grid.count i1.width req * Grid.count i1.height req * 256 < 4294967296) :
    ∃ b h' d k', Blocks.process (BlockOtsu.ops (ComputeOtsu.mk false (0 : K) down 1) useLocal) z config s1 i1 o1 h = .ok b h' ∧
      Blocks.process (BlockOtsu.ops (ComputeOtsu.mk false (0 : K) down 1) useLocal) z' config s2 i2 o2 k = .ok d k' ∧
      ∀ x y, x < i1.width → y < i1.height →
        ∃ v, h'.px o1 (mirrorIf a i1.width x) (mirrorIf b' i1.height y) = some v ∧ k'.px o2 x y = some v := by
  obtain ⟨b, h', S, th, e1, p1, t1⟩ := C41_standard (K := K) (useLocal := useLocal) (down := down) (z := z) A hb1 h1 hw hh (hreq h) hf0 harea hsize
  obtain ⟨d, k', S', th', e2, p2, t2⟩ := C41_standard (K := K) (useLocal := useLocal) (down := down) (z := z') B hb2 h1 (by omega) (by omega)
    (by rw [ew, eh]; exact hreq k) (by rw [ew, eh]; exact fun x y hx hy => hf0 _ _ (mirrorIf_lt hx) (mirrorIf_lt hy)) (by rw [ew, eh]; exact harea) (by rw [ew, eh]; exact hsize)
  refine ⟨b, h', d, k', e1, e2, fun x y hx hy => ⟨_, t1.pix _ _ (by rw [A.width]; exact mirrorIf_lt hx) (by rw [A.height]; exact mirrorIf_lt hy), ?_⟩⟩
  rw [t2.pix x y (by rw [B.width]; omega) (by rw [B.height]; omega)]
  rw [ew, eh] at p2 ⊢
  have hi := (Grid.has_blockOf h1 hw hx).1
  have hj := (Grid.has_blockOf h1 hh hy).1
  rw [gw.blockOf_mirror h1 hw hx, gh.blockOf_mirror h1 hh hy]
  generalize Grid.blockOf i1.width req x = i at *
  generalize Grid.blockOf i1.height req y = j at *
  have lx : localHi useLocal i1.width req (mirrorIf a (Grid.count i1.width req) i) ≤ i1.width := (Grid.lo_le h1 hw (Grid.last_lt (u := useLocal) (mirrorIf_lt (b := a) hi))).2
  have ly : localHi useLocal i1.height req (mirrorIf b' (Grid.count i1.height req) j) ≤ i1.height := (Grid.lo_le h1 hh (Grid.last_lt (u := useLocal) (mirrorIf_lt (b := b') hj))).2
  have q := p1 _ _ (mirrorIf_lt (b := a) hi) (mirrorIf_lt (b := b') hj)
  have q' := p2 _ _ hi hj
  have eq : ∀ v : Int, rectCount (mirrored a b' i1.width i1.height f) v (localLo useLocal i1.width req i) (localHi useLocal i1.width req i)
      (localLo useLocal i1.height req j) (localHi useLocal i1.height req j) =
      rectCount f v (localLo useLocal i1.width req (mirrorIf a (Grid.count i1.width req) i)) (localHi useLocal i1.width req (mirrorIf a (Grid.count i1.width req) i))
        (localLo useLocal i1.height req (mirrorIf b' (Grid.count i1.height req) j)) (localHi useLocal i1.height req (mirrorIf b' (Grid.count i1.height req) j)) := fun v => by
    have := rectCount_mirror (a := a) (b := b') lx ly f v (x0 := localLo useLocal i1.width req (mirrorIf a (Grid.count i1.width req) i))
      (y0 := localLo useLocal i1.height req (mirrorIf b' (Grid.count i1.height req) j))
    have e1 := gw.localLo_mirror (u := useLocal) (a := a) (mirrorIf_lt (b := a) hi)
    have e2 := gw.localHi_mirror (u := useLocal) (a := a) (mirrorIf_lt (b := a) hi)
    have e3 := gh.localLo_mirror (u := useLocal) (a := b') (mirrorIf_lt (b := b') hj)
    have e4 := gh.localHi_mirror (u := useLocal) (a := b') (mirrorIf_lt (b := b') hj)
    rw [mirrorIf_twice hi] at e1 e2
    rw [mirrorIf_twice hj] at e3 e4
    rw [e1, e2, e3, e4]
    exact this
  simp only [eq] at q'
  rw [IsOtsu_unique q' q]
  rfl

/-- An image and its mirror image. -/
example :
    (match Blocks.process (BlockOtsu.ops (ComputeOtsu.mk false (0 : ℚ) true 1) false) 0 (ConfigLength.fixed (2 : ℚ)) ⟨2, 0, 0, 0, 256, 0, 0, false⟩ ⟨0, 8, 4, 2, 0, 4, false⟩ ⟨1, 8, 4, 2, 0, 4, false⟩
      ⟨[some [1,2,9,8,3,4,5,7], some [0,0,0,0,0,0,0,0], some []]⟩ with
      | .ok _ h => h.get 1
      | _ => none) = some [1,1,0,0,0,0,1,0] ∧
    (match Blocks.process (BlockOtsu.ops (ComputeOtsu.mk false (0 : ℚ) true 1) false) 0 (ConfigLength.fixed (2 : ℚ)) ⟨2, 0, 0, 0, 256, 0, 0, false⟩ ⟨0, 8, 4, 2, 0, 4, false⟩ ⟨1, 8, 4, 2, 0, 4, false⟩
      ⟨[some [8,9,2,1,7,5,4,3], some [0,0,0,0,0,0,0,0], some []]⟩ with
      | .ok _ h => h.get 1
      | _ => none) = some [0,0,1,1,0,1,0,0] := by
  decide +kernel

end Boof
