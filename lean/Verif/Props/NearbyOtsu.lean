import Verif.Props.Nearby
import Verif.Props.RoundedBlocks
/-
C118 for the block Otsu filter as it is: all settings, in double precision.
-/
namespace Boof
open M OtsuSpec
variable {K : Type} [Field K] [LinearOrder K] [IsStrictOrderedRing K] [FloorRing K]

/-- The threshold computed from a histogram. -/
def otsuValue (o : ComputeOtsu K) (hist : Nat → Int) (n : Nat) : Int :=
  match o.computeR float64 ⟨(List.range 256).map hist, 256, 0, true⟩ n (⟨[]⟩ : Heap Int) with
  | .ok r _ => r
  | _ => 0

theorem otsuR_run {otsu2 useLocal down : Bool} {tuning scale : K} (ht : |tuning| ≤ 1) (hs : 0 ≤ scale) (hs4 : scale ≤ 4)
    {z : Int} {config : ConfigLength K} {h : Heap Int} {st : Interleaved} {input output : Gray} {f : Nat → Nat → Int}
    (ha : BlockArgs h st input output f) (hnb : st.numBands = 256)
    {req : Nat} (h1 : 1 ≤ req) (hw : req ≤ input.width) (hh : req ≤ input.height)
    (hreq : config.computeIR float64 ((min input.width input.height : Nat) : K) h = .ok (req : Int) h)
    (hf : ∀ x y, x < input.width → y < input.height → 0 ≤ f x y ∧ f x y ≤ 255)
    (harea : input.width * input.height < 2147483648)
    (hsize : Grid.count input.width req * Grid.count input.height req * 256 < 4294967296)
    (hlocal : ∀ i j, i < Grid.count input.width req → j < Grid.count input.height req →
      (localHi useLocal input.width req i - localLo useLocal input.width req i) *
        (localHi useLocal input.height req j - localLo useLocal input.height req j) ≤ 1048576) :
    ∃ b h' S,
      Blocks.processR float64 (BlockOtsu.opsR float64 (ComputeOtsu.mk otsu2 tuning down scale) useLocal) z config st input output h = .ok b h' ∧
      Filtered h h' st b.stats output (Grid.count input.width req) (Grid.count input.height req) S
        (fun x y => if down = decide (f x y ≤ otsuValue (ComputeOtsu.mk otsu2 tuning down scale)
          (fun k => rectCount f k (localLo useLocal input.width req (Grid.blockOf input.width req x)) (localHi useLocal input.width req (Grid.blockOf input.width req x))
            (localLo useLocal input.height req (Grid.blockOf input.height req y)) (localHi useLocal input.height req (Grid.blockOf input.height req y)))
          ((localHi useLocal input.width req (Grid.blockOf input.width req x) - localLo useLocal input.width req (Grid.blockOf input.width req x)) *
            (localHi useLocal input.height req (Grid.blockOf input.height req y) - localLo useLocal input.height req (Grid.blockOf input.height req y)))) then 1 else 0) := by
  have key : ∀ (i j : Nat), i < Grid.count input.width req → j < Grid.count input.height req →
      ∀ h : Heap Int, (ComputeOtsu.mk otsu2 tuning down scale).computeR float64 ⟨(List.range 256).map (fun k : Nat => rectCount f k
          (localLo useLocal input.width req i) (localHi useLocal input.width req i)
          (localLo useLocal input.height req j) (localHi useLocal input.height req j)), 256, 0, true⟩
        ((localHi useLocal input.width req i - localLo useLocal input.width req i) *
          (localHi useLocal input.height req j - localLo useLocal input.height req j)) h =
        .ok (otsuValue (ComputeOtsu.mk otsu2 tuning down scale) (fun k : Nat => rectCount f k
          (localLo useLocal input.width req i) (localHi useLocal input.width req i)
          (localLo useLocal input.height req j) (localHi useLocal input.height req j))
          ((localHi useLocal input.width req i - localLo useLocal input.width req i) *
          (localHi useLocal input.height req j - localLo useLocal input.height req j))) h := by
    intro i j hi hj
    have hl := hlocal i j hi hj
    have nx := local_nonempty (u := useLocal) h1 hw hi
    have ny := local_nonempty (u := useLocal) h1 hh hj
    have lx := (Grid.lo_le h1 hw (Grid.last_lt (u := useLocal) hi)).2
    have ly := (Grid.lo_le h1 hh (Grid.last_lt (u := useLocal) hj)).2
    have ex : localHi useLocal input.width req i ≤ input.width := lx
    have ey : localHi useLocal input.height req j ≤ input.height := ly
    generalize localLo useLocal input.width req i = x0 at *
    generalize localHi useLocal input.width req i = x1 at *
    generalize localLo useLocal input.height req j = y0 at *
    generalize localHi useLocal input.height req j = y1 at *
    have hsum : sumN 256 (fun k : Nat => rectCount f k x0 x1 y0 y1) = (((x1 - x0) * (y1 - y0) : Nat) : Int) := by
      have := sumN_pixelCount (w := x1 - x0) (h := y1 - y0) (n := 256) (m := 0) (f := fun x y => f (x0 + x) (y0 + y))
        (fun x y hx hy => by have := hf (x0 + x) (y0 + y) (by omega) (by omega); omega)
      rw [← this]
      apply sumN_congr
      intro k _
      rw [Int.zero_add]; rfl
    have hget : ∀ k : Nat, k < 256 → ((List.range 256).map (fun k : Nat => rectCount f k x0 x1 y0 y1))[k]? =
        some (rectCount f k x0 x1 y0 y1) := fun k hk => range_map_get hk
    obtain ⟨t, raw, var, p, r, e, -⟩ := C113_double (K := K) (V := Int)
      (a := ⟨(List.range 256).map (fun k : Nat => rectCount f k x0 x1 y0 y1), 256, 0, true⟩)
      (hist := fun k => rectCount f k x0 x1 y0 y1) hget (fun k _ => (rectCount_le f k x0 x1 y0 y1).1) (le_refl _) hsum
      (Nat.mul_pos (by omega) (by omega)) hl otsu2 down ht hs hs4 ⟨[]⟩
    have ev : otsuValue (ComputeOtsu.mk otsu2 tuning down scale) (fun k : Nat => rectCount f k x0 x1 y0 y1) ((x1 - x0) * (y1 - y0)) = r := by
      unfold otsuValue
      rw [e]
    rw [ev]
    exact fun g => (Steady.computeR float64 _ _ _).ok e g
  obtain ⟨e1, e2⟩ := processR_fixed (ops := BlockOtsu.opsR float64 (ComputeOtsu.mk otsu2 tuning down scale) useLocal) (z := z) (st := st) ha.width
    ha.height hw ha.inValid.widthLt hreq
  rw [e1]
  exact C41_otsu_with (K := K) (compute := fun a T => (ComputeOtsu.mk otsu2 tuning down scale).computeR float64 a T) (down := down)
    (useLocal := useLocal) (z := z) ha hnb h1 hw hh e2 hf
    harea hsize (fun i j h hi hj => key i j hi hj h)

/-- Two pictures with the same pixels in the blocks that count for `(x, y)` have the same result there, for both methods and every tuning and scale,
in double precision. -/
theorem C118_otsuR_local {otsu2 useLocal down : Bool} {tuning scale : K} (ht : |tuning| ≤ 1) (hs : 0 ≤ scale) (hs4 : scale ≤ 4)
    {z z' : Int} {config : ConfigLength K} {h k : Heap Int} {s1 s2 : Interleaved} {i1 o1 i2 o2 : Gray} {f g : Nat → Nat → Int}
    (A : BlockArgs h s1 i1 o1 f) (B : BlockArgs k s2 i2 o2 g)
    (hb1 : s1.numBands = 256) (hb2 : s2.numBands = 256) (ew : i2.width = i1.width) (eh : i2.height = i1.height)
    {req : Nat} (h1 : 1 ≤ req) (hw : req ≤ i1.width) (hh : req ≤ i1.height)
    (hreq : ∀ h : Heap Int, config.computeIR float64 ((min i1.width i1.height : Nat) : K) h = .ok (req : Int) h)
    (hf0 : ∀ x y, x < i1.width → y < i1.height → 0 ≤ f x y ∧ f x y ≤ 255)
    (hf1 : ∀ x y, x < i1.width → y < i1.height → 0 ≤ g x y ∧ g x y ≤ 255)
    (harea : i1.width * i1.height < 2147483648)
    (hsize : Grid.count i1.width req * Grid.count i1.height req * 256 < 4294967296)
    (hlocal : ∀ i j, i < Grid.count i1.width req → j < Grid.count i1.height req →
      (localHi useLocal i1.width req i - localLo useLocal i1.width req i) *
        (localHi useLocal i1.height req j - localLo useLocal i1.height req j) ≤ 1048576) :
    ∃ b h' d k',
      Blocks.processR float64 (BlockOtsu.opsR float64 (ComputeOtsu.mk otsu2 tuning down scale) useLocal) z config s1 i1 o1 h = .ok b h' ∧
      Blocks.processR float64 (BlockOtsu.opsR float64 (ComputeOtsu.mk otsu2 tuning down scale) useLocal) z' config s2 i2 o2 k = .ok d k' ∧
      ∀ x y, x < i1.width → y < i1.height →
        (∀ x' y', Grid.Sees useLocal i1.width req x x' → Grid.Sees useLocal i1.height req y y' → f x' y' = g x' y') →
        ∃ v, h'.px o1 x y = some v ∧ k'.px o2 x y = some v := by
  obtain ⟨b, h', S, e1, t1⟩ := otsuR_run (otsu2 := otsu2) (useLocal := useLocal) (down := down) (z := z) ht hs hs4 A hb1 h1 hw hh (hreq h) hf0 harea hsize hlocal
  obtain ⟨d, k', S', e2, t2⟩ := otsuR_run (otsu2 := otsu2) (useLocal := useLocal) (down := down) (z := z') ht hs hs4 B hb2 h1 (by omega) (by omega)
    (by rw [ew, eh]; exact hreq k) (by rw [ew, eh]; exact hf1) (by rw [ew, eh]; exact harea) (by rw [ew, eh]; exact hsize) (by rw [ew, eh]; exact hlocal)
  refine ⟨b, h', d, k', e1, e2, fun x y hx hy e => ⟨_, t1.pix x y (by rw [A.width]; exact hx) (by rw [A.height]; exact hy), ?_⟩⟩
  rw [t2.pix x y (by rw [B.width]; omega) (by rw [B.height]; omega)]
  rw [ew, eh]
  obtain ⟨hi, hx1⟩ := Grid.has_blockOf h1 hw hx
  obtain ⟨hj, hy1⟩ := Grid.has_blockOf h1 hh hy
  have own : f x y = g x y := by
    have a := block_inside (u := useLocal) h1 hw hi (Grid.first_le _ _) (Grid.le_last hi)
    have b := block_inside (u := useLocal) h1 hh hj (Grid.first_le _ _) (Grid.le_last hj)
    exact e x y ⟨le_trans a.1 hx1.1, lt_of_lt_of_le hx1.2 a.2⟩ ⟨le_trans b.1 hy1.1, lt_of_lt_of_le hy1.2 b.2⟩
  have eq : (fun k : Nat => rectCount f k (localLo useLocal i1.width req (Grid.blockOf i1.width req x)) (localHi useLocal i1.width req (Grid.blockOf i1.width req x))
      (localLo useLocal i1.height req (Grid.blockOf i1.height req y)) (localHi useLocal i1.height req (Grid.blockOf i1.height req y))) =
    (fun k : Nat => rectCount g k (localLo useLocal i1.width req (Grid.blockOf i1.width req x)) (localHi useLocal i1.width req (Grid.blockOf i1.width req x))
      (localLo useLocal i1.height req (Grid.blockOf i1.height req y)) (localHi useLocal i1.height req (Grid.blockOf i1.height req y))) := by
    funext k
    unfold rectCount
    exact rectSum_near (fun x' y' c1 c2 c3 c4 => by rw [e x' y' ⟨c1, c2⟩ ⟨c3, c4⟩])
  simp only [eq, own]

/-- Two `6 × 2` pictures that differ in the last column (`BlockArgs` are shown in C39), blocks of 2 and neighbours used: the rest of the hypotheses. -/
example : |(1/64 : ℚ)| ≤ 1 ∧ (0 : ℚ) ≤ 3/4 ∧ (3/4 : ℚ) ≤ 4 ∧
    (∀ h : Heap Int, (ConfigLength.fixed (2 : ℚ)).computeIR float64 ((min 6 2 : Nat) : ℚ) h = .ok ((2 : Nat) : Int) h) ∧
    (∀ i, i < Grid.count 6 2 → ∀ j, j < Grid.count 2 2 → (localHi true 6 2 i - localLo true 6 2 i) * (localHi true 2 2 j - localLo true 2 2 j) ≤ 1048576) :=
  ⟨by norm_num [abs_of_pos], by norm_num, by norm_num, fun h => by
    have := computeIR_run (c := ConfigLength.fixed (2 : ℚ)) (total := ((min 6 2 : Nat) : ℚ)) (rnd := float64) (s := 2) (t := 5/2) (by decide +kernel) (by norm_num)
      (by decide +kernel) (by norm_num) (by norm_num) h
    rw [this]
    norm_num, by decide +kernel⟩

/-- Without tuning the direction does not change the threshold. -/
theorem otsuValue_tuning {otsu2 : Bool} {scale : K} {hist : Nat → Int} {n : Nat} :
    otsuValue (ComputeOtsu.mk otsu2 0 true scale) hist n = otsuValue (ComputeOtsu.mk otsu2 0 false scale) hist n := by
  have z : (float64 : K → Option K) 0 = some 0 := by
    have := float64_exact (K := K) 0 (by norm_num)
    simpa using this
  have hh : (float64 : K → Option K) (0 + 1 / 2) = some (1 / 2) := by
    have hb : |(0 + 1 / 2 : K)| ≤ 2 ^ 1023 := by
      have := one_le_pow₀ (M₀ := K) (a := 2) (n := 1023) (by norm_num)
      rw [abs_of_nonneg (by norm_num)]
      exact le_trans (by norm_num) this
    obtain ⟨y, e, -⟩ := (float64_rounds (K := K)).near (0 + 1 / 2) hb
    have h := (C84_float64.1 _ y e).2 (0 + 1 / 2) ⟨1, -1, by norm_num, by norm_num, by norm_num⟩
    rw [sub_self, abs_zero] at h
    rw [e, sub_eq_zero.mp (abs_eq_zero.mp (le_antisymm h (abs_nonneg _)))]
    norm_num
  have ti : (toInt S32 (1 / 2 : K) : M Int Int) = pure 0 := by
    have : truncK (1 / 2 : K) = 0 := by
      unfold truncK
      rw [if_pos (by norm_num)]
      norm_num
    unfold toInt
    rw [this]
    exact if_pos (by decide)
  have ar : (S32.arith (-0) : M Int Int) = pure 0 := rfl
  have pb : ∀ {α β : Type} (a : α) (k : α → M Int β), ((pure a : M Int α) >>= k) = k a := fun _ _ => rfl
  have body : ∀ down : Bool, (ComputeOtsu.mk otsu2 (0 : K) down scale).computeR (V := Int) float64 ⟨(List.range 256).map hist, 256, 0, true⟩ n =
      (if otsu2 then ComputeOtsu.computeOtsu2R float64 ⟨(List.range 256).map hist, 256, 0, true⟩ n
        else ComputeOtsu.computeOtsuR float64 ⟨(List.range 256).map hist, 256, 0, true⟩ n) >>= (fun r : K × K => do
        let m ← opt ((float64 : K → Option K) (1/1000))
        let variance ← opt (float64 (r.2 + m))
        if variance = 0 then M.ub
        else do
          let threshold ← opt (float64 (r.1 + ((0 : Int) : K)))
          let s ← opt (float64 (scale * max threshold 0))
          let s ← opt (float64 (s + 1/2))
          toInt S32 s) := by
    intro down
    unfold ComputeOtsu.computeR
    congr 1
    funext r
    simp only [zero_mul, z]
    congr 1
    funext m
    congr 1
    funext variance
    simp only [opt, pb, zero_mul, z]
    split
    · rfl
    · simp only [zero_div, z, hh, pb, ti]
      cases down
      · rfl
      · simp only [if_true, ar, pb]
  unfold otsuValue
  rw [body, body]

/-- Without tuning the two directions give complementary pictures, for both methods and every scale, in double precision. -/
theorem C118_otsuR_complement_partial {otsu2 useLocal : Bool} {scale : K} (hs : 0 ≤ scale) (hs4 : scale ≤ 4)
    {z z' : Int} {config : ConfigLength K} {h k : Heap Int} {s1 s2 : Interleaved} {i1 o1 i2 o2 : Gray} {f : Nat → Nat → Int}
    (A : BlockArgs h s1 i1 o1 f) (B : BlockArgs k s2 i2 o2 f)
    (hb1 : s1.numBands = 256) (hb2 : s2.numBands = 256) (ew : i2.width = i1.width) (eh : i2.height = i1.height)
    {req : Nat} (h1 : 1 ≤ req) (hw : req ≤ i1.width) (hh : req ≤ i1.height)
    (hreq : ∀ h : Heap Int, config.computeIR float64 ((min i1.width i1.height : Nat) : K) h = .ok (req : Int) h)
    (hf0 : ∀ x y, x < i1.width → y < i1.height → 0 ≤ f x y ∧ f x y ≤ 255)
    (harea : i1.width * i1.height < 2147483648)
    (hsize : Grid.count i1.width req * Grid.count i1.height req * 256 < 4294967296)
    (hlocal : ∀ i j, i < Grid.count i1.width req → j < Grid.count i1.height req →
      (localHi useLocal i1.width req i - localLo useLocal i1.width req i) *
        (localHi useLocal i1.height req j - localLo useLocal i1.height req j) ≤ 1048576) :
    ∃ b h' d k',
      Blocks.processR float64 (BlockOtsu.opsR float64 (ComputeOtsu.mk otsu2 (0 : K) true scale) useLocal) z config s1 i1 o1 h = .ok b h' ∧
      Blocks.processR float64 (BlockOtsu.opsR float64 (ComputeOtsu.mk otsu2 (0 : K) false scale) useLocal) z' config s2 i2 o2 k = .ok d k' ∧
      Complementary h' o1 k' o2 i1.width i1.height := by
  have ht : |(0 : K)| ≤ 1 := by rw [abs_zero]; exact zero_le_one
  obtain ⟨b, h', S, e1, t1⟩ := otsuR_run (otsu2 := otsu2) (useLocal := useLocal) (down := true) (z := z) ht hs hs4 A hb1 h1 hw hh (hreq h) hf0 harea hsize hlocal
  obtain ⟨d, k', S', e2, t2⟩ := otsuR_run (otsu2 := otsu2) (useLocal := useLocal) (down := false) (z := z') ht hs hs4 B hb2 h1 (by omega) (by omega)
    (by rw [ew, eh]; exact hreq k) (by rw [ew, eh]; exact hf0) (by rw [ew, eh]; exact harea) (by rw [ew, eh]; exact hsize) (by rw [ew, eh]; exact hlocal)
  refine ⟨b, h', d, k', e1, e2, fun x y hx hy => ?_⟩
  have c1 := t1.pix x y (by rw [A.width]; exact hx) (by rw [A.height]; exact hy)
  have c2 := t2.pix x y (by rw [B.width]; omega) (by rw [B.height]; omega)
  rw [ew, eh, ← otsuValue_tuning] at c2
  exact complement_cases c1 c2

/-- The hypotheses are those of `C118_otsuR_local` without tuning. -/
example : (0 : ℚ) ≤ 1/2 ∧ (1/2 : ℚ) ≤ 4 := by norm_num

/-- With tuning the two directions need not be complementary: here every pixel is 0 in both. -/
theorem C118_otsu_complement_refuted :
    (match Blocks.processR float64 (BlockOtsu.opsR (float64 : ℚ → Option ℚ) (ComputeOtsu.mk false (1/16) true 1) false) 0 (ConfigLength.fixed (2 : ℚ))
      ⟨2, 0, 0, 0, 256, 0, 0, false⟩ ⟨0, 4, 2, 2, 0, 2, false⟩ ⟨1, 4, 2, 2, 0, 2, false⟩ (⟨[some [10,20,11,21], some (List.replicate 4 9), some []]⟩ : Heap Int) with
      | .ok _ h => h.get 1
      | _ => none) = some [0,0,0,0] ∧
    (match Blocks.processR float64 (BlockOtsu.opsR (float64 : ℚ → Option ℚ) (ComputeOtsu.mk false (1/16) false 1) false) 0 (ConfigLength.fixed (2 : ℚ))
      ⟨2, 0, 0, 0, 256, 0, 0, false⟩ ⟨0, 4, 2, 2, 0, 2, false⟩ ⟨1, 4, 2, 2, 0, 2, false⟩ (⟨[some [10,20,11,21], some (List.replicate 4 9), some []]⟩ : Heap Int) with
      | .ok _ h => h.get 1
      | _ => none) = some [0,0,0,0] := by
  decide +kernel

theorem mirRange_sub {a : Bool} {n x0 x1 : Nat} (h : x0 ≤ x1) (hn : x1 ≤ n) : mirHi a n x0 x1 - mirLo a n x0 x1 = x1 - x0 := by
  cases a
  · rfl
  · show (n - x0) - (n - x1) = x1 - x0
    omega

/-- With blocks of one size the result of a mirrored picture is the mirrored result, for all settings, in double precision. -/
theorem C118_otsuR_mirrored_partial {otsu2 useLocal down : Bool} {tuning scale : K} (ht : |tuning| ≤ 1) (hs : 0 ≤ scale) (hs4 : scale ≤ 4) {a b' : Bool}
    {z z' : Int} {config : ConfigLength K} {h k : Heap Int} {s1 s2 : Interleaved} {i1 o1 i2 o2 : Gray} {f : Nat → Nat → Int}
    (A : BlockArgs h s1 i1 o1 f) (B : BlockArgs k s2 i2 o2 (mirrored a b' i1.width i1.height f))
    (hb1 : s1.numBands = 256) (hb2 : s2.numBands = 256) (ew : i2.width = i1.width) (eh : i2.height = i1.height)
    {req : Nat} (h1 : 1 ≤ req) (hw : req ≤ i1.width) (hh : req ≤ i1.height)
    (hreq : ∀ h : Heap Int, config.computeIR float64 ((min i1.width i1.height : Nat) : K) h = .ok (req : Int) h)
    (gw : Grid.Even i1.width req) (gh : Grid.Even i1.height req)
    (hf0 : ∀ x y, x < i1.width → y < i1.height → 0 ≤ f x y ∧ f x y ≤ 255)
    (harea : i1.width * i1.height < 2147483648)
    (hsize : Grid.count i1.width req * Grid.count i1.height req * 256 < 4294967296)
    (hlocal : ∀ i j, i < Grid.count i1.width req → j < Grid.count i1.height req →
      (localHi useLocal i1.width req i - localLo useLocal i1.width req i) *
        (localHi useLocal i1.height req j - localLo useLocal i1.height req j) ≤ 1048576) :
    ∃ b h' d k',
      Blocks.processR float64 (BlockOtsu.opsR float64 (ComputeOtsu.mk otsu2 tuning down scale) useLocal) z config s1 i1 o1 h = .ok b h' ∧
      Blocks.processR float64 (BlockOtsu.opsR float64 (ComputeOtsu.mk otsu2 tuning down scale) useLocal) z' config s2 i2 o2 k = .ok d k' ∧
      ∀ x y, x < i1.width → y < i1.height →
        ∃ v, h'.px o1 (mirrorIf a i1.width x) (mirrorIf b' i1.height y) = some v ∧ k'.px o2 x y = some v := by
  obtain ⟨b, h', S, e1, t1⟩ := otsuR_run (otsu2 := otsu2) (useLocal := useLocal) (down := down) (z := z) ht hs hs4 A hb1 h1 hw hh (hreq h) hf0 harea hsize hlocal
  obtain ⟨d, k', S', e2, t2⟩ := otsuR_run (otsu2 := otsu2) (useLocal := useLocal) (down := down) (z := z') ht hs hs4 B hb2 h1 (by omega) (by omega)
    (by rw [ew, eh]; exact hreq k) (by rw [ew, eh]; exact fun x y hx hy => hf0 _ _ (mirrorIf_lt hx) (mirrorIf_lt hy)) (by rw [ew, eh]; exact harea)
    (by rw [ew, eh]; exact hsize) (by rw [ew, eh]; exact hlocal)
  refine ⟨b, h', d, k', e1, e2, fun x y hx hy => ⟨_, t1.pix _ _ (by rw [A.width]; exact mirrorIf_lt hx) (by rw [A.height]; exact mirrorIf_lt hy), ?_⟩⟩
  rw [t2.pix x y (by rw [B.width]; omega) (by rw [B.height]; omega)]
  rw [ew, eh]
  have hi := (Grid.has_blockOf h1 hw hx).1
  have hj := (Grid.has_blockOf h1 hh hy).1
  rw [gw.blockOf_mirror h1 hw hx, gh.blockOf_mirror h1 hh hy]
  generalize Grid.blockOf i1.width req x = i at *
  generalize Grid.blockOf i1.height req y = j at *
  have nx := local_nonempty (u := useLocal) h1 hw (mirrorIf_lt (b := a) hi)
  have ny := local_nonempty (u := useLocal) h1 hh (mirrorIf_lt (b := b') hj)
  have lx : localHi useLocal i1.width req (mirrorIf a (Grid.count i1.width req) i) ≤ i1.width := (Grid.lo_le h1 hw (Grid.last_lt (u := useLocal) (mirrorIf_lt (b := a) hi))).2
  have ly : localHi useLocal i1.height req (mirrorIf b' (Grid.count i1.height req) j) ≤ i1.height := (Grid.lo_le h1 hh (Grid.last_lt (u := useLocal) (mirrorIf_lt (b := b') hj))).2
  have e1 := gw.localLo_mirror (u := useLocal) (a := a) (mirrorIf_lt (b := a) hi)
  have e2 := gw.localHi_mirror (u := useLocal) (a := a) (mirrorIf_lt (b := a) hi)
  have e3 := gh.localLo_mirror (u := useLocal) (a := b') (mirrorIf_lt (b := b') hj)
  have e4 := gh.localHi_mirror (u := useLocal) (a := b') (mirrorIf_lt (b := b') hj)
  rw [mirrorIf_twice hi] at e1 e2
  rw [mirrorIf_twice hj] at e3 e4
  have eq : ∀ v : Int, rectCount (mirrored a b' i1.width i1.height f) v (localLo useLocal i1.width req i) (localHi useLocal i1.width req i)
      (localLo useLocal i1.height req j) (localHi useLocal i1.height req j) =
      rectCount f v (localLo useLocal i1.width req (mirrorIf a (Grid.count i1.width req) i)) (localHi useLocal i1.width req (mirrorIf a (Grid.count i1.width req) i))
        (localLo useLocal i1.height req (mirrorIf b' (Grid.count i1.height req) j)) (localHi useLocal i1.height req (mirrorIf b' (Grid.count i1.height req) j)) := fun v => by
    have := rectCount_mirror (a := a) (b := b') lx ly f v (x0 := localLo useLocal i1.width req (mirrorIf a (Grid.count i1.width req) i))
      (y0 := localLo useLocal i1.height req (mirrorIf b' (Grid.count i1.height req) j))
    rw [e1, e2, e3, e4]
    exact this
  have ar : localHi useLocal i1.width req i - localLo useLocal i1.width req i =
      localHi useLocal i1.width req (mirrorIf a (Grid.count i1.width req) i) - localLo useLocal i1.width req (mirrorIf a (Grid.count i1.width req) i) := by
    rw [e1, e2]
    exact mirRange_sub (by omega) lx
  have ar' : localHi useLocal i1.height req j - localLo useLocal i1.height req j =
      localHi useLocal i1.height req (mirrorIf b' (Grid.count i1.height req) j) - localLo useLocal i1.height req (mirrorIf b' (Grid.count i1.height req) j) := by
    rw [e3, e4]
    exact mirRange_sub (by omega) ly
  simp only [eq, ar, ar']
  rfl

/-- A `6 × 2` picture with blocks of 2. -/
example : Grid.Even 6 2 ∧ Grid.Even 2 2 ∧ Grid.count 6 2 = 3 ∧ Grid.blockOf 6 2 5 = 2 ∧ Grid.blockOf 6 2 (mirrorIf true 6 5) = 0 := by
  unfold Grid.Even
  decide +kernel

end Boof
