import Verif.Proofs.RoundedBlocks
import Verif.Props.Blocks
import Verif.Props.Tuned
import Verif.Props.LocalRounding
import Verif.Props.NativeFilter
/-
C114: the block threshold filters with rounded arithmetic.  C38 to C41 are about exact arithmetic, or about any.
-/
namespace Boof
open M OtsuSpec
variable {V K : Type} [Field K] [LinearOrder K] [IsStrictOrderedRing K] [FloorRing K] {rnd rndD : K → Option K} {u η big : K}

/-- Once the block size is known, rounding of the configuration plays no role. -/
theorem processR_fixed {ops : BlockOps V} {z : V} {config : ConfigLength K} {st : Interleaved} {input output : Gray} {h : Heap V} {req : Nat}
    (hw : output.width = input.width) (hh : output.height = input.height) (hlt : req ≤ input.width) (hwl : input.width < P32)
    (hr : config.computeIR rndD ((min input.width input.height : Nat) : K) h = .ok (req : Int) h) :
    Blocks.processR rndD ops z config st input output h = Blocks.process ops z (ConfigLength.fixed (req : K)) st input output h ∧
      (ConfigLength.fixed (req : K)).computeI ((min input.width input.height : Nat) : K) h = .ok (req : Int) h := by
  have hb := computeIR_lt hr
  have hf : (ConfigLength.fixed (req : K)).computeI ((min input.width input.height : Nat) : K) h = .ok (req : Int) h := by
    have e : (ConfigLength.fixed (req : K)).compute ((min input.width input.height : Nat) : K) = (req : K) := by
      unfold ConfigLength.compute ConfigLength.fixed
      rw [if_neg (by simp)]
    have h0 : (0 : K) ≤ (req : K) := Nat.cast_nonneg _
    have hfl : ⌊(req : K) + 1 / 2⌋ = (req : Int) := by
      rw [Int.floor_eq_iff, Int.cast_natCast]
      constructor <;> linarith
    unfold ConfigLength.computeI
    rw [e, if_pos h0]
    unfold M.toInt
    rw [truncK_nonneg (by linarith), hfl, if_pos]
    · rfl
    · constructor
      · exact le_trans (by decide : S32.lo ≤ 0) (by omega)
      · exact hb
  refine ⟨?_, hf⟩
  rw [process_run hw hh hlt hwl hf]
  unfold Blocks.processR checkSameShape2
  rw [if_neg (by omega)]
  refine (M.bind_ok (M.pure_run _ _)).trans ((M.bind_ok hr).trans ?_)
  rw [toU32_of_nonneg (by omega) (by omega)]
  rfl

/-! ## Mean -/

theorem block_facts {w ht req : Nat} (h1 : 1 ≤ req) (hw : req ≤ w) (hh : req ≤ ht) {f : Nat → Nat → Int} {Mx : Nat}
    (hf : ∀ x y, x < w → y < ht → 0 ≤ f x y ∧ f x y ≤ Mx) {i j : Nat} (hi : i < Grid.count w req) (hj : j < Grid.count ht req) :
    0 < blockArea w ht req i j ∧ 0 ≤ blockSum w ht req f i j ∧ blockSum w ht req f i j ≤ Mx * blockArea w ht req i j := by
  obtain ⟨a1, a2⟩ := Grid.lo_le h1 hw hi
  obtain ⟨b1, b2⟩ := Grid.lo_le h1 hh hj
  have c := Grid.le_size h1 hw
  have d := Grid.le_size h1 hh
  unfold blockArea blockSum rectSum
  refine ⟨Nat.mul_pos (by omega) (by omega), ?_, ?_⟩
  · exact sumN_nonneg (fun y hy => sumN_nonneg (fun x hx => (hf _ _ (by omega) (by omega)).1))
  · generalize Grid.hi w req i = x1 at *
    generalize Grid.lo w req i = x0 at *
    generalize Grid.hi ht req j = y1 at *
    generalize Grid.lo ht req j = y0 at *
    have row : ∀ y, y < y1 - y0 → sumN (x1 - x0) (fun x => f (x0 + x) (y0 + y)) ≤ ((x1 - x0 : Nat) : Int) * Mx := by
      intro y hy
      exact sumN_le (fun x hx => (hf _ _ (by omega) (by omega)).2)
    have := sumN_le (n := y1 - y0) (f := fun y => sumN (x1 - x0) (fun x => f (x0 + x) (y0 + y))) row
    calc _ ≤ ((y1 - y0 : Nat) : Int) * (((x1 - x0 : Nat) : Int) * Mx) := this
      _ = _ := by push_cast; ring

/-- Block mean filter with scale 1: the statistic of every block is the mean of its pixels rounded to the nearest integer, exactly, for images
with pixels up to `Mx` and blocks that are not too large for the format. -/
theorem C114_mean (F : Format rnd) (R : Rounds rnd u η big) {N : Nat} (H : HalvesTo rnd N) {t : IntTy} (ht : t = U8 ∨ t = U16 ∨ t = S16)
    {useLocal down : Bool} {z : Int} {config : ConfigLength K} {h : Heap Int} {st : Interleaved} {input output : Gray} {f : Nat → Nat → Int}
    (ha : BlockArgs h st input output f) (hnb : st.numBands = 1)
    {req : Nat} (h1 : 1 ≤ req) (hw : req ≤ input.width) (hh : req ≤ input.height)
    (hreq : config.computeIR rndD ((min input.width input.height : Nat) : K) h = .ok (req : Int) h)
    {Mx A : Nat} (hMx : (Mx : Int) ≤ t.hi) (hf : ∀ x y, x < input.width → y < input.height → 0 ≤ f x y ∧ f x y ≤ Mx)
    (hA : ∀ i j, i < Grid.count input.width req → j < Grid.count input.height req → blockArea input.width input.height req i j ≤ A)
    (hN : 2 * Mx * A + 2 * A + 2 * Mx + 1 ≤ N) (hsum : ((Mx * A : Nat) : Int) ≤ t.sumType.hi)
    (hbig : (Mx : K) + 1 ≤ big) (hfine : 2 * (A : K) * (3 * u * (Mx + 1) + 2 * η) < 1) :
    ∃ b h', Blocks.processR rndD (BlockMean.opsR rnd t 1 useLocal down) z config st input output h = .ok b h' ∧
      Filtered h h' st b.stats output (Grid.count input.width req) (Grid.count input.height req)
        (fun i j _ => nearest (blockSum input.width input.height req f i j) (blockArea input.width input.height req i j))
        (fun x y => if down = decide (f x y ≤ localMean useLocal input.width input.height req
            (fun i j => nearest (blockSum input.width input.height req f i j) (blockArea input.width input.height req i j))
            (Grid.blockOf input.width req x) (Grid.blockOf input.height req y)) then 1 else 0) := by
  have hu := R.rel
  have hη := R.abs
  have stat : ∀ i j, i < Grid.count input.width req → j < Grid.count input.height req →
      meanStat (fun s n => (BlockMean.scaledR rnd 1 s n).getD 0) input.width input.height req f i j =
        nearest (blockSum input.width input.height req f i j) (blockArea input.width input.height req i j) ∧
      0 ≤ nearest (blockSum input.width input.height req f i j) (blockArea input.width input.height req i j) ∧
      nearest (blockSum input.width input.height req f i j) (blockArea input.width input.height req i j) ≤ Mx ∧
      blockSum input.width input.height req f i j ≤ (Mx * A : Nat) := by
    intro i j hi hj
    obtain ⟨p0, s0, sM⟩ := block_facts h1 hw hh hf hi hj
    have hAij := hA i j hi hj
    have e : meanStat (fun s n => (BlockMean.scaledR rnd 1 s n).getD 0) input.width input.height req f i j =
        truncK ((BlockMean.scaledR rnd 1 (blockSum input.width input.height req f i j) (blockArea input.width input.height req i j)).getD 0) := rfl
    rw [e]
    generalize blockArea input.width input.height req i j = n at *
    generalize blockSum input.width input.height req f i j = S at *
    obtain ⟨s, rfl⟩ := Int.eq_ofNat_of_zero_le s0
    have sM' : s ≤ Mx * n := by exact_mod_cast sM
    have hle : Mx * n ≤ Mx * A := Nat.mul_le_mul_left _ hAij
    have hAK : (n : K) ≤ A := by exact_mod_cast hAij
    have hM0 : (0 : K) ≤ Mx := Nat.cast_nonneg _
    have hfine' : 2 * (n : K) * (3 * u * (Mx + 1) + 2 * η) < 1 := by
      refine lt_of_le_of_lt (mul_le_mul_of_nonneg_right (by linarith) ?_) hfine
      have := mul_nonneg hu (show (0 : K) ≤ Mx + 1 by linarith)
      linarith
    have h2 : 2 * Mx * A = 2 * (Mx * A) := by ring
    obtain ⟨x, ex, x0, hx⟩ := scaledR_exact F R H p0 (by omega) (by omega) sM' (by omega) hbig hfine'
    refine ⟨?_, Int.ediv_nonneg (by omega) (by omega), ?_, by exact_mod_cast le_trans sM' hle⟩
    · rw [ex, Option.getD_some, truncK_nonneg x0, hx]
    · unfold nearest
      have : 2 * (s : Int) + n < (Mx + 1) * (2 * n) := by nlinarith [(by exact_mod_cast p0 : (0 : Int) < n)]
      exact Int.lt_add_one_iff.mp (Int.ediv_lt_of_lt_mul (by omega) this)
  obtain ⟨e1, e2⟩ := processR_fixed (ops := BlockMean.opsR rnd t 1 useLocal down) (z := z) (st := st) ha.width ha.height hw ha.inValid.widthLt hreq
  rw [e1]
  obtain ⟨b, h', e, hp⟩ := C39_mean_partial (scaled := fun s n => (BlockMean.scaledR rnd 1 s n).getD 0) (useLocal := useLocal) (down := down) (z := z)
    ht ha hnb h1 hw hh e2 (fun x y hx hy => (hf x y hx hy).1)
    (fun i j hi hj => le_trans (stat i j hi hj).2.2.2 hsum)
    (fun i j hi hj => by rw [(stat i j hi hj).1]; exact ⟨(stat i j hi hj).2.1, le_trans (stat i j hi hj).2.2.1 hMx⟩)
  refine ⟨b, h', e, { hp with pix := fun x y hx hy => ?_, stats := ?_ }⟩
  · rw [hp.pix x y hx hy]
    rw [localMean_congr (fun i j hi hj => (stat i j hi hj).1)
      (Grid.has_blockOf h1 hw (by rw [← ha.width]; exact hx)).1 (Grid.has_blockOf h1 hh (by rw [← ha.height]; exact hy)).1]
  · obtain ⟨q1, q2, q3, q4, q5, q6, q7⟩ := hp.stats
    refine ⟨q1, q2, q3, q4, q5, fun i j k hi hj hk => ?_, q7⟩
    rw [q6 i j k hi hj hk]
    exact congrArg some (stat i j (by omega) (by omega)).1

/-- The numbers `i/2` with `i` up to `2^24` are numbers of single precision. -/
theorem float32_halves : HalvesTo (float32 : K → Option K) (2 ^ 24) := by
  intro i hi
  have hiK : (i : K) ≤ 2 ^ 24 := by exact_mod_cast hi
  have hi0 : (0 : K) ≤ i := Nat.cast_nonneg _
  rcases Nat.lt_or_ge i (2 ^ 24) with c | c
  · refine C84_representable ⟨i, -1, ?_, by norm_num, ?_⟩ ?_
    · rw [abs_of_nonneg (by omega)]; exact_mod_cast c
    · rw [zpow_neg_one, Int.cast_natCast, div_eq_mul_inv]
    · rw [abs_of_nonneg (by positivity)]
      have : (2 : K) ^ 24 ≤ 2 ^ 127 := pow_le_pow_right₀ (by norm_num) (by norm_num)
      linarith
  · have e : i = 2 ^ 24 := by omega
    have := float32_exact (K := K) (2 ^ 23) (by norm_num)
    rw [e]
    have e2 : (((2 ^ 24 : Nat) : K)) / 2 = ((2 ^ 23 : Nat) : K) := by norm_num
    rw [e2]; exact this

/-- 8-bit images in single precision: exact for blocks of up to 10000 pixels. -/
theorem C114_mean_u8 {useLocal down : Bool} {z : Int} {config : ConfigLength K} {h : Heap Int} {st : Interleaved} {input output : Gray}
    {f : Nat → Nat → Int} (ha : BlockArgs h st input output f) (hnb : st.numBands = 1)
    {req : Nat} (h1 : 1 ≤ req) (hw : req ≤ input.width) (hh : req ≤ input.height)
    (hreq : config.computeIR float64 ((min input.width input.height : Nat) : K) h = .ok (req : Int) h)
    (hf : ∀ x y, x < input.width → y < input.height → 0 ≤ f x y ∧ f x y ≤ 255)
    (hA : ∀ i j, i < Grid.count input.width req → j < Grid.count input.height req → blockArea input.width input.height req i j ≤ 10000) :
    ∃ b h', Blocks.processR float64 (BlockMean.opsR (float32 : K → Option K) U8 1 useLocal down) z config st input output h = .ok b h' ∧
      Filtered h h' st b.stats output (Grid.count input.width req) (Grid.count input.height req)
        (fun i j _ => nearest (blockSum input.width input.height req f i j) (blockArea input.width input.height req i j))
        (fun x y => if down = decide (f x y ≤ localMean useLocal input.width input.height req
            (fun i j => nearest (blockSum input.width input.height req f i j) (blockArea input.width input.height req i j))
            (Grid.blockOf input.width req x) (Grid.blockOf input.height req y)) then 1 else 0) := by
  refine C114_mean float32_format float32_rounds float32_halves (Or.inl rfl) ha hnb h1 hw hh hreq (Mx := 255) (A := 10000) (by decide) hf hA
    (by norm_num) (by decide) ?_ ?_
  · have : (2 : K) ^ 8 ≤ 2 ^ 127 := pow_le_pow_right₀ (by norm_num) (by norm_num)
    norm_num at this ⊢
  · have hη : (1 : K) / 2 ^ 150 ≤ 1 / 2 ^ 40 := one_div_le_one_div_of_le (by positivity) (pow_le_pow_right₀ (by norm_num) (by norm_num))
    generalize (1 : K) / 2 ^ 150 = y at *
    norm_num at hη ⊢
    linarith

/-- The 5x2 image of C39 with blocks of 2 (its `BlockArgs` are shown there) meets the remaining hypotheses, and this is what the filter does. -/
example : (ConfigLength.fixed (2 : ℚ)).computeIR float64 ((min 5 2 : Nat) : ℚ) (⟨[]⟩ : Heap Int) = .ok ((2 : Nat) : Int) ⟨[]⟩ ∧
    (∀ i, i < Grid.count 5 2 → ∀ j, j < Grid.count 2 2 → blockArea 5 2 2 i j ≤ 10000) ∧
    Blocks.processR float64 (BlockMean.opsR (float32 : ℚ → Option ℚ) U8 1 false true) 0 (ConfigLength.fixed (2 : ℚ))
      ⟨2, 0, 0, 0, 1, 0, 0, false⟩ ⟨0, 10, 5, 2, 0, 5, false⟩ ⟨1, 10, 5, 2, 0, 5, false⟩
      (⟨[some [1,2,30,10,10, 3,4,10,10,20], some (List.replicate 10 9), some []]⟩ : Heap Int) =
      .ok ⟨⟨3, 2, 2, 1, 1, 0, 2, false⟩, 2, 2⟩
        ⟨[some [1,2,30,10,10, 3,4,10,10,20], some [1,1,0,1,1, 1,0,1,1,0], none, some [3,15]]⟩ := by decide +kernel

/-- Beyond that the statistic can differ from the exact one: 254.5 minus 1/200002 counts as 255. -/
theorem C114_limit : ∃ x : ℚ, BlockMean.scaledR float32 1 25450254 100001 = some x ∧ ⌊x⌋ = 255 ∧ nearest 25450254 100001 = 254 :=
  ⟨255, by decide +kernel, by decide +kernel, by decide +kernel⟩

/-- Block mean filter with any scale: the statistic of every block is within 1/2 of the scaled mean of its pixels, up to rounding errors, and the
output is decided by comparing with the average of the local statistics. -/
theorem C114_mean_scale (F : Format rnd) (R : Rounds rnd u η big) (hu : 100 * u ≤ 1) (hη : η ≤ u) {t : IntTy} (ht : t = U8 ∨ t = U16 ∨ t = S16)
    {scale : K} (hsc : 0 ≤ scale) {useLocal down : Bool} {z : Int} {config : ConfigLength K} {h : Heap Int} {st : Interleaved}
    {input output : Gray} {f : Nat → Nat → Int} (ha : BlockArgs h st input output f) (hnb : st.numBands = 1)
    {req : Nat} (h1 : 1 ≤ req) (hw : req ≤ input.width) (hh : req ≤ input.height)
    (hreq : config.computeIR rndD ((min input.width input.height : Nat) : K) h = .ok (req : Int) h)
    {Mx A : Nat} (hf : ∀ x y, x < input.width → y < input.height → 0 ≤ f x y ∧ f x y ≤ Mx)
    (hA : ∀ i j, i < Grid.count input.width req → j < Grid.count input.height req → blockArea input.width input.height req i j ≤ A)
    (hsum : ((Mx * A : Nat) : Int) ≤ t.sumType.hi) (hbig : 4 * (scale + 1) * ((Mx * A : Nat) + 1) + 4 * A ≤ big)
    (hfit : scale * Mx + 1 / 2 + scaledError u η (scale * Mx) < (t.hi : K) + 1) :
    ∃ b h', ∃ S : Nat → Nat → Int,
      Blocks.processR rndD (BlockMean.opsR rnd t scale useLocal down) z config st input output h = .ok b h' ∧
      (∀ i j, i < Grid.count input.width req → j < Grid.count input.height req → 0 ≤ S i j ∧
        (S i j : K) ≤ scale * blockSum input.width input.height req f i j / blockArea input.width input.height req i j + 1 / 2 +
          scaledError u η (scale * blockSum input.width input.height req f i j / blockArea input.width input.height req i j) ∧
        scale * blockSum input.width input.height req f i j / blockArea input.width input.height req i j <
          (S i j : K) + 1 / 2 +
            scaledError u η (scale * blockSum input.width input.height req f i j / blockArea input.width input.height req i j)) ∧
      Filtered h h' st b.stats output (Grid.count input.width req) (Grid.count input.height req) (fun i j _ => S i j)
        (fun x y => if down = decide (f x y ≤ localMean useLocal input.width input.height req S
            (Grid.blockOf input.width req x) (Grid.blockOf input.height req y)) then 1 else 0) := by
  have hu0 := R.rel
  have hη0 := R.abs
  have stat : ∀ i j, i < Grid.count input.width req → j < Grid.count input.height req →
      blockSum input.width input.height req f i j ≤ (Mx * A : Nat) ∧
      ∃ x : K, meanStat (fun s n => (BlockMean.scaledR rnd scale s n).getD 0) input.width input.height req f i j = ⌊x⌋ ∧ 0 ≤ x ∧
        |x - (scale * blockSum input.width input.height req f i j / blockArea input.width input.height req i j + 1 / 2)| ≤
          scaledError u η (scale * blockSum input.width input.height req f i j / blockArea input.width input.height req i j) ∧
        x < (t.hi : K) + 1 := by
    intro i j hi hj
    obtain ⟨p0, s0, sM⟩ := block_facts h1 hw hh hf hi hj
    have hAij := hA i j hi hj
    have e : meanStat (fun s n => (BlockMean.scaledR rnd scale s n).getD 0) input.width input.height req f i j =
        truncK ((BlockMean.scaledR rnd scale (blockSum input.width input.height req f i j) (blockArea input.width input.height req i j)).getD 0) := rfl
    rw [e]
    generalize blockArea input.width input.height req i j = n at *
    generalize blockSum input.width input.height req f i j = S at *
    obtain ⟨s, rfl⟩ := Int.eq_ofNat_of_zero_le s0
    have sM' : s ≤ Mx * n := by exact_mod_cast sM
    have hle : Mx * n ≤ Mx * A := Nat.mul_le_mul_left _ hAij
    have hAK : (n : K) ≤ A := by exact_mod_cast hAij
    have hn0 : (0 : K) < n := by exact_mod_cast p0
    have hsK : (s : K) ≤ ((Mx * A : Nat) : K) := by exact_mod_cast le_trans sM' hle
    refine ⟨by exact_mod_cast le_trans sM' hle, ?_⟩
    obtain ⟨x, ex, x0, hx⟩ := scaledR_near F R hu hη hsc (s := s) p0 (by
      have : 4 * (scale + 1) * ((s : K) + 1) ≤ 4 * (scale + 1) * (((Mx * A : Nat) : K) + 1) :=
        mul_le_mul_of_nonneg_left (by linarith) (by linarith)
      linarith)
    refine ⟨x, by rw [ex, Option.getD_some, truncK_nonneg x0], x0, by rw [Int.cast_natCast]; exact hx, ?_⟩
    have hm : scale * s / n ≤ scale * Mx := by
      rw [div_le_iff₀ hn0, mul_assoc]
      exact mul_le_mul_of_nonneg_left (by exact_mod_cast sM') hsc
    have he : scaledError u η (scale * s / n) ≤ scaledError u η (scale * Mx) := by
      unfold scaledError
      have := mul_le_mul_of_nonneg_left hm hu0
      linarith
    linarith [(abs_le.mp hx).2]
  obtain ⟨e1, e2⟩ := processR_fixed (ops := BlockMean.opsR rnd t scale useLocal down) (z := z) (st := st) ha.width ha.height hw ha.inValid.widthLt hreq
  rw [e1]
  obtain ⟨b, h', e, hp⟩ := C39_mean_partial (scaled := fun s n => (BlockMean.scaledR rnd scale s n).getD 0) (useLocal := useLocal) (down := down)
    (z := z) ht ha hnb h1 hw hh e2 (fun x y hx hy => (hf x y hx hy).1)
    (fun i j hi hj => le_trans (stat i j hi hj).1 hsum)
    (fun i j hi hj => by
      obtain ⟨x, ex, x0, -, hx⟩ := (stat i j hi hj).2
      rw [ex]
      refine ⟨Int.floor_nonneg.mpr x0, ?_⟩
      have : ⌊x⌋ < t.hi + 1 := by rw [Int.floor_lt]; push_cast; exact hx
      omega)
  refine ⟨b, h', _, e, fun i j hi hj => ?_, hp⟩
  obtain ⟨x, ex, x0, hx, -⟩ := (stat i j hi hj).2
  obtain ⟨q1, q2⟩ := abs_le.mp hx
  have f1 := Int.floor_le x
  have f2 := Int.lt_floor_add_one x
  rw [ex]
  refine ⟨Int.floor_nonneg.mpr x0, by linarith, by linarith⟩

/-- Scale 0.95 (as a `float`), blocks of up to 10000 pixels with 8 bits. -/
example : ∃ scale : ℚ, float32 (95 / 100) = some scale ∧ 0 ≤ scale ∧ ((255 * 10000 : Nat) : Int) ≤ U8.sumType.hi ∧
    4 * (scale + 1) * (((255 * 10000 : Nat) : ℚ) + 1) + 4 * (10000 : Nat) ≤ 2 ^ 127 ∧
    scale * (255 : Nat) + 1 / 2 + scaledError (1 / 2 ^ 24) (1 / 2 ^ 150) (scale * (255 : Nat)) < (U8.hi : ℚ) + 1 ∧
    Blocks.processR float64 (BlockMean.opsR (float32 : ℚ → Option ℚ) U8 scale false true) 0 (ConfigLength.fixed (2 : ℚ))
      ⟨2, 0, 0, 0, 1, 0, 0, false⟩ ⟨0, 10, 5, 2, 0, 5, false⟩ ⟨1, 10, 5, 2, 0, 5, false⟩
      (⟨[some [1,2,30,10,10, 3,4,10,10,20], some (List.replicate 10 9), some []]⟩ : Heap Int) =
      .ok ⟨⟨3, 2, 2, 1, 1, 0, 2, false⟩, 2, 2⟩
        ⟨[some [1,2,30,10,10, 3,4,10,10,20], some [1,1,0,1,1, 0,0,1,1,0], none, some [2,14]]⟩ :=
  ⟨15938355 / 2 ^ 24, by decide +kernel, by decide +kernel, by decide +kernel, by decide +kernel, by decide +kernel, by decide +kernel⟩

/-! ## Minimum and maximum -/

/-- Block min-max filter with rounding: the threshold `T` of a block is the scaled mid-value of the smallest and the largest pixel of the local
blocks, truncated.  For a mid-value that is not negative, comparing a pixel with `T` gives the same result as comparing it with the exact product,
unless they are closer than the rounding error of the product. -/
theorem C114_minmax (F : Format rnd) (R : Rounds rnd u η big) (hu : 2 * u ≤ 1) (hη : η ≤ 1) (hx : ExactTo rnd 65536) (hbig : 2 ^ 28 ≤ big)
    {t : IntTy} (ht : t = U8 ∨ t = U16 ∨ t = S16) {minimumSpread scale : K} (hsc : 0 ≤ scale) (hsc2 : scale ≤ 4096) {useLocal down : Bool}
    {z : Int} {config : ConfigLength K} {h : Heap Int} {st : Interleaved} {input output : Gray} {f : Nat → Nat → Int}
    (ha : BlockArgs h st input output f) (hnb : st.numBands = 2)
    {req : Nat} (h1 : 1 ≤ req) (hw : req ≤ input.width) (hh : req ≤ input.height)
    (hreq : config.computeIR rndD ((min input.width input.height : Nat) : K) h = .ok (req : Int) h)
    (hfr : ∀ x y, x < input.width → y < input.height → t.InRange (f x y))
    (hsize : Grid.count input.width req * Grid.count input.height req * 2 < 4294967296)
    (hspread : t.sumType.InRange (truncK minimumSpread)) :
    ∃ b h' S, ∃ mn mx T : Nat → Nat → Int,
      Blocks.processR rndD (BlockMinMax.opsR rnd t minimumSpread scale useLocal down) z config st input output h = .ok b h' ∧
      (∀ i j, i < Grid.count input.width req → j < Grid.count input.height req →
        IsRectMin f (localLo useLocal input.width req i) (localHi useLocal input.width req i)
          (localLo useLocal input.height req j) (localHi useLocal input.height req j) (mn i j) ∧
        IsRectMax f (localLo useLocal input.width req i) (localHi useLocal input.width req i)
          (localLo useLocal input.height req j) (localHi useLocal input.height req j) (mx i j) ∧
        |(T i j : K) - scale * ((mx i j + mn i j).tdiv 2 : Int)| < 1 + (u * |scale * ((mx i j + mn i j).tdiv 2 : Int)| + η) ∧
        (scale = 1 → T i j = (mx i j + mn i j).tdiv 2) ∧
        (0 ≤ (mx i j + mn i j).tdiv 2 → ∀ v : Int,
          u * |scale * ((mx i j + mn i j).tdiv 2 : Int)| + η < |(v : K) - scale * ((mx i j + mn i j).tdiv 2 : Int)| →
          (v ≤ T i j ↔ (v : K) ≤ scale * ((mx i j + mn i j).tdiv 2 : Int)))) ∧
      Filtered h h' st b.stats output (Grid.count input.width req) (Grid.count input.height req) S
        (fun x y =>
          let i := Grid.blockOf input.width req x
          let j := Grid.blockOf input.height req y
          if mx i j - mn i j ≤ truncK minimumSpread then 1
          else if down = decide (f x y ≤ T i j) then 1 else 0) := by
  have hu0 := R.rel
  have hη0 := R.abs
  have bound : ∀ m : Int, t.InRange m → -65536 ≤ m ∧ m ≤ 65536 ∧
      ((t.sumType = U32 ∧ 0 ≤ m) ∨ t.sumType = S32) := by
    intro m hm
    obtain ⟨m1, m2⟩ := hm
    rcases ht with rfl | rfl | rfl
    · have a1 : (0 : Int) ≤ m := m1
      have a2 : m ≤ (255 : Int) := m2
      exact ⟨by omega, by omega, Or.inl ⟨rfl, a1⟩⟩
    · have a1 : (0 : Int) ≤ m := m1
      have a2 : m ≤ (65535 : Int) := m2
      exact ⟨by omega, by omega, Or.inl ⟨rfl, a1⟩⟩
    · have a1 : (-32768 : Int) ≤ m := m1
      have a2 : m ≤ (32767 : Int) := m2
      exact ⟨by omega, by omega, Or.inr rfl⟩
  have fixed : ∀ m : Int, -65536 ≤ m → m ≤ 65536 → rnd (m : K) = some (m : K) := by
    intro m m1 m2
    rcases Int.le_total 0 m with c | c
    · obtain ⟨k, rfl⟩ := Int.eq_ofNat_of_zero_le c
      rw [Int.cast_natCast]; exact hx k (by omega)
    · obtain ⟨k, hk⟩ := Int.eq_ofNat_of_zero_le (show 0 ≤ -m by omega)
      have := F.neg _ _ (hx k (by omega))
      have e : (m : K) = -(k : K) := by
        have : m = -(k : Int) := by omega
        rw [this]; push_cast; ring
      rw [e]; exact this
  have mul : ∀ m : Int, -65536 ≤ m → m ≤ 65536 → ∃ p, BlockMinMax.scaleMulR rnd scale m = some p ∧ |p - scale * m| ≤ u * |scale * m| + η ∧
      |scale * m| ≤ 2 ^ 28 ∧ (0 ≤ m → 0 ≤ p) ∧ (scale = 1 → p = m) := by
    intro m m1 m2
    have hm : |(m : K)| ≤ 65536 := by
      rw [abs_le]; constructor
      · exact_mod_cast m1
      · exact_mod_cast m2
    have hb : |scale * m| ≤ 2 ^ 28 := by
      rw [abs_mul, abs_of_nonneg hsc]
      calc scale * |(m : K)| ≤ 4096 * 65536 := mul_le_mul hsc2 hm (abs_nonneg _) (by norm_num)
        _ = 2 ^ 28 := by norm_num
    obtain ⟨p, ep, hp⟩ := R.near (scale * m) (le_trans hb hbig)
    refine ⟨p, ?_, hp, hb, fun h0 => F.nonneg (mul_nonneg hsc (by exact_mod_cast h0)) ep, fun e => ?_⟩
    · unfold BlockMinMax.scaleMulR
      simp only [fixed m m1 m2, ep, Option.bind_eq_bind, Option.bind_some]
    · rw [e, one_mul, fixed m m1 m2] at ep
      cases ep; rfl
  have trunc : ∀ p : K, |((truncK p : Int) : K) - p| < 1 := by
    intro p
    unfold truncK
    split
    · rw [abs_lt]; constructor <;> linarith [Int.floor_le p, Int.lt_floor_add_one p]
    · rw [abs_lt]; constructor <;> linarith [Int.le_ceil p, Int.ceil_lt_add_one p]
  have hfix := processR_fixed (ops := BlockMinMax.opsR rnd t minimumSpread scale useLocal down) (z := z) (st := st) ha.width ha.height hw
    ha.inValid.widthLt hreq
  obtain ⟨e1, e2⟩ := hfix
  rw [e1]
  obtain ⟨b, h', S, mn, mx, e, hex, hp⟩ := C40_minmax_partial (scaleMul := fun m => (BlockMinMax.scaleMulR rnd scale m).getD 0) (useLocal := useLocal)
    (down := down) (z := z) ht ha hnb h1 hw hh e2 hfr hsize hspread (fun m hm => by
      obtain ⟨b1, b2, b4⟩ := bound m hm
      obtain ⟨p, ep, hp, hb, h0, -⟩ := mul m b1 b2
      simp only [ep, Option.getD_some]
      have hpb : |p| ≤ 2 ^ 30 := by
        have q : |p| ≤ |p - scale * m| + |scale * m| := by
          have := abs_add_le (p - scale * m) (scale * m)
          rwa [sub_add_cancel] at this
        have q2 : 2 * u * |scale * m| ≤ 1 * |scale * m| := mul_le_mul_of_nonneg_right hu (abs_nonneg _)
        generalize |scale * (m : K)| = w at *
        norm_num at hb ⊢
        linarith
      have ht1 := abs_lt.mp (trunc p)
      obtain ⟨p1, p2⟩ := abs_le.mp hpb
      have t1 : truncK p < 2147483647 := by
        have : ((truncK p : Int) : K) < ((2147483647 : Int) : K) := by push_cast; norm_num at p2; linarith
        exact_mod_cast this
      have t2 : -2147483647 < truncK p := by
        have : ((-2147483647 : Int) : K) < ((truncK p : Int) : K) := by push_cast; norm_num at p1; linarith
        exact_mod_cast this
      rcases b4 with ⟨b4, b5⟩ | b4
      · rw [b4]
        have t0 : 0 ≤ truncK p := by rw [truncK_nonneg (h0 b5)]; exact Int.floor_nonneg.mpr (h0 b5)
        exact ⟨t0, le_trans t1.le (by decide)⟩
      · rw [b4]
        exact ⟨le_trans (by decide : S32.lo ≤ -2147483647) t2.le, t1.le⟩)
  refine ⟨b, h', S, mn, mx, fun i j => truncK ((BlockMinMax.scaleMulR rnd scale ((mx i j + mn i j).tdiv 2)).getD 0), e, fun i j hi hj => ?_, hp⟩
  obtain ⟨q1, q2⟩ := hex i j hi hj
  refine ⟨q1, q2, ?_⟩
  have lx := (Grid.lo_le h1 hw (Grid.last_lt (u := useLocal) hi)).2
  have ly := (Grid.lo_le h1 hh (Grid.last_lt (u := useLocal) hj)).2
  have r1 := bound (mn i j) (by
    obtain ⟨-, x, y, hx0, hx1, hy0, hy1, e⟩ := q1
    rw [← e]; exact hfr x y (lt_of_lt_of_le hx1 lx) (lt_of_lt_of_le hy1 ly))
  have r2 := bound (mx i j) (by
    obtain ⟨-, x, y, hx0, hx1, hy0, hy1, e⟩ := q2
    rw [← e]; exact hfr x y (lt_of_lt_of_le hx1 lx) (lt_of_lt_of_le hy1 ly))
  beta_reduce
  generalize hm : (mx i j + mn i j).tdiv 2 = m
  have hm1 : -65536 ≤ m ∧ m ≤ 65536 := by
    rw [← hm]
    have := r1.1; have := r1.2.1; have := r2.1; have := r2.2.1
    rw [Int.tdiv_eq_ediv]
    split
    · omega
    · rw [show Int.sign 2 = 1 from rfl]
      omega
  obtain ⟨p, ep, hp', hb, h0, hone⟩ := mul m hm1.1 hm1.2
  simp only [ep, Option.getD_some]
  refine ⟨?_, fun e => ?_, fun hm0 v hv => ?_⟩
  · obtain ⟨a1, a2⟩ := abs_lt.mp (trunc p)
    obtain ⟨c1, c2⟩ := abs_le.mp hp'
    rw [abs_lt]; constructor <;> linarith
  · rw [hone e]
    unfold truncK
    split <;> simp
  · rw [truncK_nonneg (h0 hm0), Int.le_floor]
    obtain ⟨c1, c2⟩ := abs_le.mp hp'
    rcases lt_abs.mp hv with c | c
    · constructor <;> intro <;> linarith
    · constructor <;> intro <;> linarith

example : Blocks.processR float64 (BlockMinMax.opsR (float32 : ℚ → Option ℚ) U8 3 (1 / 2) false true) 0 (ConfigLength.fixed (2 : ℚ))
    ⟨2, 0, 0, 0, 2, 0, 0, false⟩ ⟨0, 10, 5, 2, 0, 5, false⟩ ⟨1, 10, 5, 2, 0, 5, false⟩
    (⟨[some [1,2,30,10,10, 3,4,10,10,20], some (List.replicate 10 9), some []]⟩ : Heap Int) =
    .ok ⟨⟨3, 4, 2, 1, 2, 0, 4, false⟩, 2, 2⟩
      ⟨[some [1,2,30,10,10, 3,4,10,10,20], some [1,1,0,1,1, 1,1,1,1,0], none, some [1,4,10,30]]⟩ := by decide +kernel

/-- Single precision meets the hypotheses about rounding. -/
example : 2 * (1 / 2 ^ 24 : ℚ) ≤ 1 ∧ (1 / 2 ^ 150 : ℚ) ≤ 1 ∧ ExactTo (float32 : ℚ → Option ℚ) 65536 ∧ (2 : ℚ) ^ 28 ≤ 2 ^ 127 :=
  ⟨by norm_num, by norm_num, fun i hi => float32_exact i (by omega), by norm_num⟩

/-! ## Otsu -/

/-- Block Otsu filter in double precision: for tuning up to 1, scale up to 4 and at most 2^20 pixels in the local blocks, the threshold of each
block is Otsu's threshold of the pixels in the local blocks up to the rounding errors stated in `NearTuned`. -/
theorem C114_otsu {otsu2 useLocal down : Bool} {tuning scale : K} (ht : |tuning| ≤ 1) (hs : 0 ≤ scale) (hs4 : scale ≤ 4)
    {z : Int} {config : ConfigLength K} {h : Heap Int} {st : Interleaved} {input output : Gray} {f : Nat → Nat → Int}
    (ha : BlockArgs h st input output f) (hnb : st.numBands = 256)
    {req : Nat} (h1 : 1 ≤ req) (hw : req ≤ input.width) (hh : req ≤ input.height)
    (hreq : config.computeIR float64 ((min input.width input.height : Nat) : K) h = .ok (req : Int) h)
    (hf : ∀ x y, x < input.width → y < input.height → 0 ≤ f x y ∧ f x y ≤ 255)
    (harea : input.width * input.height < 2147483648)
    (hsize : Grid.count input.width req * Grid.count input.height req * 256 < 4294967296)
    (hlocal : ∀ i j, i < Grid.count input.width req → j < Grid.count input.height req →
      (localHi useLocal input.width req i - localLo useLocal input.width req i) *
        (localHi useLocal input.height req j - localLo useLocal input.height req j) ≤ 1048576) :
    ∃ b h' S, ∃ th : Nat → Nat → Int,
      Blocks.processR float64 (BlockOtsu.opsR float64 (ComputeOtsu.mk otsu2 tuning down scale) useLocal) z config st input output h = .ok b h' ∧
      (∀ i j, i < Grid.count input.width req → j < Grid.count input.height req →
        NearTuned K otsu2 down tuning scale 256
          ((localHi useLocal input.width req i - localLo useLocal input.width req i) *
            (localHi useLocal input.height req j - localLo useLocal input.height req j))
          (fun k => rectCount f k (localLo useLocal input.width req i) (localHi useLocal input.width req i)
            (localLo useLocal input.height req j) (localHi useLocal input.height req j)) (th i j)) ∧
      Filtered h h' st b.stats output (Grid.count input.width req) (Grid.count input.height req) S
        (fun x y => if down = decide (f x y ≤ th (Grid.blockOf input.width req x) (Grid.blockOf input.height req y)) then 1 else 0) := by
  have key : ∀ (i j : Nat), i < Grid.count input.width req → j < Grid.count input.height req →
      ∃ r : Int, (∀ h : Heap Int, (ComputeOtsu.mk otsu2 tuning down scale).computeR float64 ⟨(List.range 256).map (fun k : Nat => rectCount f k
          (localLo useLocal input.width req i) (localHi useLocal input.width req i)
          (localLo useLocal input.height req j) (localHi useLocal input.height req j)), 256, 0, true⟩
        ((localHi useLocal input.width req i - localLo useLocal input.width req i) *
          (localHi useLocal input.height req j - localLo useLocal input.height req j)) h = .ok r h) ∧
        NearTuned K otsu2 down tuning scale 256
          ((localHi useLocal input.width req i - localLo useLocal input.width req i) *
            (localHi useLocal input.height req j - localLo useLocal input.height req j))
          (fun k => rectCount f k (localLo useLocal input.width req i) (localHi useLocal input.width req i)
          (localLo useLocal input.height req j) (localHi useLocal input.height req j)) r := by
    intro i j hi hj
    have hl := hlocal i j hi hj
    have nx := local_nonempty (u := useLocal) h1 hw hi
    have ny := local_nonempty (u := useLocal) h1 hh hj
    have lx := (Grid.lo_le h1 hw (Grid.last_lt (u := useLocal) hi)).2
    have ly := (Grid.lo_le h1 hh (Grid.last_lt (u := useLocal) hj)).2
    have ex : localHi useLocal input.width req i ≤ input.width := lx
    have ey : localHi useLocal input.height req j ≤ input.height := ly
    generalize localLo useLocal input.width req i = x0 at *
    generalize localHi useLocal input.width req i = x1 at *
    generalize localLo useLocal input.height req j = y0 at *
    generalize localHi useLocal input.height req j = y1 at *
    have hsum : sumN 256 (fun k : Nat => rectCount f k x0 x1 y0 y1) = (((x1 - x0) * (y1 - y0) : Nat) : Int) := by
      have := sumN_pixelCount (w := x1 - x0) (h := y1 - y0) (n := 256) (m := 0) (f := fun x y => f (x0 + x) (y0 + y))
        (fun x y hx hy => by have := hf (x0 + x) (y0 + y) (by omega) (by omega); omega)
      rw [← this]
      apply sumN_congr
      intro k _
      rw [Int.zero_add]; rfl
    have hget : ∀ k : Nat, k < 256 → ((List.range 256).map (fun k : Nat => rectCount f k x0 x1 y0 y1))[k]? =
        some (rectCount f k x0 x1 y0 y1) := fun k hk => range_map_get hk
    obtain ⟨t, raw, var, p, r, e, c1, c2, c3, c4, c5, c6, c7⟩ := C113_double (K := K) (V := Int)
      (a := ⟨(List.range 256).map (fun k : Nat => rectCount f k x0 x1 y0 y1), 256, 0, true⟩)
      (hist := fun k => rectCount f k x0 x1 y0 y1) hget (fun k _ => (rectCount_le f k x0 x1 y0 y1).1) (le_refl _) hsum
      (Nat.mul_pos (by omega) (by omega)) hl otsu2 down ht hs hs4 ⟨[]⟩
    exact ⟨r, fun g => (Steady.computeR float64 _ _ _).ok e g, t, raw, var, p, c1, c2, c3, c4, c5, c6, c7⟩
  classical
  let th : Nat → Nat → Int := fun i j =>
    if q : i < Grid.count input.width req ∧ j < Grid.count input.height req then (key i j q.1 q.2).choose else 0
  have he : ∀ i j (hi : i < Grid.count input.width req) (hj : j < Grid.count input.height req),
      th i j = (key i j hi hj).choose := fun i j hi hj => dif_pos (And.intro hi hj)
  obtain ⟨e1, e2⟩ := processR_fixed (ops := BlockOtsu.opsR float64 (ComputeOtsu.mk otsu2 tuning down scale) useLocal) (z := z) (st := st) ha.width
    ha.height hw ha.inValid.widthLt hreq
  rw [e1]
  obtain ⟨b, h', S, e, hp⟩ := C41_otsu_with (K := K) (compute := fun a T => (ComputeOtsu.mk otsu2 tuning down scale).computeR float64 a T) (down := down)
    (useLocal := useLocal) (z := z) (th := th) ha hnb h1 hw hh e2 hf
    harea hsize (fun i j h hi hj => by rw [he i j hi hj]; exact (key i j hi hj).choose_spec.1 h)
  exact ⟨b, h', S, th, e, fun i j hi hj => by rw [he i j hi hj]; exact (key i j hi hj).choose_spec.2, hp⟩

example : Blocks.processR float64 (BlockOtsu.opsR (float64 : ℚ → Option ℚ) (ComputeOtsu.mk false 0 true 1) false) 0 (ConfigLength.fixed (2 : ℚ))
    ⟨2, 0, 0, 0, 256, 0, 0, false⟩ ⟨0, 4, 2, 2, 0, 2, false⟩ ⟨1, 4, 2, 2, 0, 2, false⟩
    (⟨[some [10,20, 11,21], some [9,9,9,9], some []]⟩ : Heap Int) =
    .ok ⟨⟨3, 256, 1, 1, 256, 0, 256, false⟩, 2, 2⟩
      ⟨[some [10,20, 11,21], some [1,0,1,0], none, some ((List.range 256).map (fun k => if k ∈ [10,11,20,21] then 1 else 0))]⟩ ∧
    (localHi false 2 2 0 - localLo false 2 2 0) * (localHi false 2 2 0 - localLo false 2 2 0) ≤ 1048576 := by decide +kernel

end Boof
