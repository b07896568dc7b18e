import Verif.Props.Blocks
import Verif.Spec.SignedBlocks
import Verif.Proofs.Below
import Verif.Props.Tuned
/-
C39 for signed 16-bit images with negative pixels: what the block mean filter computes, and exactly when this is right.
C40 for texture limits which the sum type cannot hold: undefined for every image.
-/
namespace Boof
variable {K : Type} [Field K] [LinearOrder K] [IsStrictOrderedRing K] [FloorRing K]

theorem sumN_abs {n : Nat} {g : Nat → Int} {B : Int} (hg : ∀ k, k < n → -B ≤ g k ∧ g k ≤ B) :
    -(n * B) ≤ sumN n g ∧ sumN n g ≤ n * B := by
  induction n with
  | zero => simp [sumN]
  | succ n ih =>
    obtain ⟨a, b⟩ := ih (fun k hk => hg k (by omega))
    have := hg n (by omega)
    simp only [sumN, Nat.cast_add, Nat.cast_one, add_mul, one_mul]
    omega

/-- A double loop that adds up values of bounded magnitude, exact because no partial sum leaves the type. -/
theorem loop_sum_signed {t : IntTy} (hb : 0 < t.bits) {h : Heap Int} {n m : Nat} {g : Nat → Nat → Int} {B : Int} (hB : 0 ≤ B)
    {read : Nat → Nat → M Int Int} (hread : ∀ y k, y < n → k < m → read y k h = .ok (g k y) h)
    (h0 : ∀ y k, y < n → k < m → -B ≤ g k y ∧ g k y ≤ B) (hr : t.lo ≤ -((m * n : Nat) * B) ∧ (m * n : Nat) * B ≤ t.hi) :
    M.loopS n (0 : Int) (fun y s => M.loopS m s (fun k s => read y k >>= fun v => t.arith (s + v))) h =
      .ok (pixelSum m n g) h := by
  suffices Spec (M.loopS n (0 : Int) (fun y s => M.loopS m s (fun k s => read y k >>= fun v => t.arith (s + v)))) h
      (fun s h' => s = pixelSum m n g ∧ h' = h) by
    obtain ⟨_, _, e, rfl, rfl⟩ := this; exact e
  refine Spec.conseq (Spec.loopS (fun y s h' => s = sumN y (fun y' => sumN m (fun k => g k y')) ∧ h' = h) ⟨rfl, rfl⟩ ?_)
    (fun _ _ p => p)
  rintro y s h' hy ⟨rfl, rfl⟩
  refine Spec.conseq (Spec.loopS (fun k s h1 => s = sumN y (fun y' => sumN m (fun k => g k y')) +
    sumN k (fun k => g k y) ∧ h1 = h') ⟨by simp [sumN], rfl⟩ ?_) ?_
  · rintro k s h1 hk ⟨rfl, rfl⟩
    refine Spec.bind_eq (hread y k hy hk) ?_
    have e : sumN y (fun y' => sumN m (fun k => g k y')) + sumN k (fun k => g k y) + g k y =
        sumN y (fun y' => sumN m (fun k => g k y')) + sumN (k+1) (fun k => g k y) := by simp only [sumN]; omega
    have b1 := sumN_abs (n := k+1) (g := fun k => g k y) (B := B) (fun i hi => h0 y i hy (by omega))
    have b2 := sumN_abs (n := y) (g := fun y' => sumN m (fun k => g k y')) (B := m * B)
      (fun i hi => sumN_abs (fun k hk => h0 i k (by omega) hk))
    have b3 : (y : Int) * (m * B) + (k + 1 : Nat) * B ≤ (m * n : Nat) * B := by
      have : (y : Int) * m + (k + 1 : Nat) ≤ (m * n : Nat) := by
        have q : y * m + (k + 1) ≤ m * n := by
          have := Nat.mul_le_mul_right m (show y + 1 ≤ n from hy)
          rw [Nat.mul_comm m n]
          rw [Nat.add_mul, Nat.one_mul] at this
          omega
        exact_mod_cast q
      calc (y : Int) * (m * B) + (k + 1 : Nat) * B = ((y : Int) * m + (k + 1 : Nat)) * B := by ring
        _ ≤ _ := mul_le_mul_of_nonneg_right this hB
    rw [e]
    exact Spec.of_eq (IntTy.arith_run hb ⟨by omega, by omega⟩ _) ⟨rfl, rfl⟩
  · rintro _ _ ⟨rfl, rfl⟩
    exact ⟨rfl, rfl⟩

theorem mean_statsOk_signed {scaled : Int → Nat → K} {useLocal down : Bool}
    {st : Interleaved} (hnb : st.numBands = 1) {input : Gray} {f : Nat → Nat → Int} {req : Nat} (h1 : 1 ≤ req)
    (hw : req ≤ input.width) (hh : req ≤ input.height)
    (hf0 : ∀ x y, x < input.width → y < input.height → S16.InRange (f x y))
    (hsize : ∀ i j, i < Grid.count input.width req → j < Grid.count input.height req →
      (Grid.hi input.width req i - Grid.lo input.width req i) * (Grid.hi input.height req j - Grid.lo input.height req j) < 65536)
    (hstat : ∀ i j, i < Grid.count input.width req → j < Grid.count input.height req →
      S16.InRange (meanStat scaled input.width input.height req f i j)) :
    StatsOk (BlockMean.ops S16 scaled useLocal down) st input f req (fun _ => True)
      (fun i j _ => meanStat scaled input.width input.height req f i j) := by
  intro i j h hi hj hv hf hne idx hidx hcell
  obtain ⟨a1, a2⟩ := Grid.lo_le h1 hw hi
  obtain ⟨b1, b2⟩ := Grid.lo_le h1 hh hj
  have hs := hsize i j hi hj
  show Spec (BlockMean.blockStats S16 scaled st _ _ _ _ _ input) h _
  unfold BlockMean.blockStats
  refine Spec.bind_eq (loop_sum_signed (t := S16.sumType) (by decide) (B := 32768) (by omega)
    (g := fun x y => f (Grid.lo input.width req i + x) (Grid.lo input.height req j + y)) ?_ ?_ ?_) ?_
  · intro y k hy hk
    rw [(hv.addr_from (by omega) (by omega)).1]
    exact M.rd_run (hf _ _ (by omega) (by omega))
  · intro y k hy hk
    have := hf0 (Grid.lo input.width req i + k) (Grid.lo input.height req j + y) (by omega) (by omega)
    have e1 : S16.lo = -32768 := by decide
    have e2 : S16.hi = 32767 := by decide
    unfold IntTy.InRange at this
    constructor <;> omega
  · have e1 : S16.sumType.lo = -2147483648 := by decide
    have e2 : S16.sumType.hi = 2147483647 := by decide
    generalize (Grid.hi input.width req i - Grid.lo input.width req i) *
      (Grid.hi input.height req j - Grid.lo input.height req j) = a at *
    omega
  have harea : wrap32 ((Grid.hi input.width req i - Grid.lo input.width req i) *
      (Grid.hi input.height req j - Grid.lo input.height req j)) =
      (Grid.hi input.width req i - Grid.lo input.width req i) * (Grid.hi input.height req j - Grid.lo input.height req j) :=
    wrap32_of_lt (Nat.lt_of_le_of_lt (Nat.mul_le_mul (by omega) (by omega)) hv.area_lt)
  rw [harea]
  have htr := hstat i j hi hj
  have htr2 : S16.sumType.InRange (meanStat scaled input.width input.height req f i j) := by
    have e3 : S16.hi ≤ S16.sumType.hi := by decide
    have e4 : S16.sumType.lo ≤ S16.lo := by decide
    have := htr.1; have := htr.2
    exact ⟨by omega, by omega⟩
  refine Spec.bind_eq (a := meanStat scaled input.width input.height req f i j) (h' := h) ?_ ?_
  · exact toInt_ok htr2 h
  · rw [IntTy.cast_of_inRange (by decide) htr, hnb]
    obtain ⟨v, hv', _⟩ := hcell 0 (by omega)
    exact (CellsSet.refl h st.buf idx _).wr (Nat.le_refl _) ⟨v, hv'⟩ rfl

theorem divU32_wrapped (s : Int) {n : Nat} (hn : 0 < n) (h : Heap Int) :
    ∃ q, ImageStatistics.divU32 S16.sumType s n h = .ok q h ∧ S16.cast q = wrappedMean s n := by
  refine ⟨((toU32 s / n : Nat) : Int), ?_, ?_⟩
  · unfold ImageStatistics.divU32
    rw [if_neg (by omega), if_neg (by decide)]
    rfl
  · have e : ((toU32 s / n : Nat) : Int) = s % 4294967296 / n := by
      unfold toU32
      rw [Int.natCast_ediv, Int.toNat_of_nonneg (Int.emod_nonneg _ (by decide))]
      rfl
    rw [e]
    unfold wrappedMean IntTy.cast
    generalize s % 4294967296 / (n : Int) = q
    simp only [show S16.signed = true from rfl, true_and, show ((2 ^ S16.bits : Nat) : Int) = 65536 from by decide,
      show ((2 ^ (S16.bits - 1) : Nat) : Int) = 32768 from by decide]
    split <;> omega

theorem mean_threshOk_signed {scaled : Int → Nat → K} {u down : Bool}
    {b : Blocks} (hnb : b.stats.numBands = 1) {input output : Gray} {f : Nat → Nat → Int} {req : Nat} (h1 : 1 ≤ req)
    (hw : req ≤ input.width) (hh : req ≤ input.height) (ew : output.width = input.width) (eh : output.height = input.height)
    (ebw : b.blockWidth = Grid.size input.width req) (ebh : b.blockHeight = Grid.size input.height req)
    (esw : b.stats.width = Grid.count input.width req) (esh : b.stats.height = Grid.count input.height req)
    {S : Nat → Nat → Int}
    (hS : ∀ i j, i < Grid.count input.width req → j < Grid.count input.height req → S16.InRange (S i j)) :
    ThreshOk (BlockMean.ops S16 scaled u down) b input output f req (fun i j _ => S i j)
      (fun x y => b2i (down == decide (f x y ≤
        wrappedMean (aroundSum u input.width input.height req S (Grid.blockOf input.width req x) (Grid.blockOf input.height req y))
          (aroundCount u input.width input.height req (Grid.blockOf input.width req x) (Grid.blockOf input.height req y))))) := by
  intro i j h h1' h2 P hi hj hsv hss hov hr hp hP
  have hvi := hr.valid
  obtain ⟨a1, a2⟩ := Grid.lo_le h1 hw hi
  obtain ⟨b1, b2⟩ := Grid.lo_le h1 hh hj
  have li := Grid.last_lt (u := u) hi
  have lj := Grid.last_lt (u := u) hj
  have fi := Grid.first_le u i
  have fj := Grid.first_le u j
  have li2 := Grid.le_last (u := u) hi
  have lj2 := Grid.le_last (u := u) hj
  have ti := last_sub_first_le (u := u) (n := input.width) (req := req) (b := i)
  have tj := last_sub_first_le (u := u) (n := input.height) (req := req) (b := j)
  have hmean : ∀ q, q = wrappedMean (aroundSum u input.width input.height req S i j)
      (aroundCount u input.width input.height req i j) → q = wrappedMean (aroundSum u input.width input.height req S i j)
      (aroundCount u input.width input.height req i j) := fun _ e => e
  unfold aroundSum aroundCount rectSum at hmean
  show Spec (BlockMean.thresholdBlock S16 u down b i j input output) h2 _
  unfold BlockMean.thresholdBlock
  rw [esw, esh, ebw, ebh, bounds_eq h1 hw hvi.widthLt hi, bounds_eq h1 hh hvi.heightLt hj,
    localRange_eq hvi.widthLt hi, localRange_eq hvi.heightLt hj]
  simp only
  have hmean2 : wrappedMean (pixelSum (Grid.last u input.width req i + 1 - Grid.first u i)
      (Grid.last u input.height req j + 1 - Grid.first u j) (fun x y => S (Grid.first u i + x) (Grid.first u j + y)))
      ((Grid.last u input.width req i + 1 - Grid.first u i) * (Grid.last u input.height req j + 1 - Grid.first u j)) =
      wrappedMean (aroundSum u input.width input.height req S i j) (aroundCount u input.width input.height req i j) := rfl
  generalize hni : Grid.last u input.width req i + 1 - Grid.first u i = ni at *
  generalize hnj : Grid.last u input.height req j + 1 - Grid.first u j = nj at *
  have h9 : ni * nj ≤ 9 := Nat.le_trans (Nat.mul_le_mul ti tj) (by decide)
  have hpos : 0 < ni * nj := Nat.mul_pos (by omega) (by omega)
  refine Spec.bind_eq (loop_sum_signed (t := S16.sumType) (by decide) (B := 32768) (by omega)
    (g := fun x y => S (Grid.first u i + x) (Grid.first u j + y)) ?_ ?_ ?_) ?_
  · intro y k hy hk
    have hx' : Grid.first u i + k < b.stats.width := by omega
    have hy' : Grid.first u j + y < b.stats.height := by omega
    have e := hsv.index_eq hx' hy' (b := 0) (by omega)
    rw [e]
    exact M.rd_run (hss _ _ 0 hx' hy' (by omega))
  · intro y k hy hk
    have := hS (Grid.first u i + k) (Grid.first u j + y) (by omega) (by omega)
    have e1 : S16.lo = -32768 := by decide
    have e2 : S16.hi = 32767 := by decide
    unfold IntTy.InRange at this
    constructor <;> omega
  · have e1 : S16.sumType.lo = -2147483648 := by decide
    have e2 : S16.sumType.hi = 2147483647 := by decide
    generalize ni * nj = a at *
    omega
  have ew : wrap32 ((Grid.last u input.height req j - Grid.first u j + 1) * (Grid.last u input.width req i - Grid.first u i + 1)) =
      ni * nj := by
    rw [show Grid.last u input.height req j - Grid.first u j + 1 = nj by omega,
      show Grid.last u input.width req i - Grid.first u i + 1 = ni by omega, Nat.mul_comm, wrap32_of_lt (by unfold P32; omega)]
  rw [ew]
  obtain ⟨q, eq, hq⟩ := divU32_wrapped (pixelSum ni nj (fun x y => S (Grid.first u i + x) (Grid.first u j + y))) hpos h2
  refine Spec.bind_eq eq ?_
  rw [hq, hmean2]
  refine Spec.conseq (thresh_paint (dec := fun v => b2i (down == decide (v ≤ wrappedMean
      (aroundSum u input.width input.height req S i j) (aroundCount u input.width input.height req i j))))
    hov hr hp (by assumption) eh a2 b2 ?_ ?_ ?_) ?_
  · intro x y hx0 hx1 hy0 hy1
    exact hP x y ⟨⟨hx0, hx1⟩, ⟨hy0, hy1⟩⟩
  · intro x y hx0 hx1 hy0 hy1
    have e1 : i = Grid.blockOf input.width req x := (Grid.has_iff h1 hw (by omega) hi).mp ⟨hx0, hx1⟩
    have e2 : j = Grid.blockOf input.height req y := (Grid.has_iff h1 hh (by omega) hj).mp ⟨hy0, hy1⟩
    rw [← e1, ← e2]
  · intro y k h3 hy0 hy1 hk hrd
    rw [(hvi.addr_from (by omega) (by omega)).1, (hov.addr_from (by omega) (by omega)).1]
    exact M.bind_ok hrd
  · intro _ h3 hp3
    exact hp3.sel_iff (fun x y _ _ => by unfold InBlock Grid.Has; tauto)

/-- Block mean filter on signed 16-bit images with any pixels, blocks of less than 65536 pixels: `process` succeeds, and every
output pixel is decided by comparing the pixel with the quotient of the local sum of block statistics **modulo 2^32** and the
number of blocks, kept in 16 bits.  Nothing else changes but the filter's own statistics image. -/
theorem C39_mean_signed {scaled : Int → Nat → K} {useLocal down : Bool}
    {z : Int} {config : ConfigLength K} {h : Heap Int} {st : Interleaved} {input output : Gray} {f : Nat → Nat → Int}
    (ha : BlockArgs h st input output f) (hnb : st.numBands = 1)
    {req : Nat} (h1 : 1 ≤ req) (hw : req ≤ input.width) (hh : req ≤ input.height)
    (hreq : config.computeI ((min input.width input.height : Nat) : K) h = .ok (req : Int) h)
    (hf0 : ∀ x y, x < input.width → y < input.height → S16.InRange (f x y))
    (hsize : ∀ i j, i < Grid.count input.width req → j < Grid.count input.height req →
      (Grid.hi input.width req i - Grid.lo input.width req i) * (Grid.hi input.height req j - Grid.lo input.height req j) < 65536)
    (hstat : ∀ i j, i < Grid.count input.width req → j < Grid.count input.height req →
      S16.InRange (meanStat scaled input.width input.height req f i j)) :
    ∃ b h', Blocks.process (BlockMean.ops S16 scaled useLocal down) z config st input output h = .ok b h' ∧
      Filtered h h' st b.stats output (Grid.count input.width req) (Grid.count input.height req)
        (fun i j _ => meanStat scaled input.width input.height req f i j)
        (fun x y =>
          let i := Grid.blockOf input.width req x
          let j := Grid.blockOf input.height req y
          if down = decide (f x y ≤ wrappedMean
            (aroundSum useLocal input.width input.height req (meanStat scaled input.width input.height req f) i j)
            (aroundCount useLocal input.width input.height req i j)) then 1 else 0) := by
  rw [process_run ha.width ha.height hw ha.inValid.widthLt hreq]
  obtain ⟨b, h', e, hp, -, -⟩ := blocks_run (BlockMean.ops S16 scaled useLocal down) z (Ini := fun _ => True) ha.inValid ha.shows ha.outValid
    ha.apart ha.width ha.height ha.statsValid ha.statsOwner (by omega) ha.statsIn ha.statsOut h1 hw hh
    (by rw [hnb, Nat.mul_one]; exact count_area ha.inValid req) (fun st' h1 => init_id st' h1)
    (fun st' hn => mean_statsOk_signed (by omega) h1 hw hh hf0 hsize hstat)
    (fun st' hn q1 q2 q3 => mean_threshOk_signed (by simp only; omega) h1 hw hh ha.width ha.height rfl rfl q1 q2 hstat)
  refine ⟨b, h', e, { hp with pix := fun x y hx hy => ?_ }⟩
  rw [hp.pix x y hx hy]
  simp only [b2i, beq_iff_eq]

/-- An image of four negative and positive pixels with blocks of one pixel meets the hypotheses. -/
example : BlockArgs (⟨[some [-100, -1, 200, -32768], some [7,7,7,7], some []]⟩ : Heap Int) ⟨2, 0, 0, 0, 1, 0, 0, false⟩
      ⟨0, 4, 2, 2, 0, 2, false⟩ ⟨1, 4, 2, 2, 0, 2, false⟩ (fun x y => [-100, -1, 200, -32768].getD (y * 2 + x) 0) ∧
    (ConfigLength.fixed (1 : ℚ)).computeI ((min 2 2 : Nat) : ℚ)
      (⟨[some [-100, -1, 200, -32768], some [7,7,7,7], some []]⟩ : Heap Int) =
      .ok ((1 : Nat) : Int) ⟨[some [-100, -1, 200, -32768], some [7,7,7,7], some []]⟩ ∧
    (∀ x, x < 2 → ∀ y, y < 2 → S16.InRange ([-100, -1, 200, -32768].getD (y * 2 + x) 0)) ∧
    (∀ i, i < Grid.count 2 1 → ∀ j, j < Grid.count 2 1 →
      (Grid.hi 2 1 i - Grid.lo 2 1 i) * (Grid.hi 2 1 j - Grid.lo 2 1 j) < 65536) ∧
    ∀ i, i < Grid.count 2 1 → ∀ j, j < Grid.count 2 1 →
      S16.InRange (meanStat exactScaled 2 2 1 (fun x y => [-100, -1, 200, -32768].getD (y * 2 + x) 0) i j) := by
  refine ⟨⟨by decide, ?_, by decide, rfl, rfl, Or.inr ?_, ?_, rfl, by simp, by simp⟩, by decide +kernel, by decide +kernel,
    by decide +kernel, by decide +kernel⟩
  · intro x y hx hy
    have : (⟨0, 4, 2, 2, 0, 2, false⟩ : Gray).width = 2 := rfl
    have : (⟨0, 4, 2, 2, 0, 2, false⟩ : Gray).height = 2 := rfl
    have cx : x = 0 ∨ x = 1 := by omega
    have cy : y = 0 ∨ y = 1 := by omega
    rcases cx with rfl | rfl <;> rcases cy with rfl | rfl <;> rfl
  · intro x y x' y' _ _ _ _ e
    exact absurd e (by decide)
  · decide

/-- The number of blocks that determine a threshold is 1, 2, 3, 4, 6 or 9. -/
theorem aroundCount_mem {u : Bool} {w ht req i j : Nat} (hi : i < Grid.count w req) (hj : j < Grid.count ht req) :
    aroundCount u w ht req i j ∈ [1, 2, 3, 4, 6, 9] := by
  have ti := last_sub_first_le (u := u) (n := w) (req := req) (b := i)
  have tj := last_sub_first_le (u := u) (n := ht) (req := req) (b := j)
  have li2 := Grid.le_last (u := u) hi
  have lj2 := Grid.le_last (u := u) hj
  have fi := Grid.first_le u i
  have fj := Grid.first_le u j
  unfold aroundCount
  generalize hni : Grid.last u w req i + 1 - Grid.first u i = ni at *
  generalize hnj : Grid.last u ht req j + 1 - Grid.first u j = nj at *
  have ci : ni = 1 ∨ ni = 2 ∨ ni = 3 := by omega
  have cj : nj = 1 ∨ nj = 2 ∨ nj = 3 := by omega
  rcases ci with rfl | rfl | rfl <;> rcases cj with rfl | rfl | rfl <;> decide

theorem aroundSum_bounds {u : Bool} {w ht req i j : Nat} {S : Nat → Nat → Int} (hi : i < Grid.count w req) (hj : j < Grid.count ht req)
    (hS : ∀ i j, i < Grid.count w req → j < Grid.count ht req → S16.InRange (S i j)) :
    aroundCount u w ht req i j * (-32768) ≤ aroundSum u w ht req S i j ∧
    aroundSum u w ht req S i j ≤ aroundCount u w ht req i j * 32767 := by
  have li := Grid.last_lt (u := u) hi
  have lj := Grid.last_lt (u := u) hj
  have fi := Grid.first_le u i
  have fj := Grid.first_le u j
  exact ⟨le_pixelSum (fun x y hx hy => (hS _ _ (by omega) (by omega)).1), pixelSum_le (fun x y hx hy => (hS _ _ (by omega) (by omega)).2)⟩

/-- The value compared with is the mean of the local statistics, rounded down, exactly when the sum of the statistics is not
negative or the number of blocks is a power of two. -/
theorem C39_signed_iff {u : Bool} {w ht req i j : Nat} {S : Nat → Nat → Int} (hi : i < Grid.count w req)
    (hj : j < Grid.count ht req) (hS : ∀ i j, i < Grid.count w req → j < Grid.count ht req → S16.InRange (S i j)) :
    wrappedMean (aroundSum u w ht req S i j) (aroundCount u w ht req i j) = localMean u w ht req S i j ↔
      0 ≤ aroundSum u w ht req S i j ∨ aroundCount u w ht req i j ∈ [1, 2, 4] := by
  have hm := aroundCount_mem (u := u) hi hj
  obtain ⟨b1, b2⟩ := aroundSum_bounds (u := u) hi hj hS
  have e : localMean u w ht req S i j = aroundSum u w ht req S i j / (aroundCount u w ht req i j : Nat) := rfl
  rw [e]
  generalize aroundSum u w ht req S i j = s at *
  generalize aroundCount u w ht req i j = n at *
  unfold wrappedMean
  simp only [List.mem_cons, List.not_mem_nil, or_false] at hm ⊢
  by_cases h0 : 0 ≤ s
  · rw [show s % 4294967296 = s by rcases hm with rfl | rfl | rfl | rfl | rfl | rfl <;> push_cast at b2 <;> omega]
    refine iff_of_true ?_ (Or.inl h0)
    clear b1
    rcases hm with rfl | rfl | rfl | rfl | rfl | rfl <;> push_cast at * <;> omega
  · rw [show s % 4294967296 = s + 4294967296 by rcases hm with rfl | rfl | rfl | rfl | rfl | rfl <;> push_cast at b1 <;> omega]
    clear b2
    have key : ∀ (n : Int) (q r : Int), 0 < n → 4294967296 = r + q * n → (s + 4294967296) / n = (s + r) / n + q := by
      intro n q r hn e
      rw [e, ← add_assoc, Int.add_mul_ediv_right _ _ (by omega)]
    rcases hm with rfl | rfl | rfl | rfl | rfl | rfl
    · refine iff_of_true ?_ (by omega)
      push_cast at b1 ⊢
      rw [key 1 4294967296 0 (by decide) (by decide), add_zero]
      have g1 : -32768 ≤ s / 1 := by omega
      have g2 : s / 1 ≤ -1 := by omega
      generalize s / 1 = a at g1 g2
      omega
    · refine iff_of_true ?_ (by omega)
      push_cast at b1 ⊢
      rw [key 2 2147483648 0 (by decide) (by decide), add_zero]
      have g1 : -32768 ≤ s / 2 := by omega
      have g2 : s / 2 ≤ -1 := by omega
      generalize s / 2 = a at g1 g2
      omega
    · refine iff_of_false ?_ (by omega)
      push_cast at b1 ⊢
      rw [key 3 1431655765 1 (by decide) (by decide)]
      have g1 : -32768 ≤ s / 3 := by omega
      have g2 : s / 3 ≤ -1 := by omega
      have g3 : (s + 1) / 3 = s / 3 ∨ (s + 1) / 3 = s / 3 + 1 := by omega
      generalize (s + 1) / 3 = c at g3
      generalize s / 3 = a at g1 g2 g3
      omega
    · refine iff_of_true ?_ (by omega)
      push_cast at b1 ⊢
      rw [key 4 1073741824 0 (by decide) (by decide), add_zero]
      have g1 : -32768 ≤ s / 4 := by omega
      have g2 : s / 4 ≤ -1 := by omega
      generalize s / 4 = a at g1 g2
      omega
    · refine iff_of_false ?_ (by omega)
      push_cast at b1 ⊢
      rw [key 6 715827882 4 (by decide) (by decide)]
      have g1 : -32768 ≤ s / 6 := by omega
      have g2 : s / 6 ≤ -1 := by omega
      have g3 : (s + 4) / 6 = s / 6 ∨ (s + 4) / 6 = s / 6 + 1 := by omega
      generalize (s + 4) / 6 = c at g3
      generalize s / 6 = a at g1 g2 g3
      omega
    · refine iff_of_false ?_ (by omega)
      push_cast at b1 ⊢
      rw [key 9 477218588 4 (by decide) (by decide)]
      have g1 : -32768 ≤ s / 9 := by omega
      have g2 : s / 9 ≤ -1 := by omega
      have g3 : (s + 4) / 9 = s / 9 ∨ (s + 4) / 9 = s / 9 + 1 := by omega
      generalize (s + 4) / 9 = c at g3
      generalize s / 9 = a at g1 g2 g3
      omega

/-- Without local blocks, or with at most two blocks in each direction, the block mean filter treats negative pixels rightly. -/
theorem C39_signed_small {scaled : Int → Nat → K} {useLocal down : Bool}
    {z : Int} {config : ConfigLength K} {h : Heap Int} {st : Interleaved} {input output : Gray} {f : Nat → Nat → Int}
    (ha : BlockArgs h st input output f) (hnb : st.numBands = 1)
    {req : Nat} (h1 : 1 ≤ req) (hw : req ≤ input.width) (hh : req ≤ input.height)
    (hreq : config.computeI ((min input.width input.height : Nat) : K) h = .ok (req : Int) h)
    (hf0 : ∀ x y, x < input.width → y < input.height → S16.InRange (f x y))
    (hsize : ∀ i j, i < Grid.count input.width req → j < Grid.count input.height req →
      (Grid.hi input.width req i - Grid.lo input.width req i) * (Grid.hi input.height req j - Grid.lo input.height req j) < 65536)
    (hstat : ∀ i j, i < Grid.count input.width req → j < Grid.count input.height req →
      S16.InRange (meanStat scaled input.width input.height req f i j))
    (hsmall : useLocal = false ∨ (Grid.count input.width req ≤ 2 ∧ Grid.count input.height req ≤ 2)) :
    ∃ b h', Blocks.process (BlockMean.ops S16 scaled useLocal down) z config st input output h = .ok b h' ∧
      Filtered h h' st b.stats output (Grid.count input.width req) (Grid.count input.height req)
        (fun i j _ => meanStat scaled input.width input.height req f i j)
        (fun x y => if down = decide (f x y ≤ localMean useLocal input.width input.height req
            (meanStat scaled input.width input.height req f) (Grid.blockOf input.width req x)
            (Grid.blockOf input.height req y)) then 1 else 0) := by
  obtain ⟨b, h', e, hp⟩ := C39_mean_signed (useLocal := useLocal) (down := down) (z := z) ha hnb h1 hw hh hreq hf0 hsize hstat
  refine ⟨b, h', e, { hp with pix := fun x y hx hy => ?_ }⟩
  rw [hp.pix x y hx hy]
  have hi := (Grid.has_blockOf h1 hw (x := x) (by rw [← ha.width]; exact hx)).1
  have hj := (Grid.has_blockOf h1 hh (x := y) (by rw [← ha.height]; exact hy)).1
  simp only
  rw [(C39_signed_iff hi hj hstat).mpr (Or.inr ?_)]
  generalize Grid.blockOf input.width req x = i at *
  generalize Grid.blockOf input.height req y = j at *
  have ti : Grid.last useLocal input.width req i + 1 - Grid.first useLocal i ∈ [1, 2] := by
    unfold Grid.last Grid.first
    rcases hsmall with rfl | ⟨c1, c2⟩
    · simp
    · cases useLocal <;> (simp; try omega)
  have tj : Grid.last useLocal input.height req j + 1 - Grid.first useLocal j ∈ [1, 2] := by
    unfold Grid.last Grid.first
    rcases hsmall with rfl | ⟨c1, c2⟩
    · simp
    · cases useLocal <;> (simp; try omega)
  unfold aroundCount
  generalize Grid.last useLocal input.width req i + 1 - Grid.first useLocal i = a at *
  generalize Grid.last useLocal input.height req j + 1 - Grid.first useLocal j = c at *
  simp only [List.mem_cons, List.not_mem_nil, or_false] at ti tj
  rcases ti with rfl | rfl <;> rcases tj with rfl | rfl <;> decide

theorem process_below {ops ops' : BlockOps Int} (e1 : ops'.init = ops.init) (e2 : ops'.blockStats = ops.blockStats)
    (e3 : ∀ b i j a g, Below (ops.thresholdBlock b i j a g) (ops'.thresholdBlock b i j a g)) (z : Int) (config : ConfigLength K)
    (st : Interleaved) (input output : Gray) :
    Below (Blocks.process ops z config st input output) (Blocks.process ops' z config st input output) := by
  unfold Blocks.process Blocks.run Blocks.computeStatistics Blocks.applyThreshold
  rw [e1, e2]
  refine .bind (.refl _) (fun _ => .bind (.refl _) (fun _ => .ite (.refl _) (.bind (.refl _) (fun _ => .bind (.refl _) (fun _ =>
    .bind (.refl _) (fun _ => .bind (.refl _) (fun _ => .bind (.refl _) (fun _ => .bind ?_ (fun _ => .refl _)))))))))
  exact .loop (fun _ => .loop (fun _ => e3 _ _ _ _ _))

theorem loopS_not_ok {β : Type} {n : Nat} (hn : 0 < n) {init : β} {body : Nat → β → M Int β}
    (hb : ∀ s h s' h', body 0 s h ≠ .ok s' h') (h : Heap Int) : ∀ s' h', M.loopS n init body h ≠ .ok s' h' := by
  induction n with
  | zero => omega
  | succ n ih =>
    intro s' h' e
    obtain ⟨s, h1, e1, e2⟩ := M.bind_inv (m := M.loopS n init body) (f := fun s => body n s) e
    by_cases q : n = 0
    · subst q; exact hb _ _ _ _ e2
    · exact ih (by omega) _ _ e1

/-- A texture limit which the sum type of the pixels cannot hold, in particular the documented `-1` for "off" with unsigned pixels,
makes the block min-max filter undefined for every image. -/
theorem C40_texture_undefined {t : IntTy} (ht : t = U8 ∨ t = U16 ∨ t = S16) {minimumSpread : K} {scaleMul : Int → K} {useLocal down : Bool}
    {z : Int} {config : ConfigLength K} {h : Heap Int} {st : Interleaved} {input output : Gray} {f : Nat → Nat → Int}
    (ha : BlockArgs h st input output f) (hnb : st.numBands = 2)
    {req : Nat} (h1 : 1 ≤ req) (hw : req ≤ input.width) (hh : req ≤ input.height)
    (hreq : config.computeI ((min input.width input.height : Nat) : K) h = .ok (req : Int) h)
    (hfr : ∀ x y, x < input.width → y < input.height → t.InRange (f x y))
    (hsize : Grid.count input.width req * Grid.count input.height req * 2 < 4294967296)
    (hspread : ¬t.sumType.InRange (truncK minimumSpread)) :
    Blocks.process (BlockMinMax.ops t minimumSpread scaleMul useLocal down) z config st input output h = .ub := by
  have hub : ∀ h, (M.toInt t.sumType minimumSpread : M Int Int) h = .ub := fun h => by
    unfold M.toInt; rw [if_neg hspread]; rfl
  have h00 : truncK (0 : K) = 0 := by unfold truncK; simp
  obtain ⟨b, h', S, mn, mx, e, -, hF⟩ := C40_minmax_partial ht (minimumSpread := (0 : K)) (scaleMul := fun _ => 0) (useLocal := useLocal)
    (down := down) (z := z) ha hnb h1 hw hh hreq hfr hsize (by rw [h00]; exact IntTy.inRange_zero)
    (fun m _ => by rw [h00]; exact IntTy.inRange_zero)
  have hbel := process_below (K := K) (ops := BlockMinMax.ops t minimumSpread scaleMul useLocal down)
    (ops' := BlockMinMax.ops t (0 : K) (fun _ => 0) useLocal down) rfl rfl (fun b i j a g => by
      show Below (BlockMinMax.thresholdBlock t minimumSpread scaleMul useLocal down b i j a g)
        (BlockMinMax.thresholdBlock t (0 : K) (fun _ => 0) useLocal down b i j a g)
      unfold BlockMinMax.thresholdBlock
      exact .of_ub (fun _ h => M.bind_ub (hub h))) z config st input output h
  rcases hbel with q | q
  · exact q
  rw [e] at q
  exfalso
  have hcw := Grid.count_pos h1 hw
  have hch := Grid.count_pos h1 hh
  unfold Blocks.process at q
  obtain ⟨_, _, -, q⟩ := M.bind_inv q
  obtain ⟨r, _, -, q⟩ := M.bind_inv q
  unfold Blocks.run at q
  split at q
  · exact absurd q (by intro c; cases c)
  obtain ⟨bs, _, -, q⟩ := M.bind_inv q
  obtain ⟨sw, _, -, q⟩ := M.bind_inv q
  obtain ⟨sh, _, -, q⟩ := M.bind_inv q
  obtain ⟨st1, _, -, q⟩ := M.bind_inv q
  obtain ⟨_, _, -, q⟩ := M.bind_inv q
  obtain ⟨_, h9, qa, q⟩ := M.bind_inv q
  have eb : b.stats = st1 := by cases q; rfl
  obtain ⟨-, -, ew, eh, -⟩ := hF.stats
  rw [eb] at ew eh
  unfold Blocks.applyThreshold at qa
  refine loopS_not_ok (by rw [eh]; exact hch) (fun s h2 s' h3 => ?_) _ _ _ qa
  refine loopS_not_ok (by rw [ew]; exact hcw) (fun s h2 s' h3 q3 => ?_) _ _ _
  change BlockMinMax.thresholdBlock t minimumSpread scaleMul useLocal down _ _ _ input output h2 = _ at q3
  unfold BlockMinMax.thresholdBlock at q3
  obtain ⟨mm, h4, -, q3⟩ := M.bind_inv q3
  rw [M.bind_ub (hub h4)] at q3
  cases q3

end Boof
