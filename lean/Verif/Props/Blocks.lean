import Verif.Proofs.BlockOtsu
import Verif.Props.MiscOps
/-
C37-C41: the block threshold filters.
-/
namespace Boof
open OtsuSpec
variable {V : Type} {K : Type} [Field K] [LinearOrder K] [IsStrictOrderedRing K] [FloorRing K]

/-! ## C37 the blocks partition the image -/

/-- Along an axis of `n` pixels with requested size `req`: every pixel is in exactly one of the `count` blocks, blocks
are consecutive intervals inside the image and none is smaller than requested. -/
theorem C37_partition {n req : Nat} (h1 : 1 ≤ req) (h2 : req ≤ n) :
    1 ≤ Grid.count n req ∧
    (∀ x, x < n → ∃ b, (b < Grid.count n req ∧ Grid.Has n req b x) ∧
      ∀ b', b' < Grid.count n req → Grid.Has n req b' x → b' = b) ∧
    (∀ b, b < Grid.count n req → Grid.lo n req b + req ≤ Grid.hi n req b ∧ Grid.hi n req b ≤ n) ∧
    (∀ b, b + 1 < Grid.count n req → Grid.hi n req b = Grid.lo n req (b+1)) := by
  refine ⟨Grid.count_pos h1 h2, fun x hx => ?_, fun b hb => ?_, fun b hb => Grid.hi_eq hb⟩
  · obtain ⟨p, q⟩ := Grid.has_blockOf h1 h2 hx
    exact ⟨_, ⟨p, q⟩, fun b' hb' hq => Grid.has_unique h1 h2 hb' p hq q⟩
  · obtain ⟨p, q⟩ := Grid.lo_le h1 h2 hb
    have := Grid.le_size h1 h2
    exact ⟨by omega, q⟩

example : Grid.count 17 5 = 3 ∧ Grid.size 17 5 = 5 ∧ Grid.hi 17 5 2 = 17 ∧ Grid.lo 17 5 2 = 10 := by decide

/-- For every block function: what `process` does with an image at least as large as the requested size is, after the
statistics image got one pixel per block, to compute the statistics of every block once from exactly the rectangle of the
block, and then to threshold every block once.  The heap effects are those of the block functions, called in that order. -/
theorem C37_process (ops : BlockOps V) (z : V) (st : Interleaved) {req : Nat} {input : Gray} (output : Gray)
    (h1 : 1 ≤ req) (hw : req ≤ input.width) (hh : req ≤ input.height) (hwl : input.width < P32) (hhl : input.height < P32)
    (h : Heap V) {st' : Interleaved} {h' : Heap V}
    (hst : st.reshape z (Grid.count input.width req) (Grid.count input.height req) h = .ok st' h')
    (hl : Grid.count input.width req * Grid.count input.height req * st'.numBands < P32) :
    let b : Blocks := ⟨st', Grid.size input.width req, Grid.size input.height req⟩
    Blocks.run ops z st req input output h =
      (do ops.init st'
          M.loop (Grid.count input.height req) (fun j => M.loop (Grid.count input.width req) (fun i =>
            ops.blockStats st' (Grid.lo input.width req i) (Grid.lo input.height req j)
              (Grid.hi input.width req i - Grid.lo input.width req i)
              (Grid.hi input.height req j - Grid.lo input.height req j)
              ((j * Grid.count input.width req + i) * st'.numBands) input))
          M.loop st'.height (fun j => M.loop st'.width (fun i => ops.thresholdBlock b i j input output))
          pure b) h' := by
  intro b
  have hcw := Grid.count_pos h1 hw
  have hch := Grid.count_pos h1 hh
  have hsw := Grid.le_size h1 hw
  have hsh := Grid.le_size h1 hh
  unfold Blocks.run
  rw [if_neg (by omega)]
  have hsel : Blocks.selectBlockSize (V := V) input.width input.height req h =
      .ok (Grid.size input.width req, Grid.size input.height req) h := by
    unfold Blocks.selectBlockSize Blocks.divM
    have e1 : ¬req = 0 := by omega
    have e2 : ¬input.height / req = 0 := by have : 1 ≤ input.height / req := hch; omega
    have e3 : ¬input.width / req = 0 := by have : 1 ≤ input.width / req := hcw; omega
    rw [if_neg e1, if_neg e1]
    refine (M.bind_ok (M.pure_run _ _)).trans ?_
    refine (M.bind_ok (M.pure_run _ _)).trans ?_
    rw [if_neg e2, if_neg e3]
    rfl
  refine (M.bind_ok hsel).trans ?_
  have hdw : Blocks.divM (V := V) input.width (Grid.size input.width req) h = .ok (Grid.count input.width req) h := by
    unfold Blocks.divM
    rw [if_neg (by omega), Grid.div_size h1 hw]; rfl
  have hdh : Blocks.divM (V := V) input.height (Grid.size input.height req) h = .ok (Grid.count input.height req) h := by
    unfold Blocks.divM
    rw [if_neg (by omega), Grid.div_size h1 hh]; rfl
  refine (M.bind_ok hdw).trans ((M.bind_ok hdh).trans ((M.bind_ok hst).trans ?_))
  simp only
  rw [computeStatistics_eq ops (b := ⟨st', Grid.size input.width req, Grid.size input.height req⟩) h1 hw hh hwl
    hhl rfl rfl hl rfl rfl, M.bind_assoc']
  rfl

/-! ## C38 errors -/

/-- Different shapes: exception, heap untouched. -/
theorem C38_shape (ops : BlockOps V) (z : V) (config : ConfigLength K) (st : Interleaved) (input output : Gray)
    (hne : input.width ≠ output.width ∨ input.height ≠ output.height) (h : Heap V) :
    Blocks.process ops z config st input output h = .throw h := by
  unfold Blocks.process checkSameShape2
  rw [if_pos hne]; rfl

/-- The requested size (as rounded by the configuration) does not fit into the image, or is negative: exception, heap
untouched. -/
theorem C38_tooLarge (ops : BlockOps V) (z : V) (config : ConfigLength K) (st : Interleaved) {input output : Gray}
    (hw : input.width = output.width) (hh : input.height = output.height) {h : Heap V} (hv : input.Valid h) {r : Int}
    (hr : config.computeI ((min input.width input.height : Nat) : K) h = .ok r h) (hrange : S32.InRange r)
    (hbad : r < 0 ∨ r > input.width ∨ r > input.height) :
    Blocks.process ops z config st input output h = .throw h := by
  unfold Blocks.process checkSameShape2
  rw [if_neg (by omega)]
  refine (M.bind_ok (M.pure_run _ _)).trans ((M.bind_ok hr).trans ?_)
  unfold Blocks.run
  have ha := hv.area_lt
  have r1 : (-2147483648 : Int) ≤ r := hrange.1
  have r2 : r ≤ (2147483647 : Int) := hrange.2
  rw [if_pos]
  · rfl
  · by_cases hneg : r < 0
    · have e : toU32 r = (r + 4294967296).toNat := by
        unfold toU32 P32
        congr 1
        rw [← Int.add_emod_right]
        exact Int.emod_eq_of_lt (by omega) (by omega)
      rw [e]
      by_contra hno
      have q1 : 2147483648 ≤ input.width := by omega
      have q2 : 2147483648 ≤ input.height := by omega
      have := Nat.mul_le_mul q1 q2
      unfold P32 at ha
      omega
    · rw [toU32_of_nonneg (by omega) (by unfold P32; omega)]
      omega

example : ConfigLength.computeI (ConfigLength.fixed (9 : ℚ)) 4 (⟨[]⟩ : Heap Int) = .ok 9 ⟨[]⟩ := by decide +kernel

/-- A requested size that rounds to 0 passes the check; the code then divides by zero. -/
theorem C38_zero (ops : BlockOps V) (z : V) (config : ConfigLength K) (st : Interleaved) {input output : Gray}
    (hw : input.width = output.width) (hh : input.height = output.height) {h : Heap V}
    (hr : config.computeI ((min input.width input.height : Nat) : K) h = .ok 0 h) :
    Blocks.process ops z config st input output h = .ub := by
  unfold Blocks.process checkSameShape2
  rw [if_neg (by omega)]
  refine (M.bind_ok (M.pure_run _ _)).trans ((M.bind_ok hr).trans ?_)
  unfold Blocks.run
  rw [if_neg (by unfold toU32; simp)]
  rfl

example : ConfigLength.computeI (ConfigLength.fixed (1/4 : ℚ)) 4 (⟨[]⟩ : Heap Int) = .ok 0 ⟨[]⟩ := by decide +kernel

/-- From `process` to `run`. -/
theorem process_run {ops : BlockOps V} {z : V} {config : ConfigLength K} {st : Interleaved} {input output : Gray} {h : Heap V}
    (hw : output.width = input.width) (hh : output.height = input.height) {req : Nat} (hlt : req ≤ input.width)
    (hwl : input.width < P32)
    (hr : config.computeI ((min input.width input.height : Nat) : K) h = .ok (req : Int) h) :
    Blocks.process ops z config st input output h = Blocks.run ops z st req input output h := by
  unfold Blocks.process checkSameShape2
  rw [if_neg (by omega)]
  refine (M.bind_ok (M.pure_run _ _)).trans ((M.bind_ok hr).trans ?_)
  rw [toU32_of_nonneg (by omega) (by omega)]
  rfl

theorem count_area {h : Heap V} {g : Gray} (hv : g.Valid h) (req : Nat) :
    Grid.count g.width req * Grid.count g.height req < P32 :=
  Nat.lt_of_le_of_lt (Nat.mul_le_mul (Nat.div_le_self _ _) (Nat.div_le_self _ _)) hv.area_lt

theorem init_id (st' : Interleaved) (h1 : Heap V) (hv : st'.Valid h1) (ho : st'.subimage = false) :
    Spec (pure () : M V Unit) h1 (fun _ h2 =>
      (∀ b' i, b' ≠ st'.buf → h2.cell b' i = h1.cell b' i) ∧ (∀ b', (h2.get b').isSome = (h1.get b').isSome) ∧
      h2.next = h1.next ∧
      (∀ i, i < st'.width * st'.height * st'.numBands → ∃ v, h2.cell st'.buf i = some v ∧ True) ∧
      ∀ i, i < st'.dataLength → ∃ v, h2.cell st'.buf i = some v) := by
  refine Spec.pure ⟨fun _ _ _ => rfl, fun _ => rfl, rfl, fun i hi => ?_, hv.cells⟩
  have hle := hv.flat.area_le
  have e : st'.flat.width * st'.flat.height = st'.width * st'.height * st'.numBands := by
    show st'.width * st'.numBands * st'.height = _
    ring
  obtain ⟨v, hv'⟩ := hv.cells i (by
    have : st'.flat.dataLength = st'.dataLength := rfl
    omega)
  exact ⟨v, hv', trivial⟩

/-! ## C39 block mean -/

/-- Block mean filter on images without negative pixels: `process` succeeds, every output pixel is decided by comparing
the pixel with the average of the local block statistics, and nothing else changes but the filter's own statistics image.
`scaled s n` stands for the floating point value `scale*s/n + 0.5`, whatever its rounding; it only has to give statistics
that the pixel type can hold.  Missing for the full property: signed images with negative pixels, for which it is false
(`C39_negative_refuted`). -/
theorem C39_mean_partial {t : IntTy} (ht : t = U8 ∨ t = U16 ∨ t = S16) {scaled : Int → Nat → K} {useLocal down : Bool}
    {z : Int} {config : ConfigLength K} {h : Heap Int} {st : Interleaved} {input output : Gray} {f : Nat → Nat → Int}
    (ha : BlockArgs h st input output f) (hnb : st.numBands = 1)
    {req : Nat} (h1 : 1 ≤ req) (hw : req ≤ input.width) (hh : req ≤ input.height)
    (hreq : config.computeI ((min input.width input.height : Nat) : K) h = .ok (req : Int) h)
    (hf0 : ∀ x y, x < input.width → y < input.height → 0 ≤ f x y)
    (hsum : ∀ i j, i < Grid.count input.width req → j < Grid.count input.height req →
      rectSum f (Grid.lo input.width req i) (Grid.hi input.width req i) (Grid.lo input.height req j)
        (Grid.hi input.height req j) ≤ t.sumType.hi)
    (hstat : ∀ i j, i < Grid.count input.width req → j < Grid.count input.height req →
      0 ≤ meanStat scaled input.width input.height req f i j ∧
      meanStat scaled input.width input.height req f i j ≤ t.hi) :
    ∃ b h', Blocks.process (BlockMean.ops t scaled useLocal down) z config st input output h = .ok b h' ∧
      Filtered h h' st b.stats output (Grid.count input.width req) (Grid.count input.height req)
        (fun i j _ => meanStat scaled input.width input.height req f i j)
        (fun x y => if down = decide (f x y ≤ localMean useLocal input.width input.height req
            (meanStat scaled input.width input.height req f) (Grid.blockOf input.width req x)
            (Grid.blockOf input.height req y)) then 1 else 0) := by
  rw [process_run ha.width ha.height hw ha.inValid.widthLt hreq]
  obtain ⟨b, h', e, hp, -, -⟩ := blocks_run (BlockMean.ops t scaled useLocal down) z (Ini := fun _ => True) ha.inValid ha.shows ha.outValid
    ha.apart ha.width ha.height ha.statsValid ha.statsOwner (by omega) ha.statsIn ha.statsOut h1 hw hh
    (by rw [hnb, Nat.mul_one]; exact count_area ha.inValid req) (fun st' h1 => init_id st' h1)
    (fun st' hn => mean_statsOk ht (by omega) h1 hw hh hf0 hsum hstat)
    (fun st' hn q1 q2 q3 => mean_threshOk ht (by simp only; omega) h1 hw hh ha.width ha.height rfl rfl q1 q2 hstat)
  refine ⟨b, h', e, { hp with pix := fun x y hx hy => ?_ }⟩
  rw [hp.pix x y hx hy]
  simp only [b2i, beq_iff_eq]

/-- Images with the two directions of the filter are complementary (same arguments otherwise). -/
theorem C39_complementary (t : IntTy) (ht : t = U8 ∨ t = U16 ∨ t = S16) {scaled : Int → Nat → K} {useLocal : Bool}
    {z : Int} {config : ConfigLength K} {h : Heap Int} {st : Interleaved} {input output : Gray} {f : Nat → Nat → Int}
    (ha : BlockArgs h st input output f) (hnb : st.numBands = 1)
    {req : Nat} (h1 : 1 ≤ req) (hw : req ≤ input.width) (hh : req ≤ input.height)
    (hreq : config.computeI ((min input.width input.height : Nat) : K) h = .ok (req : Int) h)
    (hf0 : ∀ x y, x < input.width → y < input.height → 0 ≤ f x y)
    (hsum : ∀ i j, i < Grid.count input.width req → j < Grid.count input.height req →
      rectSum f (Grid.lo input.width req i) (Grid.hi input.width req i) (Grid.lo input.height req j)
        (Grid.hi input.height req j) ≤ t.sumType.hi)
    (hstat : ∀ i j, i < Grid.count input.width req → j < Grid.count input.height req →
      0 ≤ meanStat scaled input.width input.height req f i j ∧
      meanStat scaled input.width input.height req f i j ≤ t.hi) :
    ∃ b h' b2 h2, Blocks.process (BlockMean.ops t scaled useLocal true) z config st input output h = .ok b h' ∧
      Blocks.process (BlockMean.ops t scaled useLocal false) z config st input output h = .ok b2 h2 ∧
      ∀ x y, x < output.width → y < output.height →
        (h'.px output x y = some 1 ∧ h2.px output x y = some 0) ∨ (h'.px output x y = some 0 ∧ h2.px output x y = some 1) := by
  obtain ⟨b, h', e, p⟩ := C39_mean_partial (down := true) (useLocal := useLocal) (z := z) ht ha hnb h1 hw hh hreq hf0 hsum hstat
  obtain ⟨b2, h2, e2, p2⟩ := C39_mean_partial (down := false) (useLocal := useLocal) (z := z) ht ha hnb h1 hw hh hreq hf0 hsum hstat
  refine ⟨b, h', b2, h2, e, e2, fun x y hx hy => ?_⟩
  rw [p.pix x y hx hy, p2.pix x y hx hy]
  simp only [Bool.true_eq, Bool.false_eq, decide_eq_true_eq, decide_eq_false_iff_not]
  by_cases q : f x y ≤ localMean useLocal input.width input.height req (meanStat scaled input.width input.height req f)
      (Grid.blockOf input.width req x) (Grid.blockOf input.height req y)
  · left; rw [if_pos q, if_neg (not_not.mpr q)]; exact ⟨rfl, rfl⟩
  · right; rw [if_neg q, if_pos q]; exact ⟨rfl, rfl⟩

/-- `scale*s/n + 0.5` with exact arithmetic and scale 1. -/
def exactScaled (s : Int) (n : Nat) : ℚ := s / n + 1/2

/-- A 5x2 image and a fresh statistics image with 1, 2 or 256 bands meet the hypotheses of this and the following
theorems. -/
example : ∀ nb, nb < P32 → BlockArgs
    (⟨[some [1,2,30,10,10, 3,4,10,10,20], some (List.replicate 10 9), some []]⟩ : Heap Int)
    ⟨2, 0, 0, 0, nb, 0, 0, false⟩ ⟨0, 10, 5, 2, 0, 5, false⟩ ⟨1, 10, 5, 2, 0, 5, false⟩
    (fun x y => [1,2,30,10,10, 3,4,10,10,20].getD (y * 5 + x) 0) ∧
    (ConfigLength.fixed (2 : ℚ)).computeI ((min 5 2 : Nat) : ℚ)
      (⟨[some [1,2,30,10,10, 3,4,10,10,20], some (List.replicate 10 9), some []]⟩ : Heap Int) =
      .ok ((2 : Nat) : Int) ⟨[some [1,2,30,10,10, 3,4,10,10,20], some (List.replicate 10 9), some []]⟩ ∧
    ∀ i, i < Grid.count 5 2 → ∀ j, j < Grid.count 2 2 →
      meanStat exactScaled 5 2 2 (fun x y => [1,2,30,10,10, 3,4,10,10,20].getD (y * 5 + x) 0) i j ≤ U8.hi := by
  intro nb hnb
  refine ⟨⟨by decide, ?_, by decide, rfl, rfl, Or.inr ?_, ?_, rfl, by simp, by simp⟩, by decide +kernel, by decide +kernel⟩
  · have : ∀ x, x < 5 → ∀ y, y < 2 → Heap.px (⟨[some [1,2,30,10,10, 3,4,10,10,20], some (List.replicate 10 9), some []]⟩ : Heap Int)
        ⟨0, 10, 5, 2, 0, 5, false⟩ x y = some ([1,2,30,10,10, 3,4,10,10,20].getD (y * 5 + x) 0) := by decide
    exact fun x y hx hy => this x hx y hy
  · intro _ _ _ _ _ _ _ _ e
    exact absurd e (by decide)
  · exact ⟨rfl, fun i hi => absurd hi (Nat.not_lt_zero i), by simp [P32], by simp [P32], by simp [P32], hnb, by simp [P32],
      by simp, fun y hy => absurd hy (Nat.not_lt_zero y), fun _ => ⟨rfl, by simp⟩⟩

/-- A 5x2 image with blocks of 2: the last block is 3 wide. -/
example : Blocks.process (BlockMean.ops U8 exactScaled false true) 0 (ConfigLength.fixed (2 : ℚ))
    ⟨2, 0, 0, 0, 1, 0, 0, false⟩ ⟨0, 10, 5, 2, 0, 5, false⟩ ⟨1, 10, 5, 2, 0, 5, false⟩
    (⟨[some [1,2,30,10,10, 3,4,10,10,20], some (List.replicate 10 9), some []]⟩ : Heap Int) =
    .ok ⟨⟨3, 2, 2, 1, 1, 0, 2, false⟩, 2, 2⟩
      ⟨[some [1,2,30,10,10, 3,4,10,10,20], some [1,1,0,1,1, 1,0,1,1,0], none, some [3,15]]⟩ := by decide +kernel

/-- With negative pixels the mean of the local blocks is computed with an unsigned division.  Three pixels -100, -1, -100
with blocks of one pixel: the local mean is -66, yet the middle pixel -1 counts as "at most the mean". -/
theorem C39_negative_refuted :
    let st : Interleaved := ⟨2, 0, 0, 0, 1, 0, 0, false⟩
    let input : Gray := ⟨0, 3, 3, 1, 0, 3, false⟩
    let output : Gray := ⟨1, 3, 3, 1, 0, 3, false⟩
    let f : Nat → Nat → Int := fun x _ => if x = 1 then -1 else -100
    Blocks.process (BlockMean.ops S16 exactScaled true true) 0 (ConfigLength.fixed (1 : ℚ)) st input output
      (⟨[some [-100, -1, -100], some [7,7,7], some []]⟩ : Heap Int) =
      .ok ⟨⟨3, 3, 3, 1, 1, 0, 3, false⟩, 1, 1⟩ ⟨[some [-100, -1, -100], some [1,1,1], none, some [-99, 0, -99]]⟩ ∧
    localMean true 3 1 1 (meanStat exactScaled 3 1 1 f) 1 0 = -66 := by decide +kernel

/-! ## C40 block min-max -/

/-- Extremes exist. -/
theorem extremes_exist {w ht req : Nat} (h1 : 1 ≤ req) (hw : req ≤ w) (hh : req ≤ ht) (f : Nat → Nat → Int) :
    ∃ mn mx, Extremes w ht req f mn mx := by
  classical
  have key : ∀ (i j : Nat), i < Grid.count w req → j < Grid.count ht req →
      (∃ m, IsRectMin f (Grid.lo w req i) (Grid.hi w req i) (Grid.lo ht req j) (Grid.hi ht req j) m) ∧
      ∃ m, IsRectMax f (Grid.lo w req i) (Grid.hi w req i) (Grid.lo ht req j) (Grid.hi ht req j) m := by
    intro i j hi hj
    have a := (Grid.lo_le h1 hw hi).1
    have b := (Grid.lo_le h1 hh hj).1
    have c := Grid.le_size h1 hw
    have d := Grid.le_size h1 hh
    exact ⟨exists_rectMin f (by omega) (by omega), exists_rectMax f (by omega) (by omega)⟩
  refine ⟨fun i j => if q : i < Grid.count w req ∧ j < Grid.count ht req then (key i j q.1 q.2).1.choose else 0,
    fun i j => if q : i < Grid.count w req ∧ j < Grid.count ht req then (key i j q.1 q.2).2.choose else 0, ?_, ?_⟩
  · intro i j hi hj
    simp only [dif_pos (And.intro hi hj)]
    exact (key i j hi hj).1.choose_spec
  · intro i j hi hj
    simp only [dif_pos (And.intro hi hj)]
    exact (key i j hi hj).2.choose_spec

theorem local_nonempty {u : Bool} {n req i : Nat} (h1 : 1 ≤ req) (h2 : req ≤ n) (hi : i < Grid.count n req) :
    localLo u n req i < localHi u n req i := by
  unfold localLo localHi
  have a := (Grid.lo_le h1 h2 hi).1
  have b := Grid.le_size h1 h2
  have c := Grid.lo_mono (n := n) (req := req) (Grid.first_le u i)
  have d := Grid.hi_mono h1 h2 (Grid.le_last (u := u) hi) (Grid.last_lt hi)
  omega

/-- Block min-max filter: with `mn i j`, `mx i j` the smallest and largest pixel of the blocks that determine block
`(i,j)`, an output pixel is 1 where `mx - mn` does not exceed the texture limit and otherwise is decided by comparing the
pixel with the scaled mid-value.  Missing for the full property: texture limits that the pixel's sum type cannot hold, in
particular the documented `-1` for "off" with unsigned pixels (`C40_disabled_refuted`). -/
theorem C40_minmax_partial {t : IntTy} (ht : t = U8 ∨ t = U16 ∨ t = S16) {minimumSpread : K} {scaleMul : Int → K} {useLocal down : Bool}
    {z : Int} {config : ConfigLength K} {h : Heap Int} {st : Interleaved} {input output : Gray} {f : Nat → Nat → Int}
    (ha : BlockArgs h st input output f) (hnb : st.numBands = 2)
    {req : Nat} (h1 : 1 ≤ req) (hw : req ≤ input.width) (hh : req ≤ input.height)
    (hreq : config.computeI ((min input.width input.height : Nat) : K) h = .ok (req : Int) h)
    (hfr : ∀ x y, x < input.width → y < input.height → t.InRange (f x y))
    (hsize : Grid.count input.width req * Grid.count input.height req * 2 < 4294967296)
    (hspread : t.sumType.InRange (truncK minimumSpread))
    (hscale : ∀ m, t.InRange m → t.sumType.InRange (truncK (scaleMul m))) :
    ∃ b h' S, ∃ mn mx : Nat → Nat → Int, Blocks.process (BlockMinMax.ops t minimumSpread scaleMul useLocal down) z config st input output h = .ok b h' ∧
      (∀ i j, i < Grid.count input.width req → j < Grid.count input.height req →
        IsRectMin f (localLo useLocal input.width req i) (localHi useLocal input.width req i)
          (localLo useLocal input.height req j) (localHi useLocal input.height req j) (mn i j) ∧
        IsRectMax f (localLo useLocal input.width req i) (localHi useLocal input.width req i)
          (localLo useLocal input.height req j) (localHi useLocal input.height req j) (mx i j)) ∧
      Filtered h h' st b.stats output (Grid.count input.width req) (Grid.count input.height req) S
        (fun x y =>
          let i := Grid.blockOf input.width req x
          let j := Grid.blockOf input.height req y
          if mx i j - mn i j ≤ truncK minimumSpread then 1
          else if down = decide (f x y ≤ truncK (scaleMul ((mx i j + mn i j).tdiv 2))) then 1 else 0) := by
  obtain ⟨mn, mx, hex⟩ := extremes_exist h1 hw hh f
  have key : ∀ (i j : Nat), i < Grid.count input.width req → j < Grid.count input.height req →
      (∃ m, IsRectMin f (localLo useLocal input.width req i) (localHi useLocal input.width req i)
          (localLo useLocal input.height req j) (localHi useLocal input.height req j) m) ∧
      ∃ m, IsRectMax f (localLo useLocal input.width req i) (localHi useLocal input.width req i)
          (localLo useLocal input.height req j) (localHi useLocal input.height req j) m := by
    intro i j hi hj
    exact ⟨exists_rectMin f (local_nonempty h1 hw hi) (local_nonempty h1 hh hj),
      exists_rectMax f (local_nonempty h1 hw hi) (local_nonempty h1 hh hj)⟩
  classical
  let lmn : Nat → Nat → Int := fun i j =>
    if q : i < Grid.count input.width req ∧ j < Grid.count input.height req then (key i j q.1 q.2).1.choose else 0
  let lmx : Nat → Nat → Int := fun i j =>
    if q : i < Grid.count input.width req ∧ j < Grid.count input.height req then (key i j q.1 q.2).2.choose else 0
  have hlmn : ∀ i j, i < Grid.count input.width req → j < Grid.count input.height req →
      IsRectMin f (localLo useLocal input.width req i) (localHi useLocal input.width req i)
          (localLo useLocal input.height req j) (localHi useLocal input.height req j) (lmn i j) := by
    intro i j hi hj
    show IsRectMin _ _ _ _ _ (if q : _ then _ else _)
    rw [dif_pos (And.intro hi hj)]
    exact (key i j hi hj).1.choose_spec
  have hlmx : ∀ i j, i < Grid.count input.width req → j < Grid.count input.height req →
      IsRectMax f (localLo useLocal input.width req i) (localHi useLocal input.width req i)
          (localLo useLocal input.height req j) (localHi useLocal input.height req j) (lmx i j) := by
    intro i j hi hj
    show IsRectMax _ _ _ _ _ (if q : _ then _ else _)
    rw [dif_pos (And.intro hi hj)]
    exact (key i j hi hj).2.choose_spec
  rw [process_run ha.width ha.height hw ha.inValid.widthLt hreq]
  obtain ⟨b, h', e, hp, -, -⟩ := blocks_run (BlockMinMax.ops t minimumSpread scaleMul useLocal down) z (Ini := fun _ => True)
    ha.inValid ha.shows ha.outValid ha.apart ha.width ha.height ha.statsValid ha.statsOwner (by omega) ha.statsIn ha.statsOut h1 hw hh
    (by rw [hnb]; exact hsize) (fun st' h1 => init_id st' h1)
    (fun st' hn => minmax_statsOk (by omega) h1 hw hh hex)
    (fun st' hn q1 q2 q3 => minmax_threshOk ht (by simp only; omega) h1 hw hh ha.width ha.height rfl rfl q1 q2 hfr hex hlmn hlmx
      hspread hscale)
  refine ⟨b, h', _, lmn, lmx, e, fun i j hi hj => ⟨hlmn i j hi hj, hlmx i j hi hj⟩, { hp with pix := fun x y hx hy => ?_ }⟩
  rw [hp.pix x y hx hy]
  simp only [b2i, beq_iff_eq]

example : Blocks.process (BlockMinMax.ops U8 (3 : ℚ) (fun m => (m : ℚ)) false true) 0 (ConfigLength.fixed (2 : ℚ))
    ⟨2, 0, 0, 0, 2, 0, 0, false⟩ ⟨0, 10, 5, 2, 0, 5, false⟩ ⟨1, 10, 5, 2, 0, 5, false⟩
    (⟨[some [1,2,30,10,10, 3,4,10,10,20], some (List.replicate 10 9), some []]⟩ : Heap Int) =
    .ok ⟨⟨3, 4, 2, 1, 2, 0, 4, false⟩, 2, 2⟩
      ⟨[some [1,2,30,10,10, 3,4,10,10,20], some [1,1,0,1,1, 1,1,1,1,1], none, some [1,4,10,30]]⟩ := by decide +kernel

/-- The documentation of the filter says that a texture limit of `-1` or less turns the test off; with 8-bit pixels the
limit is converted to `uint32_t`, which is undefined for a negative limit. -/
theorem C40_disabled_refuted :
    Blocks.process (BlockMinMax.ops U8 (-1 : ℚ) (fun m => (m : ℚ)) false true) 0 (ConfigLength.fixed (1 : ℚ))
      ⟨2, 0, 0, 0, 2, 0, 0, false⟩ ⟨0, 1, 1, 1, 0, 1, false⟩ ⟨1, 1, 1, 1, 0, 1, false⟩
      (⟨[some [5], some [7], some []]⟩ : Heap Int) = .ub := by decide +kernel

/-! ## C41 block Otsu -/

/-- Filling the statistics image with a value, which is 0 in the program. -/
theorem init_zero (z : V) (st' : Interleaved) (h1 : Heap V) (hv : st'.Valid h1) (ho : st'.subimage = false) :
    Spec (ImageMiscOps.fill3 st' z : M V Unit) h1 (fun _ h2 =>
      (∀ b' i, b' ≠ st'.buf → h2.cell b' i = h1.cell b' i) ∧ (∀ b', (h2.get b').isSome = (h1.get b').isSome) ∧
      h2.next = h1.next ∧
      (∀ i, i < st'.width * st'.height * st'.numBands → ∃ v, h2.cell st'.buf i = some v ∧ v = z) ∧
      ∀ i, i < st'.dataLength → ∃ v, h2.cell st'.buf i = some v) := by
  have hl : wrap32 (wrap32 (st'.width * st'.height) * st'.numBands) = st'.flat.totalPixels := by
    show _ = wrap32 (st'.width * st'.numBands * st'.height)
    unfold wrap32
    rw [Nat.mod_mul_mod, Nat.mul_right_comm]
  unfold ImageMiscOps.fill3
  rw [hl]
  refine Spec.conseq (paint_linear hv.flat ho (fun _ => z)) ?_
  intro _ h2 hp
  have hv2 := hp.valid hv.flat hv.flat
  refine ⟨fun b' i hb => hp.frame b' i (fun x y _ _ e => hb e.1), hp.alive, hp.next, fun i hi => ⟨z, ?_, rfl⟩, hv2.cells⟩
  obtain ⟨o1, o2⟩ := hv.flat.owner ho
  have hw : 0 < st'.flat.width := by
    show 0 < st'.width * st'.numBands
    rcases Nat.eq_zero_or_pos (st'.width * st'.numBands) with e | e
    · rw [Nat.mul_right_comm, e] at hi; omega
    · exact e
  have hx : i % st'.flat.width < st'.flat.width := Nat.mod_lt _ hw
  have hy : i / st'.flat.width < st'.flat.height := by
    rw [Nat.div_lt_iff_lt_mul hw]
    show i < st'.height * (st'.width * st'.numBands)
    rw [show st'.height * (st'.width * st'.numBands) = st'.width * st'.height * st'.numBands by ring]
    exact hi
  have := hp.pix _ _ hx hy
  unfold Heap.px Gray.addr at this
  rw [o1, o2, Nat.zero_add, Nat.div_add_mod'] at this
  exact this

/-- Block Otsu filter on 8-bit pixels, with any function that computes the threshold from the histogram. -/
theorem C41_otsu_with {compute : GrowArray Int → Nat → M Int Int} {down useLocal : Bool}
    {z : Int} {config : ConfigLength K} {h : Heap Int} {st : Interleaved} {input output : Gray} {f : Nat → Nat → Int}
    (ha : BlockArgs h st input output f) (hnb : st.numBands = 256)
    {req : Nat} (h1 : 1 ≤ req) (hw : req ≤ input.width) (hh : req ≤ input.height)
    (hreq : config.computeI ((min input.width input.height : Nat) : K) h = .ok (req : Int) h)
    (hf : ∀ x y, x < input.width → y < input.height → 0 ≤ f x y ∧ f x y ≤ 255)
    (harea : input.width * input.height < 2147483648)
    (hsize : Grid.count input.width req * Grid.count input.height req * 256 < 4294967296)
    {th : Nat → Nat → Int}
    (hth : ∀ i j (h : Heap Int), i < Grid.count input.width req → j < Grid.count input.height req →
      compute ⟨(List.range 256).map (fun k : Nat => rectCount f k
          (localLo useLocal input.width req i) (localHi useLocal input.width req i)
          (localLo useLocal input.height req j) (localHi useLocal input.height req j)), 256, 0, true⟩
        ((localHi useLocal input.width req i - localLo useLocal input.width req i) *
          (localHi useLocal input.height req j - localLo useLocal input.height req j)) h = .ok (th i j) h) :
    ∃ b h' S, Blocks.process (BlockOtsu.opsWith compute down useLocal) z config st input output h = .ok b h' ∧
      Filtered h h' st b.stats output (Grid.count input.width req) (Grid.count input.height req) S
        (fun x y => if down = decide (f x y ≤ th (Grid.blockOf input.width req x) (Grid.blockOf input.height req y))
          then 1 else 0) := by
  rw [process_run ha.width ha.height hw ha.inValid.widthLt hreq]
  obtain ⟨b, h', e, hp, -, -⟩ := blocks_run (BlockOtsu.opsWith compute down useLocal) z (Ini := fun v => v = 0)
    ha.inValid ha.shows ha.outValid ha.apart ha.width ha.height ha.statsValid ha.statsOwner (by omega) ha.statsIn ha.statsOut h1 hw hh
    (by rw [hnb]; exact hsize) (fun st' h1 => init_zero 0 st' h1)
    (fun st' hn => otsu_statsOk (by omega) h1 hw hh hf harea)
    (fun st' hn q1 q2 q3 => otsu_threshOk (by simp only; omega) h1 hw hh ha.width ha.height rfl rfl q1 q2 hf harea hth)
  refine ⟨b, h', _, e, { hp with pix := fun x y hx hy => ?_ }⟩
  rw [hp.pix x y hx hy]
  simp only [b2i, beq_iff_eq]

/-- Block Otsu filter on 8-bit pixels: the threshold of a block is what Otsu's computation returns for the exact histogram
of the pixels in the local blocks, and every output pixel is decided by comparing the pixel with the threshold of its block.
(`th i j` is defined by the hypothesis as the value of `ComputeOtsu::compute` on that histogram.) -/
theorem C41_otsu {otsu : ComputeOtsu K} {useLocal : Bool}
    {z : Int} {config : ConfigLength K} {h : Heap Int} {st : Interleaved} {input output : Gray} {f : Nat → Nat → Int}
    (ha : BlockArgs h st input output f) (hnb : st.numBands = 256)
    {req : Nat} (h1 : 1 ≤ req) (hw : req ≤ input.width) (hh : req ≤ input.height)
    (hreq : config.computeI ((min input.width input.height : Nat) : K) h = .ok (req : Int) h)
    (hf : ∀ x y, x < input.width → y < input.height → 0 ≤ f x y ∧ f x y ≤ 255)
    (harea : input.width * input.height < 2147483648)
    (hsize : Grid.count input.width req * Grid.count input.height req * 256 < 4294967296)
    {th : Nat → Nat → Int}
    (hth : ∀ i j (h : Heap Int), i < Grid.count input.width req → j < Grid.count input.height req →
      otsu.compute ⟨(List.range 256).map (fun k : Nat => rectCount f k
          (localLo useLocal input.width req i) (localHi useLocal input.width req i)
          (localLo useLocal input.height req j) (localHi useLocal input.height req j)), 256, 0, true⟩
        ((localHi useLocal input.width req i - localLo useLocal input.width req i) *
          (localHi useLocal input.height req j - localLo useLocal input.height req j)) h = .ok (th i j) h) :
    ∃ b h' S, Blocks.process (BlockOtsu.ops otsu useLocal) z config st input output h = .ok b h' ∧
      Filtered h h' st b.stats output (Grid.count input.width req) (Grid.count input.height req) S
        (fun x y => if otsu.down = decide (f x y ≤ th (Grid.blockOf input.width req x) (Grid.blockOf input.height req y))
          then 1 else 0) :=
  C41_otsu_with ha hnb h1 hw hh hreq hf harea hsize hth

/-- Standard Otsu (tuning 0, scale 1): the threshold of each block maximises the between-class variance of the pixels in
the local blocks. -/
theorem C41_standard {useLocal down : Bool}
    {z : Int} {config : ConfigLength K} {h : Heap Int} {st : Interleaved} {input output : Gray} {f : Nat → Nat → Int}
    (ha : BlockArgs h st input output f) (hnb : st.numBands = 256)
    {req : Nat} (h1 : 1 ≤ req) (hw : req ≤ input.width) (hh : req ≤ input.height)
    (hreq : config.computeI ((min input.width input.height : Nat) : K) h = .ok (req : Int) h)
    (hf : ∀ x y, x < input.width → y < input.height → 0 ≤ f x y ∧ f x y ≤ 255)
    (harea : input.width * input.height < 2147483648)
    (hsize : Grid.count input.width req * Grid.count input.height req * 256 < 4294967296) :
    ∃ b h' S, ∃ th : Nat → Nat → Nat,
      Blocks.process (BlockOtsu.ops (ComputeOtsu.mk false (0 : K) down 1) useLocal) z config st input output h = .ok b h' ∧
      (∀ i j, i < Grid.count input.width req → j < Grid.count input.height req →
        IsOtsu K 256 (fun k => rectCount f k (localLo useLocal input.width req i) (localHi useLocal input.width req i)
          (localLo useLocal input.height req j) (localHi useLocal input.height req j)) (th i j)) ∧
      Filtered h h' st b.stats output (Grid.count input.width req) (Grid.count input.height req) S
        (fun x y => if down = decide (f x y ≤ th (Grid.blockOf input.width req x) (Grid.blockOf input.height req y))
          then 1 else 0) := by
  have key : ∀ (i j : Nat), i < Grid.count input.width req → j < Grid.count input.height req →
      ∃ t : Nat, (∀ h : Heap Int, (ComputeOtsu.mk false (0 : K) down 1).compute ⟨(List.range 256).map (fun k : Nat => rectCount f k
          (localLo useLocal input.width req i) (localHi useLocal input.width req i)
          (localLo useLocal input.height req j) (localHi useLocal input.height req j)), 256, 0, true⟩
        ((localHi useLocal input.width req i - localLo useLocal input.width req i) *
          (localHi useLocal input.height req j - localLo useLocal input.height req j)) h = .ok (t : Int) h) ∧
        IsOtsu K 256 (fun k => rectCount f k (localLo useLocal input.width req i) (localHi useLocal input.width req i)
          (localLo useLocal input.height req j) (localHi useLocal input.height req j)) t := by
    intro i j hi hj
    have lx := (Grid.lo_le h1 hw (Grid.last_lt (u := useLocal) hi)).2
    have ly := (Grid.lo_le h1 hh (Grid.last_lt (u := useLocal) hj)).2
    have ex : localHi useLocal input.width req i ≤ input.width := lx
    have ey : localHi useLocal input.height req j ≤ input.height := ly
    generalize localLo useLocal input.width req i = x0 at *
    generalize localHi useLocal input.width req i = x1 at *
    generalize localLo useLocal input.height req j = y0 at *
    generalize localHi useLocal input.height req j = y1 at *
    have harea' : (x1 - x0) * (y1 - y0) < 4294967296 := by
      have := Nat.mul_le_mul (show x1 - x0 ≤ input.width by omega) (show y1 - y0 ≤ input.height by omega)
      omega
    have hsum : sumN 256 (fun k : Nat => rectCount f k x0 x1 y0 y1) = (((x1 - x0) * (y1 - y0) : Nat) : Int) := by
      have := sumN_pixelCount (w := x1 - x0) (h := y1 - y0) (n := 256) (m := 0) (f := fun x y => f (x0 + x) (y0 + y))
        (fun x y hx hy => by have := hf (x0 + x) (y0 + y) (by omega) (by omega); omega)
      rw [← this]
      apply sumN_congr
      intro k _
      rw [Int.zero_add]; rfl
    have hget : ∀ k : Nat, k < 256 → ((List.range 256).map (fun k : Nat => rectCount f k x0 x1 y0 y1))[k]? =
        some (rectCount f k x0 x1 y0 y1) := fun k hk => range_map_get hk
    obtain ⟨t, e, ho⟩ := C34_otsu (K := K) (V := Int) (a := ⟨(List.range 256).map (fun k : Nat => rectCount f k x0 x1 y0 y1), 256, 0, true⟩)
      (hist := fun k => rectCount f k x0 x1 y0 y1) hget (fun k _ => (rectCount_le f k x0 x1 y0 y1).1) (by simp) hsum harea' down ⟨[]⟩
    refine ⟨t, fun h => ?_, ho⟩
    obtain ⟨t', e', ho'⟩ := C34_otsu (K := K) (V := Int) (a := ⟨(List.range 256).map (fun k : Nat => rectCount f k x0 x1 y0 y1), 256, 0, true⟩)
      (hist := fun k => rectCount f k x0 x1 y0 y1) hget (fun k _ => (rectCount_le f k x0 x1 y0 y1).1) (by simp) hsum harea' down h
    rw [e', IsOtsu_unique ho ho']
  classical
  let th : Nat → Nat → Nat := fun i j =>
    if q : i < Grid.count input.width req ∧ j < Grid.count input.height req then (key i j q.1 q.2).choose else 0
  have he : ∀ i j (hi : i < Grid.count input.width req) (hj : j < Grid.count input.height req),
      th i j = (key i j hi hj).choose := fun i j hi hj => dif_pos (And.intro hi hj)
  obtain ⟨b, h', S, e, hp⟩ := C41_otsu (otsu := ComputeOtsu.mk false (0 : K) down 1) (useLocal := useLocal) (z := z)
    (th := fun i j => (th i j : Int)) ha hnb h1 hw hh hreq hf
    harea hsize (fun i j h hi hj => by rw [he i j hi hj]; exact (key i j hi hj).choose_spec.1 h)
  exact ⟨b, h', S, th, e, fun i j hi hj => by rw [he i j hi hj]; exact (key i j hi hj).choose_spec.2, hp⟩

end Boof
