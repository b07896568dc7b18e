import Verif.Proofs.BlocksFloat
import Verif.Props.Blocks
import Verif.Spec.FloatFilter
/-
C39, C40 for images of floating point numbers.
-/
namespace Boof
variable {V K : Type} [Field K] [LinearOrder K] [IsStrictOrderedRing K] [FloorRing K]

/-! ## C39 block mean -/

/-- Block mean filter on floating point images, whatever the pixels and however the arithmetic rounds: `process` succeeds, every
output pixel is decided by comparing the pixel with the average of the local block statistics, and nothing else changes but the
filter's own statistics image. -/
theorem C39_mean_float (A : MeanOps V) {useLocal down : Bool} {z : V} {config : ConfigLength K} {h : Heap V} {st : Interleaved}
    {input output : Gray} {f : Nat → Nat → V} (ha : BlockArgs h st input output f) (hnb : st.numBands = 1)
    {req : Nat} (h1 : 1 ≤ req) (hw : req ≤ input.width) (hh : req ≤ input.height)
    (hreq : config.computeI ((min input.width input.height : Nat) : K) h = .ok (req : Int) h) :
    ∃ b h', Blocks.process (BlockMeanF.ops A useLocal down) z config st input output h = .ok b h' ∧
      Filtered h h' st b.stats output (Grid.count input.width req) (Grid.count input.height req)
        (fun i j _ => meanStatF A.add A.zero A.scaled input.width input.height req f i j)
        (fun x y => A.bit (down == A.le (f x y) (localMeanF A.add A.zero A.divide useLocal input.width input.height req
            (meanStatF A.add A.zero A.scaled input.width input.height req f) (Grid.blockOf input.width req x)
            (Grid.blockOf input.height req y)))) := by
  rw [process_run ha.width ha.height hw ha.inValid.widthLt hreq]
  obtain ⟨b, h', e, hp, -, -⟩ := blocks_run (BlockMeanF.ops A useLocal down) z (Ini := fun _ => True) ha.inValid ha.shows ha.outValid
    ha.apart ha.width ha.height ha.statsValid ha.statsOwner (by omega) ha.statsIn ha.statsOut h1 hw hh
    (by rw [hnb, Nat.mul_one]; exact count_area ha.inValid req) (fun st' h1 => init_id st' h1)
    (fun st' hn => meanF_statsOk (by omega) h1 hw hh)
    (fun st' hn q1 q2 q3 => meanF_threshOk (by simp only; omega) h1 hw hh ha.width ha.height rfl rfl q1 q2)
  exact ⟨b, h', e, hp⟩

/-- Exact arithmetic. -/
def exactMeanF (scale : K) : MeanOps K where
  zero := 0
  add := (· + ·)
  scaled s n := scale * s / n
  divide s n := s / n
  le a b := decide (a ≤ b)
  bit b := if b then 1 else 0

/-- With exact arithmetic the threshold of a pixel is the mean, over the blocks that count, of `scale` times the mean of the block. -/
theorem C39_mean_float_exact (scale : K) {useLocal down : Bool} {z : K} {config : ConfigLength K} {h : Heap K} {st : Interleaved}
    {input output : Gray} {f : Nat → Nat → K} (ha : BlockArgs h st input output f) (hnb : st.numBands = 1)
    {req : Nat} (h1 : 1 ≤ req) (hw : req ≤ input.width) (hh : req ≤ input.height)
    (hreq : config.computeI ((min input.width input.height : Nat) : K) h = .ok (req : Int) h) :
    ∃ b h', Blocks.process (BlockMeanF.ops (exactMeanF scale) useLocal down) z config st input output h = .ok b h' ∧
      ∀ x y, x < input.width → y < input.height →
        let S := fun i j => scale * rectSumK f (Grid.lo input.width req i) (Grid.hi input.width req i) (Grid.lo input.height req j)
            (Grid.hi input.height req j) / ((Grid.hi input.width req i - Grid.lo input.width req i) *
              (Grid.hi input.height req j - Grid.lo input.height req j) : Nat)
        let i := Grid.blockOf input.width req x
        let j := Grid.blockOf input.height req y
        let mean := rectSumK S (Grid.first useLocal i) (Grid.last useLocal input.width req i + 1) (Grid.first useLocal j)
            (Grid.last useLocal input.height req j + 1) / ((Grid.last useLocal input.width req i + 1 - Grid.first useLocal i) *
              (Grid.last useLocal input.height req j + 1 - Grid.first useLocal j) : Nat)
        (f x y ≤ mean → h'.px output x y = some (if down then 1 else 0)) ∧
        (mean < f x y → h'.px output x y = some (if down then 0 else 1)) := by
  obtain ⟨b, h', e, hF⟩ := C39_mean_float (exactMeanF scale) (useLocal := useLocal) (down := down) (z := z) ha hnb h1 hw hh hreq
  refine ⟨b, h', e, fun x y hx hy => ?_⟩
  have hp := hF.pix x y (by rw [ha.width]; exact hx) (by rw [ha.height]; exact hy)
  have es : ∀ i j, meanStatF (exactMeanF scale).add (exactMeanF scale).zero (exactMeanF scale).scaled input.width input.height req f i j =
      scale * rectSumK f (Grid.lo input.width req i) (Grid.hi input.width req i) (Grid.lo input.height req j)
            (Grid.hi input.height req j) / ((Grid.hi input.width req i - Grid.lo input.width req i) *
              (Grid.hi input.height req j - Grid.lo input.height req j) : Nat) := fun i j => by
    unfold meanStatF exactMeanF
    simp only
    rw [rectFold_add]
  intro S i j mean
  have em : localMeanF (exactMeanF scale).add (exactMeanF scale).zero (exactMeanF scale).divide useLocal input.width input.height req
      (meanStatF (exactMeanF scale).add (exactMeanF scale).zero (exactMeanF scale).scaled input.width input.height req f) i j = mean := by
    rw [show meanStatF (exactMeanF scale).add (exactMeanF scale).zero (exactMeanF scale).scaled input.width input.height req f = S from
      funext fun i => funext fun j => es i j]
    unfold localMeanF exactMeanF
    simp only
    rw [rectFold_add]
  rw [em] at hp
  constructor
  · intro hle
    rw [hp]
    cases down <;> simp [exactMeanF, hle]
  · intro hlt
    have hn : ¬f x y ≤ mean := not_le.mpr hlt
    rw [hp]
    cases down <;> simp [exactMeanF, hn]

/-- A 5x2 image with fractions and negative numbers meets the hypotheses. -/
example : BlockArgs
    (⟨[some [1/2, -2, 30, 10, 10, 3, 4, -10, 10, 20], some (List.replicate 10 9), some []]⟩ : Heap ℚ)
    ⟨2, 0, 0, 0, 1, 0, 0, false⟩ ⟨0, 10, 5, 2, 0, 5, false⟩ ⟨1, 10, 5, 2, 0, 5, false⟩
    (fun x y => [1/2, -2, 30, 10, 10, 3, 4, -10, 10, 20].getD (y * 5 + x) 0) := by
  refine ⟨by decide +kernel, ?_, by decide +kernel, rfl, rfl, Or.inr (fun _ _ _ _ _ _ _ _ e => absurd e (by decide)),
    by decide +kernel, rfl, by decide, by decide⟩
  have : ∀ x < 5, ∀ y < 2, (⟨[some [1/2, -2, 30, 10, 10, 3, 4, -10, 10, 20], some (List.replicate 10 9), some []]⟩ : Heap ℚ).px
      ⟨0, 10, 5, 2, 0, 5, false⟩ x y = some ([1/2, -2, 30, 10, 10, 3, 4, -10, 10, 20].getD (y * 5 + x) 0) := by decide +kernel
  exact fun x y hx hy => this x hx y hy

example : Blocks.process (BlockMeanF.ops (exactMeanF (1 : ℚ)) false true) 0 (ConfigLength.fixed (2 : ℚ))
    ⟨2, 0, 0, 0, 1, 0, 0, false⟩ ⟨0, 10, 5, 2, 0, 5, false⟩ ⟨1, 10, 5, 2, 0, 5, false⟩
    (⟨[some [1/2, -2, 30, 10, 10, 3, 4, -10, 10, 20], some (List.replicate 10 9), some []]⟩ : Heap ℚ) =
    .ok ⟨⟨3, 2, 2, 1, 1, 0, 2, false⟩, 2, 2⟩
      ⟨[some [1/2, -2, 30, 10, 10, 3, 4, -10, 10, 20], some [1,1,0,1,1, 0,0,1,1,0], none, some [11/8, 35/3]]⟩ := by decide +kernel

/-! ## C40 block min-max -/

/-- What the filter does on floating point images whose pixels do not exceed the largest finite number: it takes the smallest
pixel `mn` of the local blocks, and for the largest the larger one of `mx` and the smallest positive normalised number. -/
theorem C40_minmax_float_all [LinearOrder V] (A : MinMaxOps V) {minimumSpread : V} {useLocal down : Bool}
    {z : V} {config : ConfigLength K} {h : Heap V} {st : Interleaved} {input output : Gray} {f : Nat → Nat → V}
    (ha : BlockArgs h st input output f) (hnb : st.numBands = 2)
    {req : Nat} (h1 : 1 ≤ req) (hw : req ≤ input.width) (hh : req ≤ input.height)
    (hreq : config.computeI ((min input.width input.height : Nat) : K) h = .ok (req : Int) h)
    (hhuge : ∀ x y, x < input.width → y < input.height → f x y ≤ A.huge)
    (hsize : Grid.count input.width req * Grid.count input.height req * 2 < 4294967296) :
    ∃ b h' S, ∃ mn mx : Nat → Nat → V, Blocks.process (BlockMinMaxF.ops A minimumSpread useLocal down) z config st input output h = .ok b h' ∧
      (∀ i j, i < Grid.count input.width req → j < Grid.count input.height req →
        IsRectMin f (localLo useLocal input.width req i) (localHi useLocal input.width req i)
          (localLo useLocal input.height req j) (localHi useLocal input.height req j) (mn i j) ∧
        IsRectMax f (localLo useLocal input.width req i) (localHi useLocal input.width req i)
          (localLo useLocal input.height req j) (localHi useLocal input.height req j) (mx i j)) ∧
      Filtered h h' st b.stats output (Grid.count input.width req) (Grid.count input.height req) S
        (fun x y =>
          let i := Grid.blockOf input.width req x
          let j := Grid.blockOf input.height req y
          if A.sub (max (mx i j) A.tiny) (mn i j) ≤ minimumSpread then A.bit true
          else A.bit (down == decide (f x y ≤ A.mid (max (mx i j) A.tiny) (mn i j)))) := by
  classical
  have ne : ∀ {n i}, req ≤ n → i < Grid.count n req → Grid.lo n req i < Grid.hi n req i := fun {n i} hn hi => by
    have := (Grid.lo_le h1 hn hi).1
    have := Grid.le_size h1 hn
    omega
  obtain ⟨mn, hmn⟩ : ∃ mn : Nat → Nat → V, ∀ i j, i < Grid.count input.width req → j < Grid.count input.height req →
      IsRectMin f (Grid.lo input.width req i) (Grid.hi input.width req i) (Grid.lo input.height req j) (Grid.hi input.height req j)
        (mn i j) :=
    ⟨fun i j => if q : i < Grid.count input.width req ∧ j < Grid.count input.height req then
        (exists_rectMinV f (ne hw q.1) (ne hh q.2)).choose else f 0 0, fun i j hi hj => by
      simp only [dif_pos (And.intro hi hj)]
      exact (exists_rectMinV f (ne hw hi) (ne hh hj)).choose_spec⟩
  obtain ⟨mx, hmx⟩ : ∃ mx : Nat → Nat → V, ∀ i j, i < Grid.count input.width req → j < Grid.count input.height req →
      IsRectMax f (Grid.lo input.width req i) (Grid.hi input.width req i) (Grid.lo input.height req j) (Grid.hi input.height req j)
        (mx i j) :=
    ⟨fun i j => if q : i < Grid.count input.width req ∧ j < Grid.count input.height req then
        (exists_rectMaxV f (ne hw q.1) (ne hh q.2)).choose else f 0 0, fun i j hi hj => by
      simp only [dif_pos (And.intro hi hj)]
      exact (exists_rectMaxV f (ne hw hi) (ne hh hj)).choose_spec⟩
  obtain ⟨lmn, hlmn⟩ : ∃ lmn : Nat → Nat → V, ∀ i j, i < Grid.count input.width req → j < Grid.count input.height req →
      IsRectMin f (localLo useLocal input.width req i) (localHi useLocal input.width req i)
          (localLo useLocal input.height req j) (localHi useLocal input.height req j) (lmn i j) :=
    ⟨fun i j => if q : i < Grid.count input.width req ∧ j < Grid.count input.height req then
        (exists_rectMinV f (local_nonempty (u := useLocal) h1 hw q.1) (local_nonempty (u := useLocal) h1 hh q.2)).choose else f 0 0,
      fun i j hi hj => by
      simp only [dif_pos (And.intro hi hj)]
      exact (exists_rectMinV f (local_nonempty (u := useLocal) h1 hw hi) (local_nonempty (u := useLocal) h1 hh hj)).choose_spec⟩
  obtain ⟨lmx, hlmx⟩ : ∃ lmx : Nat → Nat → V, ∀ i j, i < Grid.count input.width req → j < Grid.count input.height req →
      IsRectMax f (localLo useLocal input.width req i) (localHi useLocal input.width req i)
          (localLo useLocal input.height req j) (localHi useLocal input.height req j) (lmx i j) :=
    ⟨fun i j => if q : i < Grid.count input.width req ∧ j < Grid.count input.height req then
        (exists_rectMaxV f (local_nonempty (u := useLocal) h1 hw q.1) (local_nonempty (u := useLocal) h1 hh q.2)).choose else f 0 0,
      fun i j hi hj => by
      simp only [dif_pos (And.intro hi hj)]
      exact (exists_rectMaxV f (local_nonempty (u := useLocal) h1 hw hi) (local_nonempty (u := useLocal) h1 hh hj)).choose_spec⟩
  rw [process_run ha.width ha.height hw ha.inValid.widthLt hreq]
  obtain ⟨b, h', e, hp, -, -⟩ := blocks_run (BlockMinMaxF.ops A minimumSpread useLocal down) z (Ini := fun _ => True)
    ha.inValid ha.shows ha.outValid ha.apart ha.width ha.height ha.statsValid ha.statsOwner (by omega) ha.statsIn ha.statsOut h1 hw hh
    (by rw [hnb]; exact hsize) (fun st' h1 => init_id st' h1)
    (fun st' hn => minmaxF_statsOk (by omega) h1 hw hh ⟨hmn, hmx⟩)
    (fun st' hn q1 q2 q3 => minmaxF_threshOk (by simp only; omega) h1 hw hh ha.width ha.height rfl rfl q1 q2 hhuge ⟨hmn, hmx⟩ hlmn hlmx)
  exact ⟨b, h', _, lmn, lmx, e, fun i j hi hj => ⟨hlmn i j hi hj, hlmx i j hi hj⟩, hp⟩

/-- Block min-max filter on floating point images with any rounding, any texture limit (a negative one does turn the test off
here) and any scale, provided that every group of blocks that determines a threshold has a pixel which is not below the smallest
positive normalised number.  Missing for the full property: images without such a pixel, for which it is false
(`C40_float_refuted`). -/
theorem C40_minmax_float_partial [LinearOrder V] (A : MinMaxOps V) {minimumSpread : V} {useLocal down : Bool}
    {z : V} {config : ConfigLength K} {h : Heap V} {st : Interleaved} {input output : Gray} {f : Nat → Nat → V}
    (ha : BlockArgs h st input output f) (hnb : st.numBands = 2)
    {req : Nat} (h1 : 1 ≤ req) (hw : req ≤ input.width) (hh : req ≤ input.height)
    (hreq : config.computeI ((min input.width input.height : Nat) : K) h = .ok (req : Int) h)
    (hhuge : ∀ x y, x < input.width → y < input.height → f x y ≤ A.huge)
    (hsize : Grid.count input.width req * Grid.count input.height req * 2 < 4294967296)
    (hpos : BrightBlocks A.tiny useLocal input.width input.height req f) :
    ∃ b h' S, ∃ mn mx : Nat → Nat → V, Blocks.process (BlockMinMaxF.ops A minimumSpread useLocal down) z config st input output h = .ok b h' ∧
      (∀ i j, i < Grid.count input.width req → j < Grid.count input.height req →
        IsRectMin f (localLo useLocal input.width req i) (localHi useLocal input.width req i)
          (localLo useLocal input.height req j) (localHi useLocal input.height req j) (mn i j) ∧
        IsRectMax f (localLo useLocal input.width req i) (localHi useLocal input.width req i)
          (localLo useLocal input.height req j) (localHi useLocal input.height req j) (mx i j)) ∧
      Filtered h h' st b.stats output (Grid.count input.width req) (Grid.count input.height req) S
        (fun x y =>
          let i := Grid.blockOf input.width req x
          let j := Grid.blockOf input.height req y
          if A.sub (mx i j) (mn i j) ≤ minimumSpread then A.bit true
          else A.bit (down == decide (f x y ≤ A.mid (mx i j) (mn i j)))) := by
  obtain ⟨b, h', S, mn, mx, e, hm, hp⟩ := C40_minmax_float_all A (minimumSpread := minimumSpread) (useLocal := useLocal) (down := down)
    (z := z) ha hnb h1 hw hh hreq hhuge hsize
  refine ⟨b, h', S, mn, mx, e, hm, { hp with pix := fun x y hx hy => ?_ }⟩
  rw [hp.pix x y hx hy]
  have bx := (Grid.has_blockOf h1 hw (show x < input.width by rw [← ha.width]; exact hx)).1
  have by' := (Grid.has_blockOf h1 hh (show y < input.height by rw [← ha.height]; exact hy)).1
  obtain ⟨x', y', c1, c2, c3, c4, c5⟩ := hpos _ _ bx by'
  have := (hm _ _ bx by').2.1 x' y' c1 c2 c3 c4
  simp only [max_eq_left (le_trans c5 this)]

/-- Exact arithmetic; `tiny` is the smallest positive normalised `float`, 2^-126. -/
def exactMinMaxF (scale huge : ℚ) : MinMaxOps ℚ where
  huge := huge
  tiny := 1 / 2^126
  sub a b := a - b
  mid a b := scale * ((a + b) / 2)
  bit b := if b then 1 else 0

example : Blocks.process (BlockMinMaxF.ops (exactMinMaxF 1 1000) (-1 : ℚ) false true) 0 (ConfigLength.fixed (2 : ℚ))
    ⟨2, 0, 0, 0, 2, 0, 0, false⟩ ⟨0, 10, 5, 2, 0, 5, false⟩ ⟨1, 10, 5, 2, 0, 5, false⟩
    (⟨[some [1/2, -2, 30, 10, 10, 3, 4, -10, 10, 20], some (List.replicate 10 9), some []]⟩ : Heap ℚ) =
    .ok ⟨⟨3, 4, 2, 1, 2, 0, 4, false⟩, 2, 2⟩
      ⟨[some [1/2, -2, 30, 10, 10, 3, 4, -10, 10, 20], some [1,1,0,1,1, 0,0,1,1,0], none, some [-2, 4, -10, 30]]⟩ := by decide +kernel

/-- The filter starts its search for the largest pixel with `std::numeric_limits<float>::min()`, which is positive.  With negative
pixels the threshold is therefore wrong: two pixels -100 and -90 have the middle -95, yet both count as "at most the middle". -/
theorem C40_float_refuted :
    Blocks.process (BlockMinMaxF.ops (exactMinMaxF 1 1000) (0 : ℚ) true true) 0 (ConfigLength.fixed (1 : ℚ))
      ⟨2, 0, 0, 0, 2, 0, 0, false⟩ ⟨0, 2, 2, 1, 0, 2, false⟩ ⟨1, 2, 2, 1, 0, 2, false⟩
      (⟨[some [-100, -90], some [7, 7], some []]⟩ : Heap ℚ) =
      .ok ⟨⟨3, 4, 2, 1, 2, 0, 4, false⟩, 1, 1⟩ ⟨[some [-100, -90], some [1, 1], none, some [-100, -100, -90, -90]]⟩ ∧
    ¬(-90 : ℚ) ≤ (exactMinMaxF 1 1000).mid (-90) (-100) := by decide +kernel

end Boof
