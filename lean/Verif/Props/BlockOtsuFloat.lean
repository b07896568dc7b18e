import Verif.Proofs.BlockOtsuF
import Verif.Props.Blocks
/-
C41 for images of floating point numbers.
-/
namespace Boof
open OtsuSpec
variable {V K : Type} [Field K] [LinearOrder K] [IsStrictOrderedRing K] [FloorRing K]

/-- Block Otsu filter on floating point pixels which can all be converted to 8-bit numbers `p x y`, with any function that computes the threshold
from the histogram. -/
theorem C41_otsu_float_with {A : OtsuOps V} (hA : ∀ c, A.value (A.count c) = c) {compute : GrowArray Int → Nat → M V Int} {down useLocal : Bool}
    {z : V} {config : ConfigLength K} {h : Heap V} {st : Interleaved} {input output : Gray} {f : Nat → Nat → V} {p : Nat → Nat → Int}
    (ha : BlockArgs h st input output f) (hnb : st.numBands = 256)
    {req : Nat} (h1 : 1 ≤ req) (hw : req ≤ input.width) (hh : req ≤ input.height)
    (hreq : config.computeI ((min input.width input.height : Nat) : K) h = .ok (req : Int) h)
    (hcv : ∀ x y, x < input.width → y < input.height → A.toU8 (f x y) = some (p x y))
    (hf : ∀ x y, x < input.width → y < input.height → 0 ≤ p x y ∧ p x y ≤ 255)
    (harea : input.width * input.height < 2147483648)
    (hsize : Grid.count input.width req * Grid.count input.height req * 256 < 4294967296)
    {th : Nat → Nat → Int}
    (hth : ∀ i j (h : Heap V), i < Grid.count input.width req → j < Grid.count input.height req →
      compute ⟨(List.range 256).map (fun k : Nat => rectCount p k
          (localLo useLocal input.width req i) (localHi useLocal input.width req i)
          (localLo useLocal input.height req j) (localHi useLocal input.height req j)), 256, 0, true⟩
        ((localHi useLocal input.width req i - localLo useLocal input.width req i) *
          (localHi useLocal input.height req j - localLo useLocal input.height req j)) h = .ok (th i j) h) :
    ∃ b h' S, Blocks.process (BlockOtsuF.opsWith A compute down useLocal) z config st input output h = .ok b h' ∧
      Filtered h h' st b.stats output (Grid.count input.width req) (Grid.count input.height req) S
        (fun x y => A.bit (down == decide (p x y ≤ th (Grid.blockOf input.width req x) (Grid.blockOf input.height req y)))) := by
  rw [process_run ha.width ha.height hw ha.inValid.widthLt hreq]
  obtain ⟨b, h', e, hp, -, -⟩ := blocks_run (BlockOtsuF.opsWith A compute down useLocal) z (Ini := fun v => v = A.count 0)
    ha.inValid ha.shows ha.outValid ha.apart ha.width ha.height ha.statsValid ha.statsOwner (by omega) ha.statsIn ha.statsOut h1 hw hh
    (by rw [hnb]; exact hsize) (fun st' h1 => init_zero (A.count 0) st' h1)
    (fun st' hn => otsuF_statsOk (by omega) h1 hw hh hA hcv hf harea)
    (fun st' hn q1 q2 q3 => otsuF_threshOk (by simp only; omega) h1 hw hh ha.width ha.height rfl rfl q1 q2 hA hcv hf harea hth)
  exact ⟨b, h', _, e, hp⟩

/-- Block Otsu filter on floating point pixels which can all be converted to 8-bit numbers `p x y`: the threshold of a block is what
Otsu's computation returns for the exact histogram of the converted pixels in the local blocks, and every output pixel is decided
by comparing the converted pixel with the threshold of its block.  (`th i j` is defined by the hypothesis as the value of
`ComputeOtsu::compute` on that histogram.) -/
theorem C41_otsu_float {A : OtsuOps V} (hA : ∀ c, A.value (A.count c) = c) {otsu : ComputeOtsu K} {useLocal : Bool}
    {z : V} {config : ConfigLength K} {h : Heap V} {st : Interleaved} {input output : Gray} {f : Nat → Nat → V} {p : Nat → Nat → Int}
    (ha : BlockArgs h st input output f) (hnb : st.numBands = 256)
    {req : Nat} (h1 : 1 ≤ req) (hw : req ≤ input.width) (hh : req ≤ input.height)
    (hreq : config.computeI ((min input.width input.height : Nat) : K) h = .ok (req : Int) h)
    (hcv : ∀ x y, x < input.width → y < input.height → A.toU8 (f x y) = some (p x y))
    (hf : ∀ x y, x < input.width → y < input.height → 0 ≤ p x y ∧ p x y ≤ 255)
    (harea : input.width * input.height < 2147483648)
    (hsize : Grid.count input.width req * Grid.count input.height req * 256 < 4294967296)
    {th : Nat → Nat → Int}
    (hth : ∀ i j (h : Heap V), i < Grid.count input.width req → j < Grid.count input.height req →
      otsu.compute ⟨(List.range 256).map (fun k : Nat => rectCount p k
          (localLo useLocal input.width req i) (localHi useLocal input.width req i)
          (localLo useLocal input.height req j) (localHi useLocal input.height req j)), 256, 0, true⟩
        ((localHi useLocal input.width req i - localLo useLocal input.width req i) *
          (localHi useLocal input.height req j - localLo useLocal input.height req j)) h = .ok (th i j) h) :
    ∃ b h' S, Blocks.process (BlockOtsuF.ops A otsu useLocal) z config st input output h = .ok b h' ∧
      Filtered h h' st b.stats output (Grid.count input.width req) (Grid.count input.height req) S
        (fun x y => A.bit (otsu.down == decide (p x y ≤ th (Grid.blockOf input.width req x) (Grid.blockOf input.height req y)))) :=
  C41_otsu_float_with hA ha hnb h1 hw hh hreq hcv hf harea hsize hth

/-- Standard Otsu (tuning 0, scale 1): the threshold of each block maximises the between-class variance of the pixels in
the local blocks, the pixels being converted to 8-bit numbers. -/
theorem C41_standard_float {A : OtsuOps V} (hA : ∀ c, A.value (A.count c) = c) {useLocal down : Bool}
    {z : V} {config : ConfigLength K} {h : Heap V} {st : Interleaved} {input output : Gray} {f : Nat → Nat → V} {p : Nat → Nat → Int}
    (ha : BlockArgs h st input output f) (hnb : st.numBands = 256)
    {req : Nat} (h1 : 1 ≤ req) (hw : req ≤ input.width) (hh : req ≤ input.height)
    (hreq : config.computeI ((min input.width input.height : Nat) : K) h = .ok (req : Int) h)
    (hcv : ∀ x y, x < input.width → y < input.height → A.toU8 (f x y) = some (p x y))
    (hf : ∀ x y, x < input.width → y < input.height → 0 ≤ p x y ∧ p x y ≤ 255)
    (harea : input.width * input.height < 2147483648)
    (hsize : Grid.count input.width req * Grid.count input.height req * 256 < 4294967296) :
    ∃ b h' S, ∃ th : Nat → Nat → Nat,
      Blocks.process (BlockOtsuF.ops A (ComputeOtsu.mk false (0 : K) down 1) useLocal) z config st input output h = .ok b h' ∧
      (∀ i j, i < Grid.count input.width req → j < Grid.count input.height req →
        IsOtsu K 256 (fun k => rectCount p k (localLo useLocal input.width req i) (localHi useLocal input.width req i)
          (localLo useLocal input.height req j) (localHi useLocal input.height req j)) (th i j)) ∧
      Filtered h h' st b.stats output (Grid.count input.width req) (Grid.count input.height req) S
        (fun x y => A.bit (down == decide (p x y ≤ th (Grid.blockOf input.width req x) (Grid.blockOf input.height req y)))) := by
  have key : ∀ (i j : Nat), i < Grid.count input.width req → j < Grid.count input.height req →
      ∃ t : Nat, (∀ h : Heap V, (ComputeOtsu.mk false (0 : K) down 1).compute ⟨(List.range 256).map (fun k : Nat => rectCount p k
          (localLo useLocal input.width req i) (localHi useLocal input.width req i)
          (localLo useLocal input.height req j) (localHi useLocal input.height req j)), 256, 0, true⟩
        ((localHi useLocal input.width req i - localLo useLocal input.width req i) *
          (localHi useLocal input.height req j - localLo useLocal input.height req j)) h = .ok (t : Int) h) ∧
        IsOtsu K 256 (fun k => rectCount p k (localLo useLocal input.width req i) (localHi useLocal input.width req i)
          (localLo useLocal input.height req j) (localHi useLocal input.height req j)) t := by
    intro i j hi hj
    have lx := (Grid.lo_le h1 hw (Grid.last_lt (u := useLocal) hi)).2
    have ly := (Grid.lo_le h1 hh (Grid.last_lt (u := useLocal) hj)).2
    have ex : localHi useLocal input.width req i ≤ input.width := lx
    have ey : localHi useLocal input.height req j ≤ input.height := ly
    generalize localLo useLocal input.width req i = x0 at *
    generalize localHi useLocal input.width req i = x1 at *
    generalize localLo useLocal input.height req j = y0 at *
    generalize localHi useLocal input.height req j = y1 at *
    have harea' : (x1 - x0) * (y1 - y0) < 4294967296 := by
      have := Nat.mul_le_mul (show x1 - x0 ≤ input.width by omega) (show y1 - y0 ≤ input.height by omega)
      omega
    have hsum : sumN 256 (fun k : Nat => rectCount p k x0 x1 y0 y1) = (((x1 - x0) * (y1 - y0) : Nat) : Int) := by
      have := sumN_pixelCount (w := x1 - x0) (h := y1 - y0) (n := 256) (m := 0) (f := fun x y => p (x0 + x) (y0 + y))
        (fun x y hx hy => by have := hf (x0 + x) (y0 + y) (by omega) (by omega); omega)
      rw [← this]
      apply sumN_congr
      intro k _
      rw [Int.zero_add]; rfl
    have hget : ∀ k : Nat, k < 256 → ((List.range 256).map (fun k : Nat => rectCount p k x0 x1 y0 y1))[k]? =
        some (rectCount p k x0 x1 y0 y1) := fun k hk => range_map_get hk
    obtain ⟨t, e, ho⟩ := C34_otsu (K := K) (V := V) (a := ⟨(List.range 256).map (fun k : Nat => rectCount p k x0 x1 y0 y1), 256, 0, true⟩)
      (hist := fun k => rectCount p k x0 x1 y0 y1) hget (fun k _ => (rectCount_le p k x0 x1 y0 y1).1) (by simp) hsum harea' down ⟨[]⟩
    refine ⟨t, fun h => ?_, ho⟩
    obtain ⟨t', e', ho'⟩ := C34_otsu (K := K) (V := V) (a := ⟨(List.range 256).map (fun k : Nat => rectCount p k x0 x1 y0 y1), 256, 0, true⟩)
      (hist := fun k => rectCount p k x0 x1 y0 y1) hget (fun k _ => (rectCount_le p k x0 x1 y0 y1).1) (by simp) hsum harea' down h
    rw [e', IsOtsu_unique ho ho']
  classical
  let th : Nat → Nat → Nat := fun i j =>
    if q : i < Grid.count input.width req ∧ j < Grid.count input.height req then (key i j q.1 q.2).choose else 0
  have he : ∀ i j (hi : i < Grid.count input.width req) (hj : j < Grid.count input.height req),
      th i j = (key i j hi hj).choose := fun i j hi hj => dif_pos (And.intro hi hj)
  obtain ⟨b, h', S, e, hp⟩ := C41_otsu_float hA (otsu := ComputeOtsu.mk false (0 : K) down 1) (useLocal := useLocal) (z := z)
    (th := fun i j => (th i j : Int)) ha hnb h1 hw hh hreq hcv hf
    harea hsize (fun i j h hi hj => by rw [he i j hi hj]; exact (key i j hi hj).choose_spec.1 h)
  exact ⟨b, h', S, th, e, fun i j hi hj => by rw [he i j hi hj]; exact (key i j hi hj).choose_spec.2, hp⟩

/-- The filter is undefined when a pixel cannot be converted to an 8-bit number, wherever that pixel is and whatever the other
pixels are. -/
theorem C41_float_undefined {A : OtsuOps V} {otsu : ComputeOtsu K} {useLocal : Bool}
    {z : V} {config : ConfigLength K} {h : Heap V} {st : Interleaved} {input output : Gray} {f : Nat → Nat → V}
    (ha : BlockArgs h st input output f) (hnb : st.numBands = 256)
    {req : Nat} (h1 : 1 ≤ req) (hw : req ≤ input.width) (hh : req ≤ input.height)
    (hreq : config.computeI ((min input.width input.height : Nat) : K) h = .ok (req : Int) h)
    (hsize : Grid.count input.width req * Grid.count input.height req * 256 < 4294967296)
    {x y : Nat} (hx : x < input.width) (hy : y < input.height) (hbad : A.toU8 (f x y) = none) :
    Blocks.process (BlockOtsuF.ops A otsu useLocal) z config st input output h = .ub := by
  rw [process_run ha.width ha.height hw ha.inValid.widthLt hreq]
  have hv := ha.inValid
  have hcw := Grid.count_pos h1 hw
  have hch := Grid.count_pos h1 hh
  have hsw := Grid.le_size h1 hw
  have hsh := Grid.le_size h1 hh
  have hcwl : Grid.count input.width req < P32 := Nat.lt_of_le_of_lt (Nat.div_le_self _ _) hv.widthLt
  have hchl : Grid.count input.height req < P32 := Nat.lt_of_le_of_lt (Nat.div_le_self _ _) hv.heightLt
  have hl : Grid.count input.width req * Grid.count input.height req * st.numBands < P32 := by rw [hnb]; exact hsize
  unfold Blocks.run
  rw [if_neg (by omega)]
  have hsel : Blocks.selectBlockSize (V := V) input.width input.height req h =
      .ok (Grid.size input.width req, Grid.size input.height req) h := by
    unfold Blocks.selectBlockSize Blocks.divM
    have e1 : ¬req = 0 := by omega
    have e2 : ¬input.height / req = 0 := by have : 1 ≤ input.height / req := hch; omega
    have e3 : ¬input.width / req = 0 := by have : 1 ≤ input.width / req := hcw; omega
    rw [if_neg e1, if_neg e1]
    refine (M.bind_ok (M.pure_run _ _)).trans ?_
    refine (M.bind_ok (M.pure_run _ _)).trans ?_
    rw [if_neg e2, if_neg e3]
    rfl
  rw [M.bind_ok hsel]
  have hdw : Blocks.divM (V := V) input.width (Grid.size input.width req) h = .ok (Grid.count input.width req) h := by
    unfold Blocks.divM
    rw [if_neg (by omega), Grid.div_size h1 hw]; rfl
  have hdh : Blocks.divM (V := V) input.height (Grid.size input.height req) h = .ok (Grid.count input.height req) h := by
    unfold Blocks.divM
    rw [if_neg (by omega), Grid.div_size h1 hh]; rfl
  rw [M.bind_ok hdw, M.bind_ok hdh]
  obtain ⟨st1, h2, e, hr⟩ := reshape_spec3 z ha.statsValid hcwl hchl
    (Nat.lt_of_le_of_lt (Nat.mul_le_mul_right _ (Nat.le_mul_of_pos_right _ hch)) hl) hl (Or.inl ha.statsOwner)
  rw [M.bind_ok e]
  obtain ⟨ew1, eh1, enb1⟩ := hr.shape
  have hs1 : st1.subimage = false := by rw [hr.sub]; exact ha.statsOwner
  have hin1 : input.buf ≠ st1.buf := by
    rcases hr.buf with ⟨e, _⟩ | e
    · rw [e]; exact ha.statsIn
    · have := hv.lt_next; omega
  simp only
  rw [computeStatistics_eq (BlockOtsuF.ops A otsu useLocal) (b := ⟨st1, Grid.size input.width req, Grid.size input.height req⟩) h1 hw hh
    hv.widthLt hv.heightLt rfl rfl (by simp only; rw [enb1]; exact hl) rfl rfl, M.bind_assoc']
  obtain ⟨_, h3, e3, q1, -⟩ := init_zero (A.count 0) st1 h2 hr.valid hs1
  have e3' : (BlockOtsuF.ops A otsu useLocal).init st1 h2 = .ok () h3 := e3
  rw [M.bind_ok e3']
  have hf3 : input.Shows h3 f := fun x y hx hy => by
    unfold Heap.px
    rw [q1 _ _ hin1, hr.frame _ _ ha.statsIn hv.lt_next]
    exact ha.shows x y hx hy
  have all : SpecOrUb (M.loop (Grid.count input.height req) (fun j => M.loop (Grid.count input.width req) (fun i =>
        (BlockOtsuF.ops A otsu useLocal).blockStats st1 (Grid.lo input.width req i) (Grid.lo input.height req j)
          (Grid.hi input.width req i - Grid.lo input.width req i) (Grid.hi input.height req j - Grid.lo input.height req j)
          ((j * Grid.count input.width req + i) * st1.numBands) input))) h3 (fun _ h' => input.Shows h' f ∧
      ∀ j, j < Grid.count input.height req → ∀ i, i < Grid.count input.width req → ∀ x y,
        Grid.lo input.width req i ≤ x → x < Grid.hi input.width req i → Grid.lo input.height req j ≤ y →
        y < Grid.hi input.height req j → (A.toU8 (f x y)).isSome) := by
    refine SpecOrUb.loop (fun n h' => input.Shows h' f ∧ ∀ j, j < n → ∀ i, i < Grid.count input.width req → ∀ x y,
        Grid.lo input.width req i ≤ x → x < Grid.hi input.width req i → Grid.lo input.height req j ≤ y →
        y < Grid.hi input.height req j → (A.toU8 (f x y)).isSome) ⟨hf3, fun j hj => absurd hj (by omega)⟩ ?_
    rintro j h4 hj ⟨hf4, hd4⟩
    have inner := SpecOrUb.loop (body := fun i =>
        (BlockOtsuF.ops A otsu useLocal).blockStats st1 (Grid.lo input.width req i) (Grid.lo input.height req j)
          (Grid.hi input.width req i - Grid.lo input.width req i) (Grid.hi input.height req j - Grid.lo input.height req j)
          ((j * Grid.count input.width req + i) * st1.numBands) input)
      (n := Grid.count input.width req) (fun n h' => input.Shows h' f ∧ ∀ i, i < n → ∀ x y,
        Grid.lo input.width req i ≤ x → x < Grid.hi input.width req i → Grid.lo input.height req j ≤ y →
        y < Grid.hi input.height req j → (A.toU8 (f x y)).isSome) (h := h4) ⟨hf4, fun i hi => absurd hi (by omega)⟩ (by
        rintro i h5 hi ⟨hf5, hd5⟩
        rcases otsuF_blockStats_ub (A := A) (st := st1) (f := f) (h := h5) (x0 := Grid.lo input.width req i)
          (idx := (j * Grid.count input.width req + i) * st1.numBands)
          (y0 := Grid.lo input.height req j) hv hf5 hin1 (Grid.lo_le h1 hw hi).2 (Grid.lo_le h1 hh hj).2 with e | ⟨a, h6, e, q1, q2⟩
        · exact Or.inl e
        · refine Or.inr ⟨a, h6, e, q1, fun i' hi' => ?_⟩
          by_cases q : i' = i
          · subst q; exact q2
          · exact hd5 i' (by omega))
    rcases inner with e | ⟨a, h6, e, q1, q2⟩
    · exact Or.inl e
    · refine Or.inr ⟨a, h6, e, q1, fun j' hj' => ?_⟩
      by_cases q : j' = j
      · subst q; exact q2
      · exact hd4 j' (by omega)
  rcases all with e | ⟨a, h6, e, -, q2⟩
  · exact M.bind_ub e
  · have bx := Grid.has_blockOf h1 hw hx
    have by' := Grid.has_blockOf h1 hh hy
    have := q2 _ by'.1 _ bx.1 x y bx.2.1 bx.2.2 by'.2.1 by'.2.2
    rw [hbad] at this
    cases this

/-- Exact numbers: conversion truncates, and is undefined when the truncated number is not between 0 and 255. -/
def exactOtsuF : OtsuOps K where
  toU8 v := if U8.InRange (truncK v) then some (truncK v) else none
  count c := (c : K)
  value v := ⌊v⌋
  bit b := if b then 1 else 0

theorem truncK_u8 {v : K} : (0 ≤ truncK v ∧ truncK v ≤ 255) ↔ -1 < v ∧ v < 256 := by
  unfold truncK
  by_cases h : 0 ≤ v
  · rw [if_pos h]
    have h0 : 0 ≤ ⌊v⌋ := Int.floor_nonneg.mpr h
    constructor
    · rintro ⟨-, h2⟩
      refine ⟨lt_of_lt_of_le (by norm_num) h, ?_⟩
      have := Int.floor_lt.mp (show ⌊v⌋ < 256 by omega)
      exact_mod_cast this
    · rintro ⟨-, h2⟩
      have := Int.floor_lt.mpr (show v < ((256 : Int) : K) by exact_mod_cast h2)
      omega
  · rw [if_neg h]
    have hn : v < 0 := not_le.mp h
    have h0 : ⌈v⌉ ≤ 0 := Int.ceil_le.mpr (by push_cast; exact hn.le)
    constructor
    · rintro ⟨h1, -⟩
      refine ⟨?_, lt_trans hn (by norm_num)⟩
      have := Int.lt_ceil.mp (show -1 < ⌈v⌉ by omega)
      exact_mod_cast this
    · rintro ⟨h1, -⟩
      have := Int.lt_ceil.mpr (show ((-1 : Int) : K) < v by exact_mod_cast h1)
      omega

/-- With exact numbers the standard filter is defined exactly when all pixels are between -1 and 256, both excluded, and then each
pixel is decided by its truncated value and the threshold that maximises the between-class variance of the truncated pixels in
the local blocks. -/
theorem C41_float_exact {useLocal down : Bool}
    {z : K} {config : ConfigLength K} {h : Heap K} {st : Interleaved} {input output : Gray} {f : Nat → Nat → K}
    (ha : BlockArgs h st input output f) (hnb : st.numBands = 256)
    {req : Nat} (h1 : 1 ≤ req) (hw : req ≤ input.width) (hh : req ≤ input.height)
    (hreq : config.computeI ((min input.width input.height : Nat) : K) h = .ok (req : Int) h)
    (harea : input.width * input.height < 2147483648)
    (hsize : Grid.count input.width req * Grid.count input.height req * 256 < 4294967296) :
    (¬(∀ x y, x < input.width → y < input.height → -1 < f x y ∧ f x y < 256) →
      Blocks.process (BlockOtsuF.ops exactOtsuF (ComputeOtsu.mk false (0 : K) down 1) useLocal) z config st input output h = .ub) ∧
    ((∀ x y, x < input.width → y < input.height → -1 < f x y ∧ f x y < 256) →
      ∃ b h', ∃ th : Nat → Nat → Nat,
        Blocks.process (BlockOtsuF.ops exactOtsuF (ComputeOtsu.mk false (0 : K) down 1) useLocal) z config st input output h = .ok b h' ∧
        (∀ i j, i < Grid.count input.width req → j < Grid.count input.height req →
          IsOtsu K 256 (fun k => rectCount (fun x y => truncK (f x y)) k
            (localLo useLocal input.width req i) (localHi useLocal input.width req i)
            (localLo useLocal input.height req j) (localHi useLocal input.height req j)) (th i j)) ∧
        ∀ x y, x < input.width → y < input.height →
          h'.px output x y = some (if down = decide (truncK (f x y) ≤
            th (Grid.blockOf input.width req x) (Grid.blockOf input.height req y)) then 1 else 0)) := by
  constructor
  · intro hn
    simp only [not_forall] at hn
    obtain ⟨x, y, hx, hy, hb⟩ := hn
    refine C41_float_undefined ha hnb h1 hw hh hreq hsize hx hy ?_
    show (if U8.InRange (truncK (f x y)) then some (truncK (f x y)) else none) = none
    exact if_neg (fun q => hb (truncK_u8.mp q))
  · intro hr
    have hp : ∀ x y, x < input.width → y < input.height → 0 ≤ truncK (f x y) ∧ truncK (f x y) ≤ 255 :=
      fun x y hx hy => truncK_u8.mpr (hr x y hx hy)
    obtain ⟨b, h', S, th, e, ho, hF⟩ := C41_standard_float (A := exactOtsuF) (fun c => Int.floor_intCast c) (useLocal := useLocal)
      (down := down) (z := z) (p := fun x y => truncK (f x y)) ha hnb h1 hw hh hreq
      (fun x y hx hy => if_pos (hp x y hx hy)) hp harea hsize
    refine ⟨b, h', th, e, ho, fun x y hx hy => ?_⟩
    rw [hF.pix x y (by rw [ha.width]; exact hx) (by rw [ha.height]; exact hy)]
    simp only [exactOtsuF, beq_iff_eq]

/-- A 4x2 image with fractions, one of them negative, meets the hypotheses. -/
example : BlockArgs
    (⟨[some [1/2, 2, 30, 101/10, -1/2, 3, 200, 255], some (List.replicate 8 9), some []]⟩ : Heap ℚ)
    ⟨2, 0, 0, 0, 256, 0, 0, false⟩ ⟨0, 8, 4, 2, 0, 4, false⟩ ⟨1, 8, 4, 2, 0, 4, false⟩
    (fun x y => [1/2, 2, 30, 101/10, -1/2, 3, 200, 255].getD (y * 4 + x) 0) ∧
    (ConfigLength.fixed (2 : ℚ)).computeI ((min 4 2 : Nat) : ℚ) (⟨[]⟩ : Heap ℚ) = .ok 2 ⟨[]⟩ := by
  refine ⟨⟨by decide +kernel, ?_, by decide +kernel, rfl, rfl, Or.inr (fun _ _ _ _ _ _ _ _ e => absurd e (by decide)),
    by decide +kernel, rfl, by decide, by decide⟩, by decide +kernel⟩
  have : ∀ x < 4, ∀ y < 2, (⟨[some [1/2, 2, 30, 101/10, -1/2, 3, 200, 255], some (List.replicate 8 9), some []]⟩ : Heap ℚ).px
      ⟨0, 8, 4, 2, 0, 4, false⟩ x y = some ([1/2, 2, 30, 101/10, -1/2, 3, 200, 255].getD (y * 4 + x) 0) := by decide +kernel
  exact fun x y hx hy => this x hx y hy

/-- A single pixel -1 makes the call undefined. -/
example :
    Blocks.process (BlockOtsuF.ops exactOtsuF (ComputeOtsu.mk false (0 : ℚ) true 1) false) 0 (ConfigLength.fixed (1 : ℚ))
      ⟨2, 0, 0, 0, 256, 0, 0, false⟩ ⟨0, 1, 1, 1, 0, 1, false⟩ ⟨1, 1, 1, 1, 0, 1, false⟩
      (⟨[some [-1], some [7], some []]⟩ : Heap ℚ) = .ub := by decide +kernel

end Boof
