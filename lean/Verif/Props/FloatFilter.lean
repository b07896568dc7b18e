import Verif.Props.BlocksFloat
import Verif.Props.OtsuFloat
import Verif.Props.NativeFilter
import Verif.Spec.FloatFilter
/-
C74 and C82 for images of floating point numbers: threshold filters called from Java with a `GrayF32` input.
-/
namespace Boof
open M

section
variable {V K : Type} [Field K] [LinearOrder K] [IsStrictOrderedRing K] [FloorRing K]

/-! ## One call -/

/-- `NativeBlockMean.process` on a `GrayF32`, whatever the pixels and however the arithmetic rounds. -/
theorem C74_blockMean_float (A : MeanOps V) {useLocal down : Bool} {z : V} {config : ConfigLength K} {h : Heap V} {st : Interleaved}
    {ji jo : JImage} {f : Nat → Nat → V} (ha : JArgs h ji jo f) (hk : KeptStats h st ji jo) (hnb : st.numBands = 1)
    {req w ht' : Nat} (ew : ji.width = w) (eh : ji.height = ht') (h1 : 1 ≤ req) (hw : req ≤ w) (hh : req ≤ ht')
    (hreq : ∀ h : Heap V, config.computeI ((min w ht' : Nat) : K) h = .ok (req : Int) h) (c1 c2 : Bool) (pins : List Pin) :
    ∃ b s', nativeThreshold z (fun i o => Blocks.process (BlockMeanF.ops A useLocal down) z config st i o >>= fun b => pure (b, o))
        ji jo c1 c2 ⟨h, pins⟩ = .ok (some b) s' ∧
      JavaEffect ⟨h, pins⟩ s' (fun b => b = st.buf) jo
        (fun x y => A.bit (down == A.le (f x y) (localMeanF A.add A.zero A.divide useLocal w ht' req
            (meanStatF A.add A.zero A.scaled w ht' req f) (Grid.blockOf w req x) (Grid.blockOf ht' req y)))) ∧
      KeptStats s'.heap b.stats ji jo ∧ b.stats.numBands = 1 ∧ (b.stats.buf = st.buf ∨ h.next ≤ b.stats.buf) := by
  have e1 : ji.width.toNat = w := by omega
  have e2 : ji.height.toNat = ht' := by omega
  have hop := op2_blocks (w := ji.width.toNat) (ht := ji.height.toNat) (cw := Grid.count w req) (ch := Grid.count ht' req) (f := f) hk
    (P := fun F => F = fun x y => A.bit (down == A.le (f x y) (localMeanF A.add A.zero A.divide useLocal w ht' req
            (meanStatF A.add A.zero A.scaled w ht' req f) (Grid.blockOf w req x) (Grid.blockOf ht' req y))))
    (process := Blocks.process (BlockMeanF.ops A useLocal down) z config st)
    (fun h1' i o hb ew eh => by
      rw [e1] at ew; rw [e2] at eh
      obtain ⟨b, h', e, hF⟩ := C39_mean_float A (useLocal := useLocal) (down := down) (z := z) hb hnb h1 (by omega)
        (by omega) (by rw [ew, eh]; exact hreq h1')
      rw [ew, eh] at hF
      exact ⟨b, h', _, _, e, rfl, hF⟩) ha.lt
  obtain ⟨b, s', F, rfl, e, hJ, hQ, -, -, hb, hd⟩ := nativeThreshold_run z ha.input ha.output ha.apart ha.width ha.height
    (fun b c => by rw [c]; exact hk.1.lt_next) (fun b c => by rw [c]; exact hk.2.2) ha.shows hop c1 c2 pins
  exact ⟨b, s', e, hJ, hQ, hb.trans hnb, hd⟩

/-- `NativeBlockMinMax.process` on a `GrayF32`, for any rounding.  MISSING for the full property: the largest pixel of a group of
blocks when it is below the smallest positive normalised number, as in C40. -/
theorem C74_blockMinMax_float_partial [LinearOrder V] (A : MinMaxOps V) {minimumSpread : V}
    {useLocal down : Bool} {z : V} {config : ConfigLength K} {h : Heap V} {st : Interleaved} {ji jo : JImage}
    {f : Nat → Nat → V} (ha : JArgs h ji jo f) (hk : KeptStats h st ji jo) (hnb : st.numBands = 2)
    {req w ht' : Nat} (ew : ji.width = w) (eh : ji.height = ht') (h1 : 1 ≤ req) (hw : req ≤ w) (hh : req ≤ ht')
    (hreq : ∀ h : Heap V, config.computeI ((min w ht' : Nat) : K) h = .ok (req : Int) h)
    (hhuge : ∀ x y, x < w → y < ht' → f x y ≤ A.huge)
    (hsize : Grid.count w req * Grid.count ht' req * 2 < 4294967296) (c1 c2 : Bool) (pins : List Pin) :
    ∃ b s', ∃ mn mx : Nat → Nat → V,
      nativeThreshold z (fun i o => Blocks.process (BlockMinMaxF.ops A minimumSpread useLocal down) z config st i o >>=
        fun b => pure (b, o)) ji jo c1 c2 ⟨h, pins⟩ = .ok (some b) s' ∧
      (∀ i j, i < Grid.count w req → j < Grid.count ht' req →
        IsRectMin f (localLo useLocal w req i) (localHi useLocal w req i)
          (localLo useLocal ht' req j) (localHi useLocal ht' req j) (mn i j) ∧
        IsRectMax f (localLo useLocal w req i) (localHi useLocal w req i)
          (localLo useLocal ht' req j) (localHi useLocal ht' req j) (mx i j)) ∧
      JavaEffect ⟨h, pins⟩ s' (fun b => b = st.buf) jo
        (fun x y =>
          let i := Grid.blockOf w req x
          let j := Grid.blockOf ht' req y
          if A.sub (max (mx i j) A.tiny) (mn i j) ≤ minimumSpread then A.bit true
          else A.bit (down == decide (f x y ≤ A.mid (max (mx i j) A.tiny) (mn i j)))) ∧
      KeptStats s'.heap b.stats ji jo ∧ b.stats.numBands = 2 ∧ (b.stats.buf = st.buf ∨ h.next ≤ b.stats.buf) := by
  have e1 : ji.width.toNat = w := by omega
  have e2 : ji.height.toNat = ht' := by omega
  have hop := op2_blocks (w := ji.width.toNat) (ht := ji.height.toNat) (cw := Grid.count w req) (ch := Grid.count ht' req) (f := f) hk
    (P := fun F => ∃ mn mx : Nat → Nat → V,
      (∀ i j, i < Grid.count w req → j < Grid.count ht' req →
        IsRectMin f (localLo useLocal w req i) (localHi useLocal w req i)
          (localLo useLocal ht' req j) (localHi useLocal ht' req j) (mn i j) ∧
        IsRectMax f (localLo useLocal w req i) (localHi useLocal w req i)
          (localLo useLocal ht' req j) (localHi useLocal ht' req j) (mx i j)) ∧
      F = (fun x y =>
          let i := Grid.blockOf w req x
          let j := Grid.blockOf ht' req y
          if A.sub (max (mx i j) A.tiny) (mn i j) ≤ minimumSpread then A.bit true
          else A.bit (down == decide (f x y ≤ A.mid (max (mx i j) A.tiny) (mn i j)))))
    (process := Blocks.process (BlockMinMaxF.ops A minimumSpread useLocal down) z config st)
    (fun h1' i o hb ew eh => by
      rw [e1] at ew; rw [e2] at eh
      obtain ⟨b, h', S, mn, mx, e, hm, hF⟩ := C40_minmax_float_all A (minimumSpread := minimumSpread)
        (useLocal := useLocal) (down := down) (z := z) hb hnb h1 (by omega)
        (by omega) (by rw [ew, eh]; exact hreq h1') (by rw [ew, eh]; exact hhuge) (by rw [ew, eh]; exact hsize)
      rw [ew, eh] at hF hm
      exact ⟨b, h', S, _, e, ⟨mn, mx, hm, rfl⟩, hF⟩) ha.lt
  obtain ⟨b, s', F, ⟨mn, mx, hm, rfl⟩, e, hJ, hQ, -, -, hb, hd⟩ := nativeThreshold_run z ha.input ha.output ha.apart ha.width ha.height
    (fun b c => by rw [c]; exact hk.1.lt_next) (fun b c => by rw [c]; exact hk.2.2) ha.shows hop c1 c2 pins
  exact ⟨b, s', mn, mx, e, hm, hJ, hQ, hb.trans hnb, hd⟩

/-! ## The whole life -/

theorem FilterCall.MarksV.of {c : FilterCall} {zero one : V} {F : Nat → Nat → V} {sel : Nat → Nat → Prop}
    (h : ∀ x y : Nat, (x : Int) < c.input.width → (y : Int) < c.input.height → (F x y = one ∧ sel x y) ∨ (F x y = zero ∧ ¬sel x y)) :
    c.MarksV zero one F sel := fun x y hx hy => by
  rcases h x y hx hy with ⟨a, b⟩ | ⟨a, b⟩
  · exact ⟨fun _ => a, fun c => absurd b c⟩
  · exact ⟨fun c => absurd c b, fun _ => a⟩

theorem JavaLive.all {java : Nat → Prop} {h : Heap V} (hj : JavaLive java h) : JavaAll java (fun _ => True) h := fun b hb => by
  obtain ⟨l, hl⟩ := isSome_get (hj b hb)
  exact ⟨l, hl, fun _ _ => trivial⟩

theorem marksV_iff {P : Prop} [Decidable P] {down : Bool} (bit : Bool → V) :
    (bit (down == decide P) = bit true ∧ (P ↔ down = true)) ∨ (bit (down == decide P) = bit false ∧ ¬(P ↔ down = true)) := by
  by_cases h : P <;> cases down <;> simp [h]

/-- `NativeGlobalFixed` for `GrayF32`, for every threshold. -/
theorem C82_globalFixed_float {java : Nat → Prop} {s : Jvm K} (hj : JavaLive java s.heap) {cs : List FilterCall}
    (hok : ∀ c ∈ cs, c.Ok java s.heap) (threshold : K) (down : Bool) :
    ∃ s', (nativeGlobalFixedF threshold down).life 0 cs s = .ok () s' ∧ LifeOf java (FixedResultF threshold down) cs s s' := by
  have : Inhabited K := ⟨0⟩
  refine life_run (R := fun _ => True) (Inv := fun _ _ => True) hj.all hok
    ⟨_, _, rfl, trivial, fun _ _ => rfl⟩ ?_ (fun h _ _ => ⟨h, rfl, fun _ _ => rfl⟩)
  intro c _ ⟨h, pins⟩ st f hi hja hc ha hf
  have hop : Op2 h (fun _ => False) c.input.width.toNat c.input.height.toNat f
      (fun F => F = fun x y => if (if down then decide (f x y ≤ threshold) else decide (threshold < f x y)) = true then 1 else 0)
      ((nativeGlobalFixedF threshold down).process st) (fun _ _ => True) := by
    intro h1 i o _ _ vi vo ew eh ew' eh' _ _ _ _ hne _ _ hf
    obtain ⟨o', h2, e, p, -⟩ := C33_threshold (fun a b => decide (a ≤ b)) (fun a b => decide (b < a)) (fun b => if b then (1 : K) else 0)
      0 threshold down vi vo hf (Or.inr ⟨by omega, by omega⟩) (Or.inr (Or.inl hne))
    obtain ⟨rfl, pt⟩ := p.inPlace (by omega) (by omega)
    refine ⟨_, h2, _, rfl, (M.bind_ok e).trans rfl, ?_, Nat.le_of_eq pt.next.symm, ?_, fun b _ _ => pt.alive b, fun _ _ => trivial⟩
    · intro x y hx hy
      exact pt.pix x y hx hy
    · intro b k _ _ hpx
      exact pt.frame b k (fun x y hx hy => hpx x y (by omega) (by omega))
  obtain ⟨r, s', F, rfl, e, hJ, hQ⟩ := nativeThreshold_run 0 ha.input ha.output ha.apart ha.width ha.height
    (fun _ c => c.elim) (fun _ c => c.elim) ha.shows hop c.copyIn c.copyOut pins
  refine ⟨r, s', _, _, e, ?_, fun _ _ _ _ => trivial, fun b c => c.elim, hJ, trivial⟩
  intro x y hx hy
  cases down <;> simp

/-- `NativeGlobalOtsu` for `GrayF32`.  MISSING for the full property: that the pixels marked are those of one of the classes of Otsu's
split, which holds for whole numbers from 0 on only (C35); pixels outside the range given. -/
theorem C82_globalOtsu_float_partial {java : Nat → Prop} {s : Jvm K} {minValue maxValue : K} (hj : JavaLive java s.heap)
    (hw : JavaWithin java minValue maxValue s.heap) {cs : List FilterCall}
    (hok : ∀ c ∈ cs, c.Ok java s.heap) (junk : Nat → Int) (h0 : minValue ≤ 0) (h1 : 1 ≤ maxValue)
    (h2 : maxValue - minValue < 2147483647) (down : Bool) :
    ∃ s', (nativeGlobalOtsuF junk minValue maxValue down).life 0 cs s = .ok () s' ∧
      LifeOf java (OtsuResultF minValue maxValue down) cs s s' := by
  have : Inhabited K := ⟨0⟩
  have hall : JavaAll java (fun v => minValue ≤ v ∧ v ≤ maxValue) s.heap := fun b hb => by
    obtain ⟨l, hl⟩ := isSome_get (hj b hb)
    exact ⟨l, hl, hw b l hb hl⟩
  refine life_run (R := fun v => minValue ≤ v ∧ v ≤ maxValue) (Inv := fun _ _ => True) hall hok
    ⟨_, _, rfl, trivial, fun _ _ => rfl⟩ ?_ (fun h _ _ => ⟨h, rfl, fun _ _ => rfl⟩)
  intro c _ ⟨h, pins⟩ st f hi hja hc ha hf
  have hop : Op2 h (fun _ => False) c.input.width.toNat c.input.height.toNat f
      (fun F => ∃ v : Nat, OtsuSpec.IsOtsu K (⌊maxValue - minValue⌋.toNat + 1)
          (fun k => pixelCount c.input.width.toNat c.input.height.toNat (fun x y => ⌊f x y - minValue⌋) k) v ∧
        ∀ x y, F x y = if down then (if f x y ≤ v then 1 else 0) else (if v < f x y then 1 else 0))
      ((nativeGlobalOtsuF junk minValue maxValue down).process st) (fun _ _ => True) := by
    intro h1' i o _ _ vi vo ew eh ew' eh' _ _ _ _ hne _ _ hsh
    obtain ⟨v, F, o', h2', e, hO, p, hF, -⟩ := C35_float_partial vi vo hsh (lo := minValue) (hi := maxValue) (by linarith)
      (fun x y hx hy => hf x y (by omega) (by omega)) h2 (Or.inr ⟨by omega, by omega⟩) (Or.inr (Or.inl hne)) down junk
    rw [ew, eh] at hO
    obtain ⟨rfl, pt⟩ := p.inPlace (by omega) (by omega)
    refine ⟨_, h2', F, ⟨v, hO, hF⟩, (M.bind_ok e).trans rfl, ?_, Nat.le_of_eq pt.next.symm, ?_, fun b _ _ => pt.alive b,
      fun _ _ => trivial⟩
    · intro x y hx hy
      exact pt.pix x y hx hy
    · intro b k _ _ hpx
      exact pt.frame b k (fun x y hx hy => hpx x y (by omega) (by omega))
  obtain ⟨r, s', F, ⟨v, hO, hF⟩, e, hJ, hQ⟩ := nativeThreshold_run 0 ha.input ha.output ha.apart ha.width ha.height
    (fun _ c => c.elim) (fun _ c => c.elim) ha.shows hop c.copyIn c.copyOut pins
  refine ⟨r, s', _, F, e, ⟨v, hO, ?_⟩, fun x y _ _ => ?_, fun b c => c.elim, hJ, trivial⟩
  · intro x y hx hy
    rw [hF]
    cases down <;> simp
  · rw [hF]
    constructor <;> split <;> split <;> linarith

/-- `NativeLocalMean` for `GrayF32`, exact arithmetic, for any width from 2 on and any scale.  MISSING for the full property: rounding,
images which are at least as wide as the window and not as tall, for which the call is undefined behaviour
(`C54_vertical_refuted`), and widths below 2. -/
theorem C82_localMean_float_partial (E : GrowArray.Elem K) (hz : E.ms E.zero = E.zero) {java : Nat → Prop} {s : Jvm K}
    (hj : JavaLive java s.heap) {cs : List FilterCall}
    (hok : ∀ c ∈ cs, c.Ok java s.heap) {width : ConfigLength K} (scale : K) (down : Bool)
    (hreq : ∀ c ∈ cs, ∃ n, Requested width c.input.width.toNat c.input.height.toNat n ∧ 2 ≤ n ∧
      c.input.width + (n + 1) ≤ 2147483648 ∧ c.input.height + (n + 1) ≤ 2147483648 ∧
      ((2 * (n / 2) + 1 : Nat) ≤ c.input.height ∨ c.input.width < (2 * (n / 2) + 1 : Nat))) :
    ∃ s', (nativeLocalMeanF E width scale down).life 0 cs s = .ok () s' ∧ LifeOf java (LocalMeanResultF width scale down) cs s s' := by
  have : Inhabited K := ⟨0⟩
  refine life_run (R := fun _ => True) (Inv := LocalInv java) hj.all hok
    (LocalInv.create 0 hj) ?_ (fun h st hi => hi.destroy)
  intro c hcs ⟨h, pins⟩ st f hi hja hc ha hf
  obtain ⟨n, hb, n2, b1, b2, hshape⟩ := hreq c hcs
  have w0 := hc.input.width.1
  have g0 := hc.input.height.1
  obtain ⟨v1, v2, s1, s2, ne, j1, j2, hls⟩ := hi
  have hk : Kept h st.1 st.2 c.input c.output := by
    refine ⟨v1, v2, s1, s2, ne, ?_⟩
    rintro g (rfl | rfl)
    · exact ⟨fun e => j1 (hc.inJava _ e), fun e => j1 (hc.outJava _ e)⟩
    · exact ⟨fun e => j2 (hc.inJava _ e), fun e => j2 (hc.outJava _ e)⟩
  have harea := hc.input.area
  obtain ⟨st1, st2, s', e, hJ, hK, q1, q2, q3⟩ := C74_localMean_float_partial E hz ha hk
    (width := width) (scale := scale) (down := down) (n := n) (fun h => hb.computeI (by omega) (by omega) h) n2 (by omega) (by omega)
    hls (by omega) c.copyIn c.copyOut pins
  refine ⟨(st1, st2), s', fun b => b = st.1.buf ∨ b = st.2.buf, _, e, ⟨n, hb, fun x y hx hy => ⟨fun p => if_pos p, fun p => if_neg p⟩⟩,
    fun _ _ _ _ => trivial, ?_, hJ, ?_⟩
  · rintro b (rfl | rfl)
    · exact j1
    · exact j2
  · obtain ⟨k1, k2, k3, k4, k5, -⟩ := hK
    refine ⟨k1, k2, k3, k4, k5, ?_, ?_, ?_⟩
    · rcases q1 with q | q
      · rw [show st1.buf = _ from q]; exact j1
      · exact not_java_next hja q
    · rcases q2 with q | q
      · rw [show st2.buf = _ from q]; exact j2
      · exact not_java_next hja q
    · show st2.dataLength < _
      omega

/-- `NativeBlockMean` for `GrayF32`, for every scale and however the arithmetic rounds; `hreq`: every image is at least as large as
the blocks requested for it. -/
theorem C82_blockMean_float [Inhabited V] (A : MeanOps V) (z : V) {java : Nat → Prop} {s : Jvm V} (hj : JavaLive java s.heap)
    {cs : List FilterCall} (hok : ∀ c ∈ cs, c.Ok java s.heap) {length : ConfigLength K} (down useLocal : Bool)
    (hreq : ∀ c ∈ cs, ∃ req, c.Blocks length req) :
    ∃ s', (nativeBlockMeanF A z length down useLocal).life z cs s = .ok () s' ∧
      LifeOf java (BlockMeanResultF A.zero A.add A.scaled A.divide A.le A.bit length down useLocal) cs s s' := by
  refine life_run (R := fun _ => True) (Inv := BlockInv java 1) hj.all hok
    (BlockInv.create z (by decide) (by decide) _ hj) ?_ (fun h st hi => hi.destroy)
  intro c hcs ⟨h, pins⟩ st f hi hja hc ha hf
  obtain ⟨req, hb⟩ := hreq c hcs
  have r1 := hb.2.1
  have r2 := hb.2.2.1
  have r3 := hb.2.2.2
  have ew : c.input.width = (c.input.width.toNat : Int) := by omega
  have eh : c.input.height = (c.input.height.toNat : Int) := by omega
  have hcomp := fun h' : Heap V => hb.computeI hc.input.width.2 h'
  obtain ⟨b, s', e, hJ, hQ, hn, hbuf⟩ := C74_blockMean_float A (useLocal := useLocal) (down := down) (z := z) (config := length)
    ha (hi.kept hc) hi.2.2.2 ew eh r1 (by omega) (by omega) hcomp c.copyIn c.copyOut pins
  refine ⟨b, s', fun b => b = st.stats.buf, _, e, ⟨req, hb, .of (fun x y hx hy => ?_)⟩, fun _ _ _ _ => trivial,
    fun b c d => hi.2.2.1 (by rw [← show b = st.stats.buf from c]; exact d), hJ, hi.next hQ hn hbuf hja⟩
  cases down <;> cases A.le (f x y) (localMeanF A.add A.zero A.divide useLocal c.input.width.toNat c.input.height.toNat req
    (meanStatF A.add A.zero A.scaled c.input.width.toNat c.input.height.toNat req f)
    (Grid.blockOf c.input.width.toNat req x) (Grid.blockOf c.input.height.toNat req y)) <;> simp

/-- `NativeBlockMinMax` for `GrayF32`, for every scale and spread and however the arithmetic rounds.  MISSING for the full property:
images with a group of blocks that has no positive pixel (C40), about which `BlockMinMaxResultF` says nothing. -/
theorem C82_blockMinMax_float_partial [LinearOrder V] [Inhabited V] (A : MinMaxOps V) (z : V) {java : Nat → Prop} {s : Jvm V}
    (hj : JavaLive java s.heap) (hu : JavaUpTo java A.huge s.heap) (hbit : ∀ b, A.bit b ≤ A.huge)
    {cs : List FilterCall} (hok : ∀ c ∈ cs, c.Ok java s.heap) {length : ConfigLength K} (down : Bool) (minimumSpread : V)
    (useLocal : Bool) (hreq : ∀ c ∈ cs, ∃ req, c.Blocks length req) :
    ∃ s', (nativeBlockMinMaxF A z length down minimumSpread useLocal).life z cs s = .ok () s' ∧
      LifeOf java (BlockMinMaxResultF A.tiny A.sub A.mid A.bit length down minimumSpread useLocal) cs s s' := by
  have hall : JavaAll java (fun v => v ≤ A.huge) s.heap := fun b hb => by
    obtain ⟨l, hl⟩ := isSome_get (hj b hb)
    exact ⟨l, hl, hu b l hb hl⟩
  refine life_run (R := fun v => v ≤ A.huge) (Inv := BlockInv java 2) hall hok
    (BlockInv.create z (by decide) (by decide) _ hj) ?_ (fun h st hi => hi.destroy)
  intro c hcs ⟨h, pins⟩ st f hi hja hc ha hf
  obtain ⟨req, hb⟩ := hreq c hcs
  have r1 := hb.2.1
  have r2 := hb.2.2.1
  have r3 := hb.2.2.2
  have ew : c.input.width = (c.input.width.toNat : Int) := by omega
  have eh : c.input.height = (c.input.height.toNat : Int) := by omega
  have hcomp := fun h' : Heap V => hb.computeI hc.input.width.2 h'
  have harea := hc.input.area
  obtain ⟨b, s', mn, mx, e, hm, hJ, hQ, hn, hbuf⟩ := C74_blockMinMax_float_partial A
    (minimumSpread := minimumSpread) (useLocal := useLocal) (down := down) (z := z)
    (config := length) ha (hi.kept hc) hi.2.2.2 ew eh r1 (by omega) (by omega) hcomp
    (fun x y hx hy => hf x y (by omega) (by omega))
    (by
      have a : Grid.count c.input.width.toNat req * Grid.count c.input.height.toNat req ≤ c.input.width.toNat * c.input.height.toNat :=
        Nat.mul_le_mul (Nat.div_le_self ..) (Nat.div_le_self ..)
      omega) c.copyIn c.copyOut pins
  refine ⟨b, s', fun b => b = st.stats.buf, _, e, ⟨req, hb, fun hbr => .of (fun x y hx hy => ?_)⟩, fun x y hx hy => ?_,
    fun b c d => hi.2.2.1 (by rw [← show b = st.stats.buf from c]; exact d), hJ, hi.next hQ hn hbuf hja⟩
  · have bx := (Grid.has_blockOf r1 (show req ≤ c.input.width.toNat by omega) (show x < c.input.width.toNat by omega)).1
    have by' := (Grid.has_blockOf r1 (show req ≤ c.input.height.toNat by omega) (show y < c.input.height.toNat by omega)).1
    obtain ⟨i1, i2⟩ := hm _ _ bx by'
    obtain ⟨x', y', c1, c2, c3, c4, c5⟩ := hbr _ _ bx by'
    have ht := le_trans c5 (i2.1 x' y' c1 c2 c3 c4)
    simp only [max_eq_left ht]
    generalize Grid.blockOf c.input.width.toNat req x = i at *
    generalize Grid.blockOf c.input.height.toNat req y = j at *
    by_cases d : A.sub (mx i j) (mn i j) ≤ minimumSpread
    · left
      exact ⟨if_pos d, mn i j, mx i j, i1, i2, Or.inl d⟩
    · rcases marksV_iff A.bit (P := f x y ≤ A.mid (mx i j) (mn i j)) (down := down) with ⟨u1, u2⟩ | ⟨u1, u2⟩
      · left
        exact ⟨(if_neg d).trans u1, mn i j, mx i j, i1, i2, Or.inr u2⟩
      · right
        refine ⟨(if_neg d).trans u1, ?_⟩
        rintro ⟨a, b, ha, hb, hab⟩
        have ea : a = mn i j := by
          obtain ⟨p, x1, y1, q1, q2, q3, q4, q5⟩ := ha
          obtain ⟨p', x2, y2, q1', q2', q3', q4', q5'⟩ := i1
          exact le_antisymm (by rw [← q5']; exact p x2 y2 q1' q2' q3' q4') (by rw [← q5]; exact p' x1 y1 q1 q2 q3 q4)
        have eb : b = mx i j := by
          obtain ⟨p, x1, y1, q1, q2, q3, q4, q5⟩ := hb
          obtain ⟨p', x2, y2, q1', q2', q3', q4', q5'⟩ := i2
          exact le_antisymm (by rw [← q5]; exact p' x1 y1 q1 q2 q3 q4) (by rw [← q5']; exact p x2 y2 q1' q2' q3' q4')
        rw [ea, eb] at hab
        exact hab.elim d u2
  · simp only
    split <;> exact hbit _

end

/-! ## Witness: two calls of different sizes, the second with a subimage -/

/-- Four Java arrays. -/
def floatHeap : Heap ℚ := ⟨[some [9, 1/2, -20, 30, 40, 9, 5, 6, 70, 80, 9], some (List.replicate 8 7),
  some ((List.range 24).map (fun (k : Nat) => (k : ℚ) / 2)), some (List.replicate 24 7)]⟩

def floatCalls : List FilterCall := [
  ⟨⟨some 0, 4, 2, 5, 1⟩, ⟨some 1, 4, 2, 4, 0⟩, true, false⟩,
  ⟨⟨some 2, 6, 4, 6, 0⟩, ⟨some 3, 6, 4, 6, 0⟩, false, true⟩]

def floatJava (b : Nat) : Prop := b < 4

theorem float_live : JavaLive floatJava floatHeap := by
  intro b hb
  have hb : b < 4 := hb
  have : ∀ b < 4, (floatHeap.get b).isSome = true := by decide +kernel
  exact this b hb

theorem float_upTo : JavaUpTo floatJava (exactMinMaxF 1 1000).huge floatHeap := by
  intro b l hb
  have hb : b < 4 := hb
  have : b = 0 ∨ b = 1 ∨ b = 2 ∨ b = 3 := by omega
  rcases this with rfl | rfl | rfl | rfl <;> (intro e; cases e; decide +kernel)

theorem float_ok : ∀ c ∈ floatCalls, c.Ok floatJava floatHeap := by
  intro c hc
  simp only [floatCalls, List.mem_cons, List.not_mem_nil, or_false] at hc
  rcases hc with rfl | rfl
  · refine ⟨⟨⟨0, _, rfl, rfl, by decide, fun y hy => ?_⟩, by decide, by decide, by decide, by decide⟩,
      ⟨⟨1, _, rfl, rfl, by decide, fun y hy => ?_⟩, by decide, by decide, by decide, by decide⟩, by decide, rfl, rfl, ?_, ?_⟩
    · have hy : (y : Int) < 2 := hy
      show (1 : Int) + y * 5 + 4 ≤ 11
      omega
    · have hy : (y : Int) < 2 := hy
      show (0 : Int) + y * 4 + 4 ≤ 8
      omega
    · intro a e; cases e; show 0 < 4; decide
    · intro a e; cases e; show 1 < 4; decide
  · refine ⟨⟨⟨2, _, rfl, rfl, by decide, fun y hy => ?_⟩, by decide, by decide, by decide, by decide⟩,
      ⟨⟨3, _, rfl, rfl, by decide, fun y hy => ?_⟩, by decide, by decide, by decide, by decide⟩, by decide, rfl, rfl, ?_, ?_⟩
    · have hy : (y : Int) < 4 := hy
      show (0 : Int) + y * 6 + 6 ≤ 24
      omega
    · have hy : (y : Int) < 4 := hy
      show (0 : Int) + y * 6 + 6 ≤ 24
      omega
    · intro a e; cases e; show 2 < 4; decide
    · intro a e; cases e; show 3 < 4; decide

theorem float_blocks : ∀ c ∈ floatCalls, c.Blocks (⟨2, -1⟩ : ConfigLength ℚ) 2 := by
  intro c hc
  simp only [floatCalls, List.mem_cons, List.not_mem_nil, or_false] at hc
  rcases hc with rfl | rfl <;>
    exact ⟨⟨2, fun h => absurd h (by norm_num), fun _ => rfl, by norm_num, by norm_num⟩, by decide, by decide, by decide⟩

example (pins : List Pin) : ∃ s', (nativeGlobalFixedF (41/2 : ℚ) true).life 0 floatCalls ⟨floatHeap, pins⟩ = .ok () s' ∧
    LifeOf floatJava (FixedResultF (41/2 : ℚ) true) floatCalls ⟨floatHeap, pins⟩ s' :=
  C82_globalFixed_float float_live float_ok _ true

theorem float_within : JavaWithin floatJava (-100) 100 floatHeap := by
  intro b l hb
  have hb : b < 4 := hb
  have : b = 0 ∨ b = 1 ∨ b = 2 ∨ b = 3 := by omega
  rcases this with rfl | rfl | rfl | rfl <;> (intro e; cases e; decide +kernel)

example (pins : List Pin) : ∃ s', (nativeGlobalOtsuF (fun _ => 3) (-100 : ℚ) 100 false).life 0 floatCalls ⟨floatHeap, pins⟩ = .ok () s' ∧
    LifeOf floatJava (OtsuResultF (-100 : ℚ) 100 false) floatCalls ⟨floatHeap, pins⟩ s' :=
  C82_globalOtsu_float_partial float_live float_within float_ok _ (by norm_num) (by norm_num) (by norm_num) false

example (pins : List Pin) : ∃ s', (nativeBlockMeanF (exactMeanF (19/20 : ℚ)) 0 (⟨2, -1⟩ : ConfigLength ℚ) true true).life 0 floatCalls
      ⟨floatHeap, pins⟩ = .ok () s' ∧
    LifeOf floatJava (BlockMeanResultF (K := ℚ) (V := ℚ) 0 (· + ·) (fun s n => 19/20 * s / n) (fun s n => s / n) (fun a b => decide (a ≤ b))
      (fun b => if b then 1 else 0) ⟨2, -1⟩ true true) floatCalls ⟨floatHeap, pins⟩ s' :=
  C82_blockMean_float (exactMeanF (19/20)) 0 float_live float_ok true true (fun c hc => ⟨2, float_blocks c hc⟩)

example (pins : List Pin) : ∃ s', (nativeBlockMinMaxF (exactMinMaxF 1 1000) 0 (⟨2, -1⟩ : ConfigLength ℚ) true 5 true).life 0 floatCalls
      ⟨floatHeap, pins⟩ = .ok () s' ∧
    LifeOf floatJava (BlockMinMaxResultF (K := ℚ) (exactMinMaxF 1 1000).tiny (exactMinMaxF 1 1000).sub (exactMinMaxF 1 1000).mid
      (exactMinMaxF 1 1000).bit ⟨2, -1⟩ true 5 true) floatCalls ⟨floatHeap, pins⟩ s' :=
  C82_blockMinMax_float_partial (exactMinMaxF 1 1000) 0 float_live float_upTo (by decide +kernel) float_ok true 5 true
    (fun c hc => ⟨2, float_blocks c hc⟩)

example (pins : List Pin) : ∃ s', (nativeLocalMeanF ⟨id, 4, 0, fun _ => 7⟩ (⟨6, -1⟩ : ConfigLength ℚ) (19/20) true).life 0 floatCalls
      ⟨floatHeap, pins⟩ = .ok () s' ∧
    LifeOf floatJava (LocalMeanResultF (⟨6, -1⟩ : ConfigLength ℚ) (19/20) true) floatCalls ⟨floatHeap, pins⟩ s' :=
  C82_localMean_float_partial _ rfl float_live float_ok _ true (fun c hc => by
    simp only [floatCalls, List.mem_cons, List.not_mem_nil, or_false] at hc
    refine ⟨6, ⟨6, fun h => absurd h (by norm_num), fun _ => rfl, by norm_num, by norm_num⟩, ?_⟩
    rcases hc with rfl | rfl <;> decide)

end Boof
