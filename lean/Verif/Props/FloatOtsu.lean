import Verif.Props.FloatFilter
import Verif.Props.BlockOtsuFloat
/-
C74 and C82 for the block Otsu filter on `GrayF32` images.
-/
namespace Boof
open M OtsuSpec

section
variable {V K : Type} [Field K] [LinearOrder K] [IsStrictOrderedRing K] [FloorRing K]

/-- `NativeBlockOtsu.process` on a `GrayF32` whose pixels can be converted to the 8-bit numbers `p x y`. -/
theorem C74_blockOtsu_float {A : OtsuOps V} (hA : ∀ c, A.value (A.count c) = c) {otsu : ComputeOtsu K} {useLocal : Bool} {z : V}
    {config : ConfigLength K} {h : Heap V}
    {st : Interleaved} {ji jo : JImage} {f : Nat → Nat → V} {p : Nat → Nat → Int} (ha : JArgs h ji jo f) (hk : KeptStats h st ji jo)
    (hnb : st.numBands = 256) {req w ht' : Nat} (ew : ji.width = w) (eh : ji.height = ht') (h1 : 1 ≤ req) (hw : req ≤ w)
    (hh : req ≤ ht') (hreq : ∀ h : Heap V, config.computeI ((min w ht' : Nat) : K) h = .ok (req : Int) h)
    (hcv : ∀ x y, x < w → y < ht' → A.toU8 (f x y) = some (p x y))
    (hf : ∀ x y, x < w → y < ht' → 0 ≤ p x y ∧ p x y ≤ 255) (harea : w * ht' < 2147483648)
    (hsize : Grid.count w req * Grid.count ht' req * 256 < 4294967296) {th : Nat → Nat → Int}
    (hth : ∀ i j (h : Heap V), i < Grid.count w req → j < Grid.count ht' req →
      otsu.compute ⟨(List.range 256).map (fun k : Nat => rectCount p k (localLo useLocal w req i) (localHi useLocal w req i)
          (localLo useLocal ht' req j) (localHi useLocal ht' req j)), 256, 0, true⟩
        ((localHi useLocal w req i - localLo useLocal w req i) * (localHi useLocal ht' req j - localLo useLocal ht' req j)) h =
        .ok (th i j) h) (c1 c2 : Bool) (pins : List Pin) :
    ∃ b s', nativeThreshold z (fun i o => Blocks.process (BlockOtsuF.ops A otsu useLocal) z config st i o >>= fun b => pure (b, o))
        ji jo c1 c2 ⟨h, pins⟩ = .ok (some b) s' ∧
      JavaEffect ⟨h, pins⟩ s' (fun b => b = st.buf) jo
        (fun x y => A.bit (otsu.down == decide (p x y ≤ th (Grid.blockOf w req x) (Grid.blockOf ht' req y)))) ∧
      KeptStats s'.heap b.stats ji jo ∧ b.stats.numBands = 256 ∧ (b.stats.buf = st.buf ∨ h.next ≤ b.stats.buf) := by
  have e1 : ji.width.toNat = w := by omega
  have e2 : ji.height.toNat = ht' := by omega
  have hop := op2_blocks (w := ji.width.toNat) (ht := ji.height.toNat) (cw := Grid.count w req) (ch := Grid.count ht' req) (f := f) hk
    (P := fun F => F = (fun x y => A.bit (otsu.down == decide (p x y ≤ th (Grid.blockOf w req x) (Grid.blockOf ht' req y)))))
    (process := Blocks.process (BlockOtsuF.ops A otsu useLocal) z config st)
    (fun h1' i o hb ew eh => by
      rw [e1] at ew; rw [e2] at eh
      obtain ⟨b, h', S, e, hF⟩ := C41_otsu_float hA (otsu := otsu) (useLocal := useLocal) (z := z) (th := th) (p := p) hb hnb h1 (by omega)
        (by omega) (by rw [ew, eh]; exact hreq h1') (by rw [ew, eh]; exact hcv) (by rw [ew, eh]; exact hf)
        (by rw [ew, eh]; exact harea) (by rw [ew, eh]; exact hsize) (by rw [ew, eh]; exact hth)
      rw [ew, eh] at hF
      exact ⟨b, h', S, _, e, rfl, hF⟩) ha.lt
  obtain ⟨b, s', F, rfl, e, hJ, hQ, -, -, hb, hd⟩ := nativeThreshold_run z ha.input ha.output ha.apart ha.width ha.height
    (fun b c => by rw [c]; exact hk.1.lt_next) (fun b c => by rw [c]; exact hk.2.2) ha.shows hop c1 c2 pins
  exact ⟨b, s', e, hJ, hQ, hb.trans hnb, hd⟩

/-- `NativeBlockOtsu` for `GrayF32`, both variants, over its whole life, for arrays whose elements can be converted to numbers from 0 to
255.  MISSING for the full property: larger values of the tuning and the scale, for which the threshold may overflow (C75), and
other elements, for which the call is undefined (`C41_float_undefined`). -/
theorem C82_blockOtsu_float_partial [Inhabited V] {A : OtsuOps V} (hA : ∀ c, A.value (A.count c) = c) (z : V)
    (hbit : ∀ b, ∃ u, A.toU8 (A.bit b) = some u ∧ 0 ≤ u ∧ u ≤ 255) {java : Nat → Prop} {s : Jvm V} (hj : JavaLive java s.heap)
    (hu : JavaConverts java A.toU8 s.heap) {cs : List FilterCall}
    (hok : ∀ c ∈ cs, c.Ok java s.heap) (otsu2 : Bool) {length : ConfigLength K} {tuning scale : K} (t1 : |tuning| ≤ 5) (h0 : 0 ≤ scale)
    (h1 : scale ≤ 1) (down useLocal : Bool)
    (hreq : ∀ c ∈ cs, ∃ req, c.Blocks length req ∧
      Grid.count c.input.width.toNat req * Grid.count c.input.height.toNat req < 16777216) :
    ∃ s', (nativeBlockOtsuF A z otsu2 length tuning scale down useLocal).life z cs s = .ok () s' ∧
      LifeOf java (BlockOtsuResultF A.toU8 A.bit otsu2 length tuning scale down useLocal) cs s s' := by
  have hall : JavaAll java (fun v => ∃ u, A.toU8 v = some u ∧ 0 ≤ u ∧ u ≤ 255) s.heap := fun b hb => by
    obtain ⟨l, hl⟩ := isSome_get (hj b hb)
    exact ⟨l, hl, hu b l hb hl⟩
  refine life_run (R := fun v => ∃ u, A.toU8 v = some u ∧ 0 ≤ u ∧ u ≤ 255) (Inv := BlockInv java 256) hall hok
    (BlockInv.create z (by decide) (by decide) _ hj) ?_ (fun h st hi => hi.destroy)
  intro c hcs ⟨h, pins⟩ st f hi hja hc ha hf
  obtain ⟨req, hb, hsize⟩ := hreq c hcs
  have r1 := hb.2.1
  have r2 := hb.2.2.1
  have r3 := hb.2.2.2
  have ew : c.input.width = (c.input.width.toNat : Int) := by omega
  have eh : c.input.height = (c.input.height.toNat : Int) := by omega
  have hcomp := fun h' : Heap V => hb.computeI hc.input.width.2 h'
  have harea := hc.input.area
  generalize hw : c.input.width.toNat = w at *
  generalize hh : c.input.height.toNat = ht at *
  let p : Nat → Nat → Int := fun x y => (A.toU8 (f x y)).getD 0
  have hp : ∀ x y, x < w → y < ht → A.toU8 (f x y) = some (p x y) ∧ 0 ≤ p x y ∧ p x y ≤ 255 := fun x y hx hy => by
    obtain ⟨u, e, u0, u1⟩ := hf x y (by omega) (by omega)
    show A.toU8 (f x y) = some ((A.toU8 (f x y)).getD 0) ∧ 0 ≤ (A.toU8 (f x y)).getD 0 ∧ (A.toU8 (f x y)).getD 0 ≤ 255
    rw [e]
    exact ⟨rfl, u0, u1⟩
  have key := tuned_block V (otsu2 := otsu2) (down := down) (useLocal := useLocal) t1 h0 h1 (w := w) (ht := ht) r1 (by omega) (by omega)
    harea (f := p) (fun x y hx hy => (hp x y hx hy).2)
  classical
  let th : Nat → Nat → Int := fun i j => if q : i < Grid.count w req ∧ j < Grid.count ht req then (key i j q.1 q.2).choose else 0
  have he : ∀ i j (hi : i < Grid.count w req) (hj : j < Grid.count ht req), th i j = (key i j hi hj).choose :=
    fun i j hi hj => dif_pos (And.intro hi hj)
  obtain ⟨b, s', e, hJ, hQ, hn, hbuf⟩ := C74_blockOtsu_float hA (otsu := ComputeOtsu.mk otsu2 tuning down scale) (useLocal := useLocal)
    (z := z) (p := p) (config := length) ha (hi.kept hc) hi.2.2.2 ew eh r1 (by omega) (by omega) hcomp
    (fun x y hx hy => (hp x y hx hy).1) (fun x y hx hy => (hp x y hx hy).2) harea (by omega) (th := th)
    (fun i j h hi hj => by
      obtain ⟨t, raw, var, k1, -⟩ := (key i j hi hj).choose_spec
      rw [he i j hi hj]; exact k1 h) c.copyIn c.copyOut pins
  have hR : BlockOtsuResultF A.toU8 A.bit otsu2 length tuning scale down useLocal c f
      (fun x y => A.bit (down == decide (p x y ≤ th (Grid.blockOf w req x) (Grid.blockOf ht req y)))) := by
    refine ⟨req, p, hb, fun x y hx hy => (hp x y (by omega) (by omega)).1, .of (fun x y hx hy => ?_)⟩
    have bx := (Grid.has_blockOf r1 (show req ≤ w by omega) (show x < w by omega)).1
    have by' := (Grid.has_blockOf r1 (show req ≤ ht by omega) (show y < ht by omega)).1
    obtain ⟨t, raw, var, -, k2, k3, k4⟩ := (key _ _ bx by').choose_spec
    rw [hw, hh, he _ _ bx by', k4]
    rcases marksV_iff A.bit (P := p x y ≤ ⌊scale * moved down tuning raw var + 1/2⌋) (down := down) with ⟨u1, u2⟩ | ⟨u1, u2⟩
    · exact Or.inl ⟨u1, t, raw, var, k2, k3, u2⟩
    · refine Or.inr ⟨u1, ?_⟩
      rintro ⟨t', raw', var', k2', k3', u⟩
      obtain rfl := IsOtsu_unique k2 k2'
      obtain ⟨rfl, rfl⟩ := IsRaw_unique k3 k3'
      exact u2 u
  exact ⟨b, s', fun b => b = st.stats.buf, _, e, hR, fun x y hx hy => hbit _,
    fun b c d => hi.2.2.1 (by rw [← show b = st.stats.buf from c]; exact d), hJ, hi.next hQ hn hbuf hja⟩

end

/-! ## Witness: two calls of different sizes, the second with a subimage -/

/-- Four Java arrays. -/
def otsuHeap : Heap ℚ := ⟨[some [9, 1/2, -1/2, 30, 40, 9, 5, 6, 70, 511/2, 9], some (List.replicate 8 7),
  some ((List.range 24).map (fun (k : Nat) => (k : ℚ) / 2)), some (List.replicate 24 7)]⟩

theorem otsu_live : JavaLive floatJava otsuHeap := by
  intro b hb
  have hb : b < 4 := hb
  have : ∀ b < 4, (otsuHeap.get b).isSome = true := by decide +kernel
  exact this b hb

theorem otsu_converts : JavaConverts floatJava (exactOtsuF (K := ℚ)).toU8 otsuHeap := by
  have key : ∀ b l, floatJava b → otsuHeap.get b = some l → ∀ v ∈ l, U8.InRange (truncK v) := by
    intro b l hb
    have hb : b < 4 := hb
    have : b = 0 ∨ b = 1 ∨ b = 2 ∨ b = 3 := by omega
    rcases this with rfl | rfl | rfl | rfl <;> (intro e; cases e; decide +kernel)
  intro b l hb hl v hv
  have := key b l hb hl v hv
  exact ⟨truncK v, if_pos this, this.1, this.2⟩

theorem otsu_ok : ∀ c ∈ floatCalls, c.Ok floatJava otsuHeap := by
  intro c hc
  simp only [floatCalls, List.mem_cons, List.not_mem_nil, or_false] at hc
  rcases hc with rfl | rfl
  · refine ⟨⟨⟨0, _, rfl, rfl, by decide, fun y hy => ?_⟩, by decide, by decide, by decide, by decide⟩,
      ⟨⟨1, _, rfl, rfl, by decide, fun y hy => ?_⟩, by decide, by decide, by decide, by decide⟩, by decide, rfl, rfl, ?_, ?_⟩
    · have hy : (y : Int) < 2 := hy
      show (1 : Int) + y * 5 + 4 ≤ 11
      omega
    · have hy : (y : Int) < 2 := hy
      show (0 : Int) + y * 4 + 4 ≤ 8
      omega
    · intro a e; cases e; show 0 < 4; decide
    · intro a e; cases e; show 1 < 4; decide
  · refine ⟨⟨⟨2, _, rfl, rfl, by decide, fun y hy => ?_⟩, by decide, by decide, by decide, by decide⟩,
      ⟨⟨3, _, rfl, rfl, by decide, fun y hy => ?_⟩, by decide, by decide, by decide, by decide⟩, by decide, rfl, rfl, ?_, ?_⟩
    · have hy : (y : Int) < 4 := hy
      show (0 : Int) + y * 6 + 6 ≤ 24
      omega
    · have hy : (y : Int) < 4 := hy
      show (0 : Int) + y * 6 + 6 ≤ 24
      omega
    · intro a e; cases e; show 2 < 4; decide
    · intro a e; cases e; show 3 < 4; decide

example (pins : List Pin) : ∃ s', (nativeBlockOtsuF exactOtsuF 0 false (⟨2, -1⟩ : ConfigLength ℚ) 1 1 true true).life 0 floatCalls
      ⟨otsuHeap, pins⟩ = .ok () s' ∧
    LifeOf floatJava (BlockOtsuResultF (K := ℚ) exactOtsuF.toU8 exactOtsuF.bit false ⟨2, -1⟩ 1 1 true true) floatCalls
      ⟨otsuHeap, pins⟩ s' :=
  C82_blockOtsu_float_partial (fun c => Int.floor_intCast c) 0 (fun b => by
      cases b
      · exact ⟨0, by decide +kernel, by decide, by decide⟩
      · exact ⟨1, by decide +kernel, by decide, by decide⟩) otsu_live otsu_converts otsu_ok false (by norm_num) (by norm_num)
    (by norm_num) true true (fun c hc => ⟨2, float_blocks c hc, by
      simp only [floatCalls, List.mem_cons, List.not_mem_nil, or_false] at hc
      rcases hc with rfl | rfl <;> decide⟩)

end Boof
