import Verif.Proofs.NativeFilter
import Verif.Props.Native
/-
C82: threshold filters made from Java.  Over its whole life - constructor, any number of calls of `process` on any images of any
sizes, finalizer - a filter does what its parameters say, whatever it did before.
-/
namespace Boof
open M OtsuSpec

section
variable {K : Type} [Field K] [LinearOrder K] [IsStrictOrderedRing K] [FloorRing K]

theorem le_truncK {v : K} (h : 0 ≤ v) (n : Int) : n ≤ truncK v ↔ (n : K) ≤ v := by
  rw [truncK_nonneg h, Int.le_floor]

theorem truncK_range {v : K} {b : Int} (h0 : 0 ≤ v) (h1 : v < b) : 0 ≤ truncK v ∧ truncK v < b := by
  rw [truncK_nonneg h0]
  exact ⟨Int.floor_nonneg.mpr h0, Int.floor_lt.mpr h1⟩

theorem FilterCall.Marks.of {c : FilterCall} {F : Nat → Nat → Int} {sel : Nat → Nat → Prop}
    (h : ∀ x y : Nat, (x : Int) < c.input.width → (y : Int) < c.input.height → (F x y = 1 ∧ sel x y) ∨ (F x y = 0 ∧ ¬sel x y)) :
    c.Marks F sel := fun x y hx hy => by
  rcases h x y hx hy with ⟨a, b⟩ | ⟨a, b⟩
  · exact ⟨fun _ => a, fun c => absurd b c⟩
  · exact ⟨fun c => absurd c b, fun _ => a⟩

/-- The elements of a picture of zeros and ones. -/
theorem FilterCall.Marks.bytes {java : Nat → Prop} {h : Heap Int} {c : FilterCall} {F : Nat → Nat → Int} {sel : Nat → Nat → Prop}
    (hm : c.Marks F sel) (hc : c.Ok java h) (x y : Nat) (hx : (x : Int) < c.output.width) (hy : (y : Int) < c.output.height) :
    0 ≤ F x y ∧ F x y ≤ 255 := by
  rw [hc.width] at hx; rw [hc.height] at hy
  by_cases s : sel x y
  · rw [(hm x y hx hy).1 s]; omega
  · rw [(hm x y hx hy).2 s]; omega

/-! ## Global thresholds -/

/-- `NativeGlobalFixed`: marked are the pixels at most, or above, the threshold given to the constructor. -/
theorem C82_globalFixed {java : Nat → Prop} {s : Jvm Int} (hj : JavaBytes java s.heap) {cs : List FilterCall}
    (hok : ∀ c ∈ cs, c.Ok java s.heap) {threshold : K} (h0 : 0 ≤ threshold) (h1 : threshold < 256) (down : Bool) :
    ∃ s', (nativeGlobalFixed K threshold down).life 0 cs s = .ok () s' ∧ LifeOf java (FixedResult threshold down) cs s s' := by
  obtain ⟨t0, t1⟩ := truncK_range (b := 256) h0 (by exact_mod_cast h1)
  refine life_run (R := fun v => 0 ≤ v ∧ v ≤ 255) (Inv := fun _ st => st = truncK threshold) hj hok
    ⟨_, _, toInt_ok ⟨by show (0 : Int) ≤ _; exact t0, by show _ ≤ (255 : Int); omega⟩ _, rfl, fun _ _ => rfl⟩ ?_
    (fun h _ _ => ⟨h, rfl, fun _ _ => rfl⟩)
  intro c _ ⟨h, pins⟩ st f hi hja hc ha hf
  subst hi
  have hop : Op2 h (fun _ => False) c.input.width.toNat c.input.height.toNat f
      (fun F => F = fun x y => b2i (if down then decide (f x y ≤ truncK threshold) else decide (truncK threshold < f x y)))
      ((nativeGlobalFixed K threshold down).process (truncK threshold)) (fun r _ => r = truncK threshold) := by
    intro h1 i o _ _ vi vo ew eh ew' eh' _ _ _ _ hne _ _ hf
    obtain ⟨o', h2, e, p, -⟩ := C33_threshold (fun a b => decide (a ≤ b)) (fun a b => decide (b < a)) b2i 0 (truncK threshold) down
      vi vo hf (Or.inr ⟨by omega, by omega⟩) (Or.inr (Or.inl hne))
    obtain ⟨rfl, pt⟩ := p.inPlace (by omega) (by omega)
    refine ⟨_, h2, _, rfl, (M.bind_ok e).trans rfl, ?_, Nat.le_of_eq pt.next.symm, ?_, fun b _ _ => pt.alive b, fun _ _ => rfl⟩
    · intro x y hx hy
      exact pt.pix x y hx hy
    · intro b k _ _ hpx
      exact pt.frame b k (fun x y hx hy => hpx x y (by omega) (by omega))
  obtain ⟨r, s', F, rfl, e, hJ, hQ⟩ := nativeThreshold_run 0 ha.input ha.output ha.apart ha.width ha.height
    (fun _ c => c.elim) (fun _ c => c.elim) ha.shows hop c.copyIn c.copyOut pins
  have hm : FixedResult threshold down c f
      (fun x y => b2i (if down then decide (f x y ≤ truncK threshold) else decide (truncK threshold < f x y))) := by
    refine .of (fun x y hx hy => ?_)
    have k := le_truncK h0 (f x y)
    cases down
    · by_cases d : f x y ≤ truncK threshold
      · right
        exact ⟨by simp [b2i, d], by simpa using k.mp d⟩
      · left
        exact ⟨by simp [b2i, not_le.mp d], by simpa using (fun c => d (k.mpr c) : ¬(f x y : K) ≤ threshold)⟩
    · by_cases d : f x y ≤ truncK threshold
      · left
        exact ⟨by simp [b2i, d], by simpa using k.mp d⟩
      · right
        exact ⟨by simp [b2i, d], by simpa using (fun c => d (k.mpr c) : ¬(f x y : K) ≤ threshold)⟩
  exact ⟨r, s', _, _, e, hm, fun x y hx hy => FilterCall.Marks.bytes hm hc x y hx hy, fun b c => c.elim, hJ, hQ⟩

/-- A threshold of 256 or more, or of -1 or less, is undefined behaviour already in the constructor. -/
theorem C82_globalFixed_refuted {threshold : K} (h : 256 ≤ threshold ∨ threshold ≤ -1) (down : Bool) (cs : List FilterCall) (s : Jvm Int) :
    (nativeGlobalFixed K threshold down).life 0 cs s = .ub := by
  have : (M.toInt U8 threshold : M Int Int) s.heap = .ub := by
    unfold M.toInt
    rw [if_neg]
    · rfl
    · rintro ⟨a, b⟩
      have a : (0 : Int) ≤ truncK threshold := a
      have b : truncK threshold ≤ 255 := b
      rcases h with h | h
      · have := (le_truncK (by linarith : (0 : K) ≤ threshold) 256).mpr (by exact_mod_cast h)
        omega
      · unfold truncK at a
        rw [if_neg (by linarith), Int.le_ceil_iff] at a
        push_cast at a
        linarith
  unfold NativeFilter.life
  refine J.bind_ub ?_
  unfold J.lift
  rw [show (nativeGlobalFixed K threshold down).create s.heap = .ub from this]

/-- A threshold between -1 and 0 is taken for 0: pixels of value 0 are marked although they are above it. -/
theorem C82_globalFixed_negative_refuted {threshold : K} (h0 : -1 < threshold) (h1 : threshold < 0) (h : Heap Int) :
    (nativeGlobalFixed K threshold true).create h = .ok 0 h ∧ ¬((0 : Int) : K) ≤ threshold := by
  constructor
  · have : truncK threshold = 0 := by
      unfold truncK
      rw [if_neg (by linarith), Int.ceil_eq_iff]
      push_cast
      constructor <;> linarith
    show (M.toInt U8 threshold : M Int Int) h = _
    rw [toInt_ok (by rw [this]; decide), this]
  · push_cast; linarith

/-- `NativeGlobalOtsu` for the full range of levels.  MISSING for the full property: other ranges, for which the threshold is wrong
(C35) or pixels fall outside the histogram. -/
theorem C82_globalOtsu_partial {java : Nat → Prop} {s : Jvm Int} (hj : JavaBytes java s.heap) {cs : List FilterCall}
    (hok : ∀ c ∈ cs, c.Ok java s.heap) (junk : Nat → Int) {minValue maxValue : K} (h0 : 0 ≤ minValue) (h1 : minValue < 1)
    (h2 : 255 ≤ maxValue) (h3 : maxValue < 256) (down : Bool) :
    ∃ s', (nativeGlobalOtsu K junk minValue maxValue down).life 0 cs s = .ok () s' ∧ LifeOf java (OtsuResult K down) cs s s' := by
  have t0 : truncK minValue = 0 := by
    have := truncK_range (b := 1) h0 (by exact_mod_cast h1); omega
  have t1 : truncK maxValue = 255 := by
    have a := truncK_range (b := 256) (by linarith : 0 ≤ maxValue) (by exact_mod_cast h3)
    have b := (le_truncK (by linarith : 0 ≤ maxValue) 255).mpr (by exact_mod_cast h2)
    omega
  refine life_run (R := fun v => 0 ≤ v ∧ v ≤ 255) (Inv := fun _ st => st = (0, 255)) hj hok
    ⟨(0, 255), s.heap, ?_, rfl, fun _ _ => rfl⟩ ?_ (fun h _ _ => ⟨h, rfl, fun _ _ => rfl⟩)
  · have e0 : (M.toInt U8 minValue : M Int Int) s.heap = .ok 0 s.heap := by rw [toInt_ok (by rw [t0]; decide), t0]
    have e1 : (M.toInt U8 maxValue : M Int Int) s.heap = .ok 255 s.heap := by rw [toInt_ok (by rw [t1]; decide), t1]
    exact (M.bind_ok e0).trans ((M.bind_ok e1).trans rfl)
  intro c _ ⟨h, pins⟩ st f hi hja hc ha hf
  subst hi
  have hop : Op2 h (fun _ => False) c.input.width.toNat c.input.height.toNat f
      (fun F => ∃ v : Nat, IsOtsu K 256 (fun k => pixelCount c.input.width.toNat c.input.height.toNat f k) v ∧
        F = fun x y => if (down = true ∧ f x y ≤ v) ∨ (down = false ∧ f x y > v) then 1 else 0)
      ((nativeGlobalOtsu K junk minValue maxValue down).process (0, 255)) (fun r _ => r = (0, 255)) := by
    intro h1 i o _ _ vi vo ew eh ew' eh' _ _ _ _ hne _ _ hsh
    obtain ⟨v, o', h2, e, hO, p⟩ := C35_zero_min (K := K) (Or.inl rfl) vi vo hsh (hi := 255) (by decide) (by decide)
      (fun x y hx hy => hf x y (by omega) (by omega)) (by decide) (Or.inr ⟨by omega, by omega⟩) (Or.inr (Or.inl hne)) down junk
    rw [ew, eh] at hO
    obtain ⟨rfl, pt⟩ := p.inPlace (by omega) (by omega)
    refine ⟨_, h2, _, ⟨v, hO, rfl⟩, (M.bind_ok e).trans rfl, ?_, Nat.le_of_eq pt.next.symm, ?_, fun b _ _ => pt.alive b,
      fun _ _ => rfl⟩
    · intro x y hx hy
      rw [pt.pix x y hx hy]; rfl
    · intro b k _ _ hpx
      exact pt.frame b k (fun x y hx hy => hpx x y (by omega) (by omega))
  obtain ⟨r, s', F, ⟨v, hO, rfl⟩, e, hJ, hQ⟩ := nativeThreshold_run 0 ha.input ha.output ha.apart ha.width ha.height
    (fun _ c => c.elim) (fun _ c => c.elim) ha.shows hop c.copyIn c.copyOut pins
  have hm : c.Marks (fun x y => if (down = true ∧ f x y ≤ v) ∨ (down = false ∧ f x y > v) then 1 else 0)
      (fun x y => if down then f x y ≤ v else v < f x y) := by
    refine .of (fun x y hx hy => ?_)
    cases down <;> simp <;> omega
  exact ⟨r, s', _, _, e, ⟨v, hO, hm⟩, fun x y hx hy => FilterCall.Marks.bytes hm hc x y hx hy, fun b c => c.elim, hJ, hQ⟩

/-! ## Block filters -/

/-- The number of pixels of a usable image fits into a Java array. -/
theorem JImage.Ok.area {V : Type} {h : Heap V} {j : JImage} (hok : j.Ok h) : j.width.toNat * j.height.toNat < 2147483648 := by
  obtain ⟨a, l, -, -, h1, hrow⟩ := hok.array
  obtain ⟨w0, -⟩ := hok.width
  obtain ⟨g0, -⟩ := hok.height
  rcases Nat.eq_zero_or_pos j.height.toNat with e | e
  · rw [e]; simp
  · have := hrow (j.height.toNat - 1) (by omega)
    have e1 : ((j.height.toNat - 1 : Nat) : Int) = j.height - 1 := by omega
    rw [e1] at this
    have k : (j.height - 1) * j.width ≤ (j.height - 1) * j.stride := Int.mul_le_mul_of_nonneg_left hok.stride.1 (by omega)
    have s0 := hok.start.1
    have : (j.height - 1) * j.width + j.width < 2147483648 := by omega
    have e2 : (j.height - 1) * j.width + j.width = j.width * j.height := by ring
    have e3 : ((j.width.toNat * j.height.toNat : Nat) : Int) = j.width * j.height := by
      rw [Int.natCast_mul, Int.toNat_of_nonneg w0, Int.toNat_of_nonneg g0]
    omega

/-- The length the filter computes. -/
theorem Requested.computeI {length : ConfigLength K} {w ht req : Nat} (hb : Requested length w ht req) (h1 : 1 ≤ req)
    (h2 : req < 2147483648) {V : Type} (h : Heap V) : length.computeI ((min w ht : Nat) : K) h = .ok (req : Int) h := by
  obtain ⟨s, s1, s2, s3, s4⟩ := hb
  have hs : length.compute ((min w ht : Nat) : K) = s := by
    unfold ConfigLength.compute
    by_cases d : 0 ≤ length.fraction
    · rw [if_pos d, s1 d]
    · rw [if_neg d, s2 (not_le.mp d)]
  have r1 : (1 : K) ≤ req := by exact_mod_cast h1
  have hp : 0 ≤ s := by linarith
  unfold ConfigLength.computeI
  simp only [hs]
  rw [if_pos hp]
  have hf : truncK (s + 1/2) = req := by
    rw [truncK_nonneg (by linarith), Int.floor_eq_iff]
    push_cast
    constructor <;> linarith
  rw [toInt_ok (by rw [hf]; exact ⟨by show (-2147483648 : Int) ≤ _; omega, by show _ ≤ (2147483647 : Int); omega⟩), hf]

theorem FilterCall.Blocks.computeI {c : FilterCall} {length : ConfigLength K} {req : Nat} (hb : c.Blocks length req)
    (hw : c.input.width < 2147483648) {V : Type} (h : Heap V) :
    length.computeI ((min c.input.width.toNat c.input.height.toNat : Nat) : K) h = .ok (req : Int) h :=
  hb.1.computeI hb.2.1 (by have := hb.2.2.1; omega) h

/-! ## Local mean -/

/-- What holds of a local mean filter between calls. -/
def LocalInv {V : Type} (java : Nat → Prop) (h : Heap V) (st : Gray × Gray) : Prop :=
  st.1.Valid h ∧ st.2.Valid h ∧ st.1.subimage = false ∧ st.2.subimage = false ∧ st.2.buf ≠ st.1.buf ∧
    ¬java st.1.buf ∧ ¬java st.2.buf ∧ st.2.dataLength < 2147483648

theorem not_java_next {V : Type} {java : Nat → Prop} {h : Heap V} (hj : ∀ b, java b → (h.get b).isSome) {a : Nat} (ha : h.next ≤ a) : ¬java a := by
  intro c
  obtain ⟨l, hl⟩ := isSome_get (hj _ c)
  have := Heap.lt_next_of_get hl
  omega

theorem LocalInv.create {V : Type} (zero : V) {java : Nat → Prop} {h : Heap V} (hj : ∀ b, java b → (h.get b).isSome) :
    ∃ st h', (do
      let a ← Gray.new zero 0 0
      let b ← Gray.new zero 0 0
      pure (a, b) : M V (Gray × Gray)) h = .ok st h' ∧ LocalInv java h' st ∧ ∀ b, java b → h'.get b = h.get b := by
  have z : (0 : Nat) < P32 := by decide
  have hn : (h.alloc ([] : List V)).next = h.next + 1 := Heap.next_alloc ..
  refine ⟨(⟨h.next, 0, 0, 0, 0, 0, false⟩, ⟨(h.alloc []).next, 0, 0, 0, 0, 0, false⟩), (h.alloc []).alloc [], rfl,
    ⟨?_, ?_, rfl, rfl, ?_, not_java_next hj (Nat.le_refl _), not_java_next hj (by show h.next ≤ (h.alloc []).next; omega), by show (0:Nat) < 2147483648; decide⟩, ?_⟩
  · have hg : ((h.alloc []).alloc []).get h.next = some ([] : List V) := by
      rw [Heap.get_alloc, if_neg (by omega), Heap.get_alloc, if_pos rfl]
    exact ⟨by rw [hg]; rfl, fun i hi => absurd hi (Nat.not_lt_zero _), z, z, z, Nat.le_refl _,
      fun y hy => absurd hy (Nat.not_lt_zero _), fun _ => ⟨rfl, by simp⟩⟩
  · have hg : ((h.alloc []).alloc []).get (h.alloc []).next = some ([] : List V) := by
      rw [Heap.get_alloc, if_pos rfl]
    exact ⟨by rw [hg]; rfl, fun i hi => absurd hi (Nat.not_lt_zero _), z, z, z, Nat.le_refl _,
      fun y hy => absurd hy (Nat.not_lt_zero _), fun _ => ⟨rfl, by simp⟩⟩
  · show (h.alloc []).next ≠ h.next
    omega
  · intro b hb
    obtain ⟨l, hl⟩ := isSome_get (hj _ hb)
    have := Heap.lt_next_of_get hl
    rw [Heap.get_alloc, if_neg (by omega), Heap.get_alloc, if_neg (by omega)]

theorem LocalInv.destroy {V : Type} {java : Nat → Prop} {h : Heap V} {st : Gray × Gray} (hi : LocalInv java h st) :
    ∃ h', (do
      st.2.destroy
      st.1.destroy : M V Unit) h = .ok () h' ∧ ∀ a, java a → h'.get a = h.get a := by
  obtain ⟨v1, v2, s1, s2, ne, j1, j2, -⟩ := hi
  obtain ⟨l1, hl1⟩ := isSome_get v1.live
  obtain ⟨l2, hl2⟩ := isSome_get v2.live
  have e2 : st.2.destroy h = .ok () (h.free st.2.buf) := by
    unfold Gray.destroy
    rw [if_neg (by rw [s2]; decide)]
    simp [M.delArr, hl2]
  have e1 : st.1.destroy (h.free st.2.buf) = .ok () ((h.free st.2.buf).free st.1.buf) := by
    unfold Gray.destroy
    rw [if_neg (by rw [s1]; decide)]
    have : (h.free st.2.buf).get st.1.buf = some l1 := by rw [Heap.get_free, if_neg (fun e => ne (by rw [e])), hl1]
    simp [M.delArr, this]
  refine ⟨_, (M.bind_ok e2).trans e1, fun a ha => ?_⟩
  rw [Heap.get_free, if_neg (fun e => j1 (by rw [← e]; exact ha)), Heap.get_free, if_neg (fun e => j2 (by rw [← e]; exact ha))]

/-- `NativeLocalMean`, for any width from 2 to 8388606 and any scale.  MISSING for the full property: images which are at least as wide as
the window and not as tall, for which the call is undefined behaviour (`C54_vertical_refuted`), and widths below 2, for which it does
nothing but leave the input pinned. -/
theorem C82_localMean_partial {java : Nat → Prop} {s : Jvm Int} (hj : JavaBytes java s.heap) {cs : List FilterCall}
    (hok : ∀ c ∈ cs, c.Ok java s.heap) (junk : Nat → Int) {width : ConfigLength K} (scale : K) (down : Bool)
    (hreq : ∀ c ∈ cs, ∃ n, Requested width c.input.width.toNat c.input.height.toNat n ∧ 2 ≤ n ∧ n < 8388607 ∧
      c.input.width + (n + 1) ≤ 2147483648 ∧ c.input.height + (n + 1) ≤ 2147483648 ∧
      ((2 * (n / 2) + 1 : Nat) ≤ c.input.height ∨ c.input.width < (2 * (n / 2) + 1 : Nat))) :
    ∃ s', (nativeLocalMean junk width scale down).life 0 cs s = .ok () s' ∧ LifeOf java (LocalMeanResult width scale down) cs s s' := by
  refine life_run (R := fun v => 0 ≤ v ∧ v ≤ 255) (Inv := LocalInv java) hj hok
    (LocalInv.create 0 (JavaAll.alive (R := fun v => 0 ≤ v ∧ v ≤ 255) hj)) ?_ (fun h st hi => hi.destroy)
  intro c hcs ⟨h, pins⟩ st f hi hja hc ha hf
  obtain ⟨n, hb, n2, n3, b1, b2, hshape⟩ := hreq c hcs
  have w0 := hc.input.width.1
  have g0 := hc.input.height.1
  obtain ⟨v1, v2, s1, s2, ne, j1, j2, hls⟩ := hi
  have hk : Kept h st.1 st.2 c.input c.output := by
    refine ⟨v1, v2, s1, s2, ne, ?_⟩
    rintro g (rfl | rfl)
    · exact ⟨fun e => j1 (hc.inJava _ e), fun e => j1 (hc.outJava _ e)⟩
    · exact ⟨fun e => j2 (hc.inJava _ e), fun e => j2 (hc.outJava _ e)⟩
  have harea := hc.input.area
  obtain ⟨st1, st2, s', e, hJ, hK, q1, q2, q3⟩ := C74_localMean_partial (K := K) (t := U8) (by simp) junk ha hk
    (width := width) (scale := scale) (down := down) (n := n) (P := 255) (fun h => hb.computeI (by omega) (by omega) h) n2 (by omega) (by omega)
    hls (by omega) (by decide) (by decide)
    (fun x y hx hy => by
      obtain ⟨a, b⟩ := hf x y hx hy
      exact ⟨⟨a, b⟩, abs_le.mpr ⟨by omega, b⟩⟩)
    (by show ((n + 1 : Nat) : Int) * 256 ≤ 2147483647; omega) c.copyIn c.copyOut pins
  have hm : c.Marks (fun x y => if (if down then (f x y : K) ≤ (meanImage U8 (n / 2) c.input.width.toNat c.input.height.toNat f x y : K) * scale
          else (f x y : K) * scale > (meanImage U8 (n / 2) c.input.width.toNat c.input.height.toNat f x y : K)) then 1 else 0)
      (fun x y =>
        let m : K := (meanImage U8 (n / 2) c.input.width.toNat c.input.height.toNat f x y : Int)
        if down then (f x y : K) ≤ m * scale else m < (f x y : K) * scale) := fun x y hx hy =>
    ⟨fun p => if_pos p, fun p => if_neg p⟩
  refine ⟨(st1, st2), s', fun b => b = st.1.buf ∨ b = st.2.buf, _, e, ⟨n, hb, hm⟩, fun x y hx hy => hm.bytes hc x y hx hy, ?_, hJ, ?_⟩
  · rintro b (rfl | rfl)
    · exact j1
    · exact j2
  · obtain ⟨k1, k2, k3, k4, k5, -⟩ := hK
    refine ⟨k1, k2, k3, k4, k5, ?_, ?_, ?_⟩
    · rcases q1 with q | q
      · rw [show st1.buf = _ from q]; exact j1
      · exact not_java_next hja q
    · rcases q2 with q | q
      · rw [show st2.buf = _ from q]; exact j2
      · exact not_java_next hja q
    · show st2.dataLength < _
      omega

/-! ## Block filters: what holds between calls -/

/-- What holds of a block filter between calls. -/
def BlockInv {V : Type} (java : Nat → Prop) (bands : Nat) (h : Heap V) (b : Blocks) : Prop :=
  b.stats.Valid h ∧ b.stats.subimage = false ∧ ¬java b.stats.buf ∧ b.stats.numBands = bands

theorem BlockInv.create {V : Type} (z : V) {java : Nat → Prop} {bands : Nat} (hb : 0 < bands) (hb2 : bands < 4294967296)
    (process : Interleaved → Gray → Gray → M V Blocks) {h : Heap V} (hj : ∀ b, java b → (h.get b).isSome) :
    ∃ st h', (blockFilter z bands process).create h = .ok st h' ∧ BlockInv java bands h' st ∧ ∀ b, java b → h'.get b = h.get b := by
  refine ⟨⟨⟨h.next, 0, 0, 0, bands, 0, 0, false⟩, 0, 0⟩, h.alloc [], ?_, ⟨?_, rfl, ?_, rfl⟩, ?_⟩
  · have e : (Interleaved.new z 0 0 0) h = .ok ⟨h.next, 0, 0, 0, 0, 0, 0, false⟩ (h.alloc []) := rfl
    refine (M.bind_ok e).trans ?_
    have e2 : (Interleaved.setNumberOfBands z ⟨h.next, 0, 0, 0, 0, 0, 0, false⟩ bands) (h.alloc []) =
        .ok ⟨h.next, 0, 0, 0, bands, 0, 0, false⟩ (h.alloc []) := by
      unfold Interleaved.setNumberOfBands
      rw [if_neg (by show ¬(0 = bands); omega)]
      have e3 : wrap32 (0 * bands) = 0 := by rw [Nat.zero_mul]; rfl
      have e4 : (Interleaved.ensure z ⟨h.next, 0, 0, 0, 0, 0, 0, false⟩ (wrap32 (0 * 0 * bands))) (h.alloc []) =
          .ok ⟨h.next, 0, 0, 0, 0, 0, 0, false⟩ (h.alloc []) := by
        rw [Nat.zero_mul]; rfl
      refine (M.bind_ok e4).trans ?_
      show Res.ok (Interleaved.mk h.next 0 0 0 bands 0 (wrap32 (0 * bands)) false) _ = _
      rw [e3]
    exact (M.bind_ok e2).trans rfl
  · have hn : (h.alloc []).get h.next = some [] := by rw [Heap.get_alloc, if_pos rfl]
    have p0 : (0 : Nat) < P32 := by decide
    exact ⟨by rw [hn]; rfl, fun i hi => absurd hi (Nat.not_lt_zero _), p0, p0, p0, hb2, p0,
      by simp, fun y hy => absurd hy (Nat.not_lt_zero _), fun _ => ⟨rfl, by simp⟩⟩
  · intro c
    obtain ⟨l, hl⟩ := isSome_get (hj _ c)
    exact absurd (Heap.lt_next_of_get hl) (Nat.lt_irrefl _)
  · intro b hb'
    obtain ⟨l, hl⟩ := isSome_get (hj _ hb')
    have := Heap.lt_next_of_get hl
    rw [Heap.get_alloc, if_neg (by omega)]

theorem BlockInv.kept {V : Type} {java : Nat → Prop} {bands : Nat} {h : Heap V} {b : Blocks} (hi : BlockInv java bands h b) {c : FilterCall}
    (hc : c.Ok java h) : KeptStats h b.stats c.input c.output :=
  ⟨hi.1, hi.2.1, fun e => hi.2.2.1 (hc.inJava _ e), fun e => hi.2.2.1 (hc.outJava _ e)⟩

theorem BlockInv.next {V : Type} {java : Nat → Prop} {bands : Nat} {h h' : Heap V} {b b' : Blocks} (hi : BlockInv java bands h b)
    {ji jo : JImage} (hk : KeptStats h' b'.stats ji jo) (hn : b'.stats.numBands = bands)
    (hb : b'.stats.buf = b.stats.buf ∨ h.next ≤ b'.stats.buf) (hj : ∀ b, java b → (h.get b).isSome) : BlockInv java bands h' b' := by
  refine ⟨hk.1, hk.2.1, fun c => ?_, hn⟩
  rcases hb with d | d
  · rw [d] at c; exact hi.2.2.1 c
  · obtain ⟨l, hl⟩ := isSome_get (hj _ c)
    have := Heap.lt_next_of_get hl
    omega

theorem BlockInv.destroy {V : Type} {java : Nat → Prop} {bands : Nat} {h : Heap V} {b : Blocks} (hi : BlockInv java bands h b) :
    ∃ h', b.stats.destroy h = .ok () h' ∧ ∀ a, java a → h'.get a = h.get a := by
  obtain ⟨l, hl⟩ := isSome_get hi.1.live
  refine ⟨h.free b.stats.buf, ?_, fun a ha => ?_⟩
  · unfold Interleaved.destroy
    rw [if_neg (by rw [hi.2.1]; decide)]
    simp [M.delArr, hl]
  · rw [Heap.get_free, if_neg (fun e => hi.2.2.1 (by rw [← e]; exact ha))]

theorem localMean_congr {u : Bool} {w ht req : Nat} {S S' : Nat → Nat → Int}
    (e : ∀ i j, i < Grid.count w req → j < Grid.count ht req → S i j = S' i j) {i j : Nat} (hi : i < Grid.count w req)
    (hj : j < Grid.count ht req) : localMean u w ht req S i j = localMean u w ht req S' i j := by
  have a := Grid.last_lt (u := u) hi
  have b := Grid.last_lt (u := u) hj
  unfold localMean rectSum
  rw [pixelSum_congr (g := fun x y => S' (Grid.first u i + x) (Grid.first u j + y)) (fun x y hx hy => e _ _ (by omega) (by omega))]

theorem rectSum_range {f : Nat → Nat → Int} {x0 x1 y0 y1 : Nat} (hf : ∀ x y, x < x1 → y < y1 → 0 ≤ f x y ∧ f x y ≤ 255) :
    0 ≤ rectSum f x0 x1 y0 y1 ∧ rectSum f x0 x1 y0 y1 ≤ ((x1 - x0) * (y1 - y0) : Nat) * 255 := by
  unfold rectSum
  constructor
  · have := sumN_nonneg (n := y1 - y0) (f := fun y => sumN (x1 - x0) (fun x => f (x0 + x) (y0 + y)))
      (fun y hy => sumN_nonneg (fun x hx => (hf _ _ (by omega) (by omega)).1))
    exact this
  · exact pixelSum_le (fun x y hx hy => (hf _ _ (by omega) (by omega)).2)

theorem marks_iff {P : Prop} [Decidable P] {down : Bool} :
    ((if down = decide P then (1 : Int) else 0) = 1 ∧ (P ↔ down = true)) ∨
      ((if down = decide P then (1 : Int) else 0) = 0 ∧ ¬(P ↔ down = true)) := by
  by_cases h : P <;> cases down <;> simp [h]

/-- `NativeBlockMean`, for any scale up to 1.  `hreq`: every image is at least as large as the blocks requested for it (otherwise the
call does nothing), and the sum of the pixels of a block fits into 32 bits.  MISSING for the full property: larger scales, for which
the statistics need not fit into 8 bits. -/
theorem C82_blockMean_partial {java : Nat → Prop} {s : Jvm Int} (hj : JavaBytes java s.heap) {cs : List FilterCall}
    (hok : ∀ c ∈ cs, c.Ok java s.heap) {length : ConfigLength K} {scale : K} (h0 : 0 ≤ scale) (h1 : scale ≤ 1) (down useLocal : Bool)
    (hreq : ∀ c ∈ cs, ∃ req, c.Blocks length req ∧
      ∀ i j, i < Grid.count c.input.width.toNat req → j < Grid.count c.input.height.toNat req →
        (Grid.hi c.input.width.toNat req i - Grid.lo c.input.width.toNat req i) *
          (Grid.hi c.input.height.toNat req j - Grid.lo c.input.height.toNat req j) ≤ 16843009) :
    ∃ s', (nativeBlockMean length scale down useLocal).life 0 cs s = .ok () s' ∧
      LifeOf java (BlockMeanResult length scale down useLocal) cs s s' := by
  refine life_run (R := fun v => 0 ≤ v ∧ v ≤ 255) (Inv := BlockInv java 1) hj hok
    (BlockInv.create 0 (by decide) (by decide) _ (JavaAll.alive (R := fun v => 0 ≤ v ∧ v ≤ 255) hj)) ?_ (fun h st hi => hi.destroy)
  intro c hcs ⟨h, pins⟩ st f hi hja hc ha hf
  obtain ⟨req, hb, harea⟩ := hreq c hcs
  have r1 := hb.2.1
  have r2 := hb.2.2.1
  have r3 := hb.2.2.2
  have ew : c.input.width = (c.input.width.toNat : Int) := by omega
  have eh : c.input.height = (c.input.height.toNat : Int) := by omega
  have hcomp := fun h' : Heap Int => hb.computeI hc.input.width.2 h'
  generalize hw : c.input.width.toNat = w at *
  generalize hh : c.input.height.toNat = ht at *
  have pos : ∀ i j, i < Grid.count w req → j < Grid.count ht req →
      1 ≤ (Grid.hi w req i - Grid.lo w req i) * (Grid.hi ht req j - Grid.lo ht req j) := fun i j hi hj => by
    have a := (Grid.lo_le r1 (by omega) hi)
    have b := (Grid.lo_le r1 (by omega) hj)
    have a' := Grid.le_size r1 (show req ≤ w by omega)
    have b' := Grid.le_size r1 (show req ≤ ht by omega)
    exact Nat.mul_pos (by omega) (by omega)
  have sum : ∀ i j, i < Grid.count w req → j < Grid.count ht req → _ := fun i j hi hj =>
    rectSum_range (f := f) (x0 := Grid.lo w req i) (x1 := Grid.hi w req i) (y0 := Grid.lo ht req j) (y1 := Grid.hi ht req j)
      (fun x y hx hy => hf x y (by have := (Grid.lo_le r1 (show req ≤ w by omega) hi).2; omega)
        (by have := (Grid.lo_le r1 (show req ≤ ht by omega) hj).2; omega))
  have stat : ∀ i j, i < Grid.count w req → j < Grid.count ht req →
      let n := (Grid.hi w req i - Grid.lo w req i) * (Grid.hi ht req j - Grid.lo ht req j)
      let v : K := scale * ((rectSum f (Grid.lo w req i) (Grid.hi w req i) (Grid.lo ht req j) (Grid.hi ht req j) : Int) : K) / (n : K) + 1/2
      0 ≤ v ∧ v < 256 := by
    intro i j hi hj
    have a := pos i j hi hj
    obtain ⟨b1, b2⟩ := sum i j hi hj
    generalize (Grid.hi w req i - Grid.lo w req i) * (Grid.hi ht req j - Grid.lo ht req j) = n at *
    generalize rectSum f (Grid.lo w req i) (Grid.hi w req i) (Grid.lo ht req j) (Grid.hi ht req j) = S at *
    have n1 : (0 : K) < n := by exact_mod_cast a
    have s0 : (0 : K) ≤ S := by exact_mod_cast b1
    have s1 : (S : K) ≤ n * 255 := by exact_mod_cast b2
    have m0 : 0 ≤ scale * (S : K) := mul_nonneg h0 s0
    have m1 : scale * (S : K) ≤ n * 255 := le_trans (mul_le_of_le_one_left s0 h1) s1
    have q0 : 0 ≤ scale * (S : K) / n := div_nonneg m0 (le_of_lt n1)
    have q1 : scale * (S : K) / n ≤ 255 := by
      rw [div_le_iff₀ n1]; linarith
    intro n' v
    constructor
    · show 0 ≤ scale * (S : K) / (n : K) + 1/2
      linarith
    · show scale * (S : K) / (n : K) + 1/2 < 256
      linarith
  obtain ⟨b, s', e, hJ, hQ, hn, hbuf⟩ := C74_blockMean_partial (t := U8) (Or.inl rfl)
    (scaled := fun (s : Int) (n : Nat) => scale * s / n + 1 / 2) (useLocal := useLocal) (down := down) (z := 0) (config := length)
    ha (hi.kept hc) hi.2.2.2 ew eh r1 (by omega) (by omega) hcomp
    (fun x y hx hy => (hf x y (by omega) (by omega)).1)
    (fun i j hi hj => by
      have a := harea i j hi hj
      have := (sum i j hi hj).2
      show _ ≤ (4294967295 : Int)
      omega)
    (fun i j hi hj => by
      obtain ⟨a, b⟩ := stat i j hi hj
      have := truncK_range (b := 256) a (by exact_mod_cast b)
      unfold meanStat
      exact ⟨this.1, Int.le_of_lt_add_one this.2⟩) c.copyIn c.copyOut pins
  have hm : BlockMeanResult length scale down useLocal c f (fun x y => if down = decide (f x y ≤ localMean useLocal w ht req
            (meanStat (fun (s : Int) (n : Nat) => scale * s / n + 1 / 2) w ht req f) (Grid.blockOf w req x) (Grid.blockOf ht req y)) then 1 else 0) := by
    refine ⟨req, hb, .of (fun x y hx hy => ?_)⟩
    have e : ∀ i j, i < Grid.count w req → j < Grid.count ht req →
        meanStat (fun (s : Int) (n : Nat) => scale * s / n + 1 / 2) w ht req f i j =
        ⌊scale * ((rectSum f (Grid.lo w req i) (Grid.hi w req i) (Grid.lo ht req j) (Grid.hi ht req j) : Int) : K) /
          (((Grid.hi w req i - Grid.lo w req i) * (Grid.hi ht req j - Grid.lo ht req j) : Nat) : K) + 1/2⌋ := fun i j hi hj => by
      unfold meanStat
      exact truncK_nonneg (stat i j hi hj).1
    have bx := (Grid.has_blockOf r1 (show req ≤ w by omega) (show x < w by omega)).1
    have by' := (Grid.has_blockOf r1 (show req ≤ ht by omega) (show y < ht by omega)).1
    rw [hw, hh, ← localMean_congr e bx by']
    exact marks_iff
  obtain ⟨_, _, hmm⟩ := id hm
  exact ⟨b, s', fun b => b = st.stats.buf, _, e, hm, fun x y hx hy => FilterCall.Marks.bytes hmm hc x y hx hy,
    fun b c d => hi.2.2.1 (by rw [← show b = st.stats.buf from c]; exact d), hJ,
    hi.next hQ hn hbuf hja⟩

/-- `NativeBlockMinMax`, for any spread which is not negative and any scale the arithmetic of the filter can hold.  MISSING for the full
property: a negative spread, which should switch the test off (C40). -/
theorem C82_blockMinMax_partial {java : Nat → Prop} {s : Jvm Int} (hj : JavaBytes java s.heap) {cs : List FilterCall}
    (hok : ∀ c ∈ cs, c.Ok java s.heap) {length : ConfigLength K} {scale minimumSpread : K} (h0 : 0 ≤ scale) (h1 : scale ≤ 16777216)
    (m0 : 0 ≤ minimumSpread) (m1 : minimumSpread < 4294967296) (down useLocal : Bool) (hreq : ∀ c ∈ cs, ∃ req, c.Blocks length req) :
    ∃ s', (nativeBlockMinMax length scale down minimumSpread useLocal).life 0 cs s = .ok () s' ∧
      LifeOf java (BlockMinMaxResult length scale down minimumSpread useLocal) cs s s' := by
  refine life_run (R := fun v => 0 ≤ v ∧ v ≤ 255) (Inv := BlockInv java 2) hj hok
    (BlockInv.create 0 (by decide) (by decide) _ (JavaAll.alive (R := fun v => 0 ≤ v ∧ v ≤ 255) hj)) ?_ (fun h st hi => hi.destroy)
  intro c hcs ⟨h, pins⟩ st f hi hja hc ha hf
  obtain ⟨req, hb⟩ := hreq c hcs
  have r1 := hb.2.1
  have r2 := hb.2.2.1
  have r3 := hb.2.2.2
  have ew : c.input.width = (c.input.width.toNat : Int) := by omega
  have eh : c.input.height = (c.input.height.toNat : Int) := by omega
  have hcomp := fun h' : Heap Int => hb.computeI hc.input.width.2 h'
  have harea := hc.input.area
  generalize hw : c.input.width.toNat = w at *
  generalize hh : c.input.height.toNat = ht at *
  have rng : ∀ m : Int, 0 ≤ m → m ≤ 255 → 0 ≤ scale * (m : K) ∧ scale * (m : K) < ((4294967296 : Int) : K) := fun m a b => by
    have a' : (0 : K) ≤ m := by exact_mod_cast a
    have b' : (m : K) ≤ 255 := by exact_mod_cast b
    have := mul_le_mul h1 b' a' (by norm_num)
    refine ⟨mul_nonneg h0 a', ?_⟩
    push_cast
    linarith
  obtain ⟨b, s', mn, mx, e, hm, hJ, hQ, hn, hbuf⟩ := C74_blockMinMax_partial (t := U8) (Or.inl rfl)
    (minimumSpread := minimumSpread) (scaleMul := fun (m : Int) => scale * m) (useLocal := useLocal) (down := down) (z := 0)
    (config := length) ha (hi.kept hc) hi.2.2.2 ew eh r1 (by omega) (by omega) hcomp
    (fun x y hx hy => hf x y (by omega) (by omega))
    (by
      have a : Grid.count w req * Grid.count ht req ≤ w * ht := Nat.mul_le_mul (Nat.div_le_self ..) (Nat.div_le_self ..)
      omega)
    (by
      have := truncK_range (b := 4294967296) m0 (by exact_mod_cast m1)
      exact ⟨this.1, Int.le_of_lt_add_one this.2⟩)
    (fun m hm => by
      obtain ⟨a, b⟩ := rng m hm.1 hm.2
      have := truncK_range a b
      exact ⟨this.1, Int.le_of_lt_add_one this.2⟩) c.copyIn c.copyOut pins
  have hR : BlockMinMaxResult length scale down minimumSpread useLocal c f (fun x y =>
          let i := Grid.blockOf w req x
          let j := Grid.blockOf ht req y
          if mx i j - mn i j ≤ truncK minimumSpread then 1
          else if down = decide (f x y ≤ truncK (scale * (((mx i j + mn i j).tdiv 2 : Int) : K))) then 1 else 0) := by
    refine ⟨req, hb, .of (fun x y hx hy => ?_)⟩
    have bx := (Grid.has_blockOf r1 (show req ≤ w by omega) (show x < w by omega)).1
    have by' := (Grid.has_blockOf r1 (show req ≤ ht by omega) (show y < ht by omega)).1
    obtain ⟨i1, i2⟩ := hm _ _ bx by'
    rw [hw, hh]
    have lx : localHi useLocal w req (Grid.blockOf w req x) ≤ w := (Grid.lo_le r1 (by omega) (Grid.last_lt (u := useLocal) bx)).2
    have ly : localHi useLocal ht req (Grid.blockOf ht req y) ≤ ht := (Grid.lo_le r1 (by omega) (Grid.last_lt (u := useLocal) by')).2
    generalize Grid.blockOf w req x = i at *
    generalize Grid.blockOf ht req y = j at *
    have v1 : 0 ≤ mn i j ∧ mn i j ≤ 255 := by
      obtain ⟨-, x', y', c1, c2, c3, c4, e⟩ := i1
      rw [← e]; exact hf x' y' (by omega) (by omega)
    have v2 : 0 ≤ mx i j ∧ mx i j ≤ 255 := by
      obtain ⟨-, x', y', c1, c2, c3, c4, e⟩ := i2
      rw [← e]; exact hf x' y' (by omega) (by omega)
    have ed : (mx i j + mn i j).tdiv 2 = (mx i j + mn i j) / 2 := Int.tdiv_eq_ediv_of_nonneg (by omega)
    simp only [ed]
    have k1 := le_truncK m0 (mx i j - mn i j)
    have k2 := le_truncK (rng ((mx i j + mn i j) / 2) (by omega) (by omega)).1 (f x y)
    have sel : (∃ mn' mx' : Int, IsRectMin f (localLo useLocal w req i) (localHi useLocal w req i) (localLo useLocal ht req j)
          (localHi useLocal ht req j) mn' ∧
        IsRectMax f (localLo useLocal w req i) (localHi useLocal w req i) (localLo useLocal ht req j) (localHi useLocal ht req j) mx' ∧
        (((mx' - mn' : Int) : K) ≤ minimumSpread ∨ ((f x y : K) ≤ scale * (((mx' + mn') / 2 : Int) : K) ↔ down = true))) ↔
        (mx i j - mn i j ≤ truncK minimumSpread ∨ (f x y ≤ truncK (scale * (((mx i j + mn i j) / 2 : Int) : K)) ↔ down = true)) := by
      rw [k1, k2]
      constructor
      · rintro ⟨a, b, ha, hb, hab⟩
        rw [← ha.unique i1, ← hb.unique i2]; exact hab
      · intro hab
        exact ⟨_, _, i1, i2, hab⟩
    by_cases d : mx i j - mn i j ≤ truncK minimumSpread
    · left
      exact ⟨if_pos d, sel.mpr (Or.inl d)⟩
    · rcases marks_iff (P := f x y ≤ truncK (scale * (((mx i j + mn i j) / 2 : Int) : K))) (down := down) with ⟨u1, u2⟩ | ⟨u1, u2⟩
      · left
        exact ⟨(if_neg d).trans u1, sel.mpr (Or.inr u2)⟩
      · right
        exact ⟨(if_neg d).trans u1, fun c => (sel.mp c).elim d u2⟩
  obtain ⟨_, _, hmm⟩ := id hR
  exact ⟨b, s', fun b => b = st.stats.buf, _, e, hR, fun x y hx hy => FilterCall.Marks.bytes hmm hc x y hx hy,
    fun b c d => hi.2.2.1 (by rw [← show b = st.stats.buf from c]; exact d), hJ, hi.next hQ hn hbuf hja⟩

/-- Weighted sums. -/
theorem sumN_weighted {m : Nat} {g hist : Nat → Int} {c : Int} (h0 : ∀ k, k < m → 0 ≤ hist k) (hg : ∀ k, k < m → g k ≤ c) :
    sumN m (fun k => g k * hist k) ≤ c * sumN m hist := by
  rw [← sumN_mul]
  exact sumN_le_sumN (fun k hk => Int.mul_le_mul_of_nonneg_right (hg k hk) (h0 k hk))

/-- The threshold before any adjustment is one of the levels. -/
theorem IsRaw.le {otsu2 : Bool} {n : Nat} {hist : Nat → Int} {t : Nat} {raw var : K} (hr : IsRaw otsu2 n hist t raw var) (hn : 1 ≤ n)
    (h0 : ∀ k, k < n → 0 ≤ hist k) : raw ≤ ((n - 1 : Nat) : K) := by
  by_cases d : IsSplit n hist t
  · obtain ⟨e, -⟩ := hr.1 d
    obtain ⟨d1, d2, d3⟩ := d
    have a : (t : K) ≤ ((n - 1 : Nat) : K) := by exact_mod_cast (by omega : t ≤ n - 1)
    cases otsu2
    · rw [e]; exact a
    · rw [e, if_pos rfl]
      have p2 : (0 : K) < (below hist t : Int) := by exact_mod_cast d2
      have p3 : (0 : K) < (above n hist t : Int) := by exact_mod_cast d3
      have b1 : (meanBelow hist t : K) ≤ ((n - 1 : Nat) : K) := by
        unfold meanBelow
        rw [div_le_iff₀ p2]
        have := sumN_weighted (m := t + 1) (g := fun k => (k : Int)) (hist := hist) (c := ((n - 1 : Nat) : Int)) (fun k hk => h0 k (by omega))
          (fun k hk => by omega)
        unfold below
        exact_mod_cast this
      have b2 : (meanAbove n hist t : K) ≤ ((n - 1 : Nat) : K) := by
        unfold meanAbove
        rw [div_le_iff₀ p3]
        have := sumN_weighted (m := n - (t + 1)) (g := fun k => ((t + 1 + k : Nat) : Int)) (hist := fun k => hist (t + 1 + k))
          (c := ((n - 1 : Nat) : Int)) (fun k hk => h0 _ (by omega)) (fun k hk => by omega)
        unfold above
        exact_mod_cast this
      linarith
  · rw [(hr.2 d).1]; exact Nat.cast_nonneg _

/-- With moderate tuning and scale nothing overflows in the adjustment of an 8 bit threshold. -/
theorem adjustment_small {down : Bool} {tuning scale raw var : K} (t1 : |tuning| ≤ 5) (s1 : scale ≤ 1) (r0 : 0 ≤ raw)
    (r1 : raw ≤ 255) (v0 : 0 ≤ var) :
    penalty tuning raw var ≤ 2147483647 ∧ ⌊scale * moved down tuning raw var + 1/2⌋ ≤ 2147483647 := by
  have hq : (tuning * raw) ^ 2 / (var + 1/1000) ≤ 1625625000 := by
    rw [div_le_iff₀ (by linarith)]
    have a : |tuning * raw| ≤ 1275 := by
      rw [abs_mul, abs_of_nonneg r0]
      have := mul_le_mul t1 r1 r0 (by norm_num)
      linarith
    have b : (tuning * raw) ^ 2 ≤ 1275 ^ 2 := by
      rw [← sq_abs]
      exact pow_le_pow_left₀ (abs_nonneg _) a 2
    nlinarith
  have hq0 : 0 ≤ (tuning * raw) ^ 2 / (var + 1/1000) := div_nonneg (sq_nonneg _) (by linarith)
  have hp : penalty tuning raw var ≤ 1625625000 := by
    unfold penalty
    refine Int.le_of_lt_add_one ?_
    rw [Int.floor_lt]
    push_cast
    linarith
  have hp0 : 0 ≤ penalty tuning raw var := by
    unfold penalty
    exact Int.floor_nonneg.mpr (by linarith)
  refine ⟨by omega, Int.le_of_lt_add_one ?_⟩
  have pk : ((penalty tuning raw var : Int) : K) ≤ 1625625000 := by exact_mod_cast hp
  have pk0 : (0 : K) ≤ ((penalty tuning raw var : Int) : K) := by exact_mod_cast hp0
  have hm : moved down tuning raw var ≤ 1625625255 := by
    unfold moved
    refine max_le ?_ (by norm_num)
    split <;> linarith
  have hm0 : 0 ≤ moved down tuning raw var := le_max_right _ _
  have := mul_le_of_le_one_left hm0 s1
  rw [Int.floor_lt]
  push_cast
  linarith

/-- What the computation returns for the histogram around a block, and that it does so in every state. -/
theorem tuned_block (V : Type) {otsu2 down useLocal : Bool} {tuning scale : K} (t1 : |tuning| ≤ 5) (h0 : 0 ≤ scale) (h1 : scale ≤ 1)
    {w ht req : Nat} (r1 : 1 ≤ req) (r2 : req ≤ w) (r3 : req ≤ ht) (harea : w * ht < 2147483648) {f : Nat → Nat → Int}
    (hf : ∀ x y, x < w → y < ht → 0 ≤ f x y ∧ f x y ≤ 255) :
    ∀ (i j : Nat), i < Grid.count w req → j < Grid.count ht req →
      ∃ (v : Int) (t : Nat) (raw var : K),
        (∀ h : Heap V, (ComputeOtsu.mk otsu2 tuning down scale).compute ⟨(List.range 256).map (fun k : Nat => rectCount f k
          (localLo useLocal w req i) (localHi useLocal w req i) (localLo useLocal ht req j) (localHi useLocal ht req j)), 256, 0, true⟩
          ((localHi useLocal w req i - localLo useLocal w req i) * (localHi useLocal ht req j - localLo useLocal ht req j)) h = .ok v h) ∧
        IsOtsu K 256 (fun k => rectCount f k (localLo useLocal w req i) (localHi useLocal w req i)
          (localLo useLocal ht req j) (localHi useLocal ht req j)) t ∧
        IsRaw otsu2 256 (fun k => rectCount f k (localLo useLocal w req i) (localHi useLocal w req i)
          (localLo useLocal ht req j) (localHi useLocal ht req j)) t raw var ∧
        v = ⌊scale * moved down tuning raw var + 1/2⌋ := by
  intro i j hi hj
  have lx := (Grid.lo_le r1 (show req ≤ w by omega) (Grid.last_lt (u := useLocal) hi)).2
  have ly := (Grid.lo_le r1 (show req ≤ ht by omega) (Grid.last_lt (u := useLocal) hj)).2
  have ex : localHi useLocal w req i ≤ w := lx
  have ey : localHi useLocal ht req j ≤ ht := ly
  generalize localLo useLocal w req i = x0 at *
  generalize localHi useLocal w req i = x1 at *
  generalize localLo useLocal ht req j = y0 at *
  generalize localHi useLocal ht req j = y1 at *
  have harea' : (x1 - x0) * (y1 - y0) < 4294967296 := by
    have := Nat.mul_le_mul (show x1 - x0 ≤ w by omega) (show y1 - y0 ≤ ht by omega)
    omega
  have hsum : sumN 256 (fun k : Nat => rectCount f k x0 x1 y0 y1) = (((x1 - x0) * (y1 - y0) : Nat) : Int) := by
    have := sumN_pixelCount (w := x1 - x0) (h := y1 - y0) (n := 256) (m := 0) (f := fun x y => f (x0 + x) (y0 + y))
      (fun x y hx hy => by have := hf (x0 + x) (y0 + y) (by omega) (by omega); omega)
    rw [← this]
    apply sumN_congr
    intro k _
    rw [Int.zero_add]; rfl
  have hget : ∀ k : Nat, k < 256 → ((List.range 256).map (fun k : Nat => rectCount f k x0 x1 y0 y1))[k]? =
      some (rectCount f k x0 x1 y0 y1) := fun k hk => range_map_get hk
  have run := fun h : Heap V => C75_tuned (K := K) (V := V)
    (a := ⟨(List.range 256).map (fun k : Nat => rectCount f k x0 x1 y0 y1), 256, 0, true⟩)
    (hist := fun k => rectCount f k x0 x1 y0 y1) hget (fun k _ => (rectCount_le f k x0 x1 y0 y1).1) hsum harea' otsu2 down tuning h0 h
  obtain ⟨t, raw, var, i1, i2, p0, p1, e⟩ := run (⟨[]⟩ : Heap V)
  refine ⟨_, t, raw, var, fun h => ?_, i1, i2, rfl⟩
  obtain ⟨t', raw', var', i1', i2', p0', p1', e'⟩ := run h
  obtain rfl := IsOtsu_unique i1 i1'
  obtain ⟨rfl, rfl⟩ := IsRaw_unique i2 i2'
  rw [e', if_pos]
  have := IsRaw.le (n := 256) i2 (by decide) (fun k _ => (rectCount_le f k x0 x1 y0 y1).1)
  exact adjustment_small t1 h1 p0 (by exact_mod_cast this) p1

/-- `NativeBlockOtsu`, both variants.  `hreq`: every image is at least as large as the blocks requested for it, and there are less than
2^24 blocks.  MISSING for the full property: larger values of the tuning and the scale, for which the threshold may overflow (C75). -/
theorem C82_blockOtsu_partial {java : Nat → Prop} {s : Jvm Int} (hj : JavaBytes java s.heap) {cs : List FilterCall}
    (hok : ∀ c ∈ cs, c.Ok java s.heap) (otsu2 : Bool) {length : ConfigLength K} {tuning scale : K} (t1 : |tuning| ≤ 5) (h0 : 0 ≤ scale)
    (h1 : scale ≤ 1) (down useLocal : Bool)
    (hreq : ∀ c ∈ cs, ∃ req, c.Blocks length req ∧
      Grid.count c.input.width.toNat req * Grid.count c.input.height.toNat req < 16777216) :
    ∃ s', (nativeBlockOtsu otsu2 length tuning scale down useLocal).life 0 cs s = .ok () s' ∧
      LifeOf java (BlockOtsuResult otsu2 length tuning scale down useLocal) cs s s' := by
  refine life_run (R := fun v => 0 ≤ v ∧ v ≤ 255) (Inv := BlockInv java 256) hj hok
    (BlockInv.create 0 (by decide) (by decide) _ (JavaAll.alive (R := fun v => 0 ≤ v ∧ v ≤ 255) hj)) ?_ (fun h st hi => hi.destroy)
  intro c hcs ⟨h, pins⟩ st f hi hja hc ha hf
  obtain ⟨req, hb, hsize⟩ := hreq c hcs
  have r1 := hb.2.1
  have r2 := hb.2.2.1
  have r3 := hb.2.2.2
  have ew : c.input.width = (c.input.width.toNat : Int) := by omega
  have eh : c.input.height = (c.input.height.toNat : Int) := by omega
  have hcomp := fun h' : Heap Int => hb.computeI hc.input.width.2 h'
  have harea := hc.input.area
  generalize hw : c.input.width.toNat = w at *
  generalize hh : c.input.height.toNat = ht at *
  have key := tuned_block Int (otsu2 := otsu2) (down := down) (useLocal := useLocal) t1 h0 h1 (w := w) (ht := ht) r1 (by omega) (by omega)
    harea (f := f) (fun x y hx hy => hf x y (by omega) (by omega))
  classical
  let th : Nat → Nat → Int := fun i j => if q : i < Grid.count w req ∧ j < Grid.count ht req then (key i j q.1 q.2).choose else 0
  have he : ∀ i j (hi : i < Grid.count w req) (hj : j < Grid.count ht req), th i j = (key i j hi hj).choose :=
    fun i j hi hj => dif_pos (And.intro hi hj)
  obtain ⟨b, s', e, hJ, hQ, hn, hbuf⟩ := C74_blockOtsu (otsu := ComputeOtsu.mk otsu2 tuning down scale) (useLocal := useLocal) (z := 0)
    (config := length) ha (hi.kept hc) hi.2.2.2 ew eh r1 (by omega) (by omega) hcomp
    (fun x y hx hy => hf x y (by omega) (by omega)) harea (by omega) (th := th)
    (fun i j h hi hj => by
      obtain ⟨t, raw, var, k1, -⟩ := (key i j hi hj).choose_spec
      rw [he i j hi hj]; exact k1 h) c.copyIn c.copyOut pins
  have hR : BlockOtsuResult otsu2 length tuning scale down useLocal c f
      (fun x y => if down = decide (f x y ≤ th (Grid.blockOf w req x) (Grid.blockOf ht req y)) then 1 else 0) := by
    refine ⟨req, hb, .of (fun x y hx hy => ?_)⟩
    have bx := (Grid.has_blockOf r1 (show req ≤ w by omega) (show x < w by omega)).1
    have by' := (Grid.has_blockOf r1 (show req ≤ ht by omega) (show y < ht by omega)).1
    obtain ⟨t, raw, var, -, k2, k3, k4⟩ := (key _ _ bx by').choose_spec
    rw [hw, hh, he _ _ bx by', k4]
    rcases marks_iff (P := f x y ≤ ⌊scale * moved down tuning raw var + 1/2⌋) (down := down) with ⟨u1, u2⟩ | ⟨u1, u2⟩
    · exact Or.inl ⟨u1, t, raw, var, k2, k3, u2⟩
    · refine Or.inr ⟨u1, ?_⟩
      rintro ⟨t', raw', var', k2', k3', u⟩
      obtain rfl := IsOtsu_unique k2 k2'
      obtain ⟨rfl, rfl⟩ := IsRaw_unique k3 k3'
      exact u2 u
  obtain ⟨_, _, hmm⟩ := id hR
  exact ⟨b, s', fun b => b = st.stats.buf, _, e, hR, fun x y hx hy => FilterCall.Marks.bytes hmm hc x y hx hy,
    fun b c d => hi.2.2.1 (by rw [← show b = st.stats.buf from c]; exact d), hJ, hi.next hQ hn hbuf hja⟩

/-- Calling `nativedestroy` a second time, as the finalizer does after an explicit call, is undefined behaviour. -/
theorem C82_destroy_twice_refuted {java : Nat → Prop} {bands : Nat} {h : Heap Int} {b : Blocks} (hi : BlockInv java bands h b)
    (process : Interleaved → Gray → Gray → M Int Blocks) :
    ((blockFilter 0 bands process).destroy b >>= fun _ => (blockFilter 0 bands process).destroy b) h = .ub := by
  obtain ⟨l, hl⟩ := isSome_get hi.1.live
  have e : ∀ h', (blockFilter (0 : Int) bands process).destroy b h' = M.delArr b.stats.buf h' := fun h' => by
    show b.stats.destroy h' = _
    unfold Interleaved.destroy
    rw [if_neg (by rw [hi.2.1]; decide)]
  have e1 : (blockFilter (0 : Int) bands process).destroy b h = .ok () (h.free b.stats.buf) := by
    rw [e]; simp [M.delArr, hl]
  refine (M.bind_ok e1).trans ?_
  rw [e]
  simp [M.delArr, Heap.get_free]

end

/-! ## The hypotheses hold for a filter which is used twice, the second time on a larger picture. -/

/-- Two calls: first on `4 × 2` pixels, then on `6 × 4` pixels. -/
def filterCalls : List FilterCall :=
  [⟨⟨some 0, 4, 2, 5, 1⟩, ⟨some 1, 4, 2, 4, 0⟩, true, false⟩, ⟨⟨some 2, 6, 4, 6, 0⟩, ⟨some 3, 6, 4, 6, 0⟩, false, true⟩]

def filterJava : Nat → Prop := fun b => b < 4

def filterHeap : Heap Int := ⟨[some [9, 10, 200, 30, 40, 9, 255, 0, 7, 8, 9], some (List.replicate 8 77),
  some ((List.range 24).map (fun k : Nat => 10 * (k : Int))), some (List.replicate 24 5)]⟩

theorem filter_bytes : JavaBytes filterJava filterHeap := by
  intro b hb
  have hb : b < 4 := hb
  have : b = 0 ∨ b = 1 ∨ b = 2 ∨ b = 3 := by omega
  rcases this with rfl | rfl | rfl | rfl <;> exact ⟨_, rfl, by decide⟩

theorem filter_ok : ∀ c ∈ filterCalls, c.Ok filterJava filterHeap := by
  intro c hc
  simp only [filterCalls, List.mem_cons, List.not_mem_nil, or_false] at hc
  rcases hc with rfl | rfl
  · refine ⟨⟨⟨0, _, rfl, rfl, by decide, fun y hy => ?_⟩, by decide, by decide, by decide, by decide⟩,
      ⟨⟨1, _, rfl, rfl, by decide, fun y hy => ?_⟩, by decide, by decide, by decide, by decide⟩, by decide, rfl, rfl, ?_, ?_⟩
    · have hy : (y : Int) < 2 := hy
      show (1 : Int) + y * 5 + 4 ≤ 11
      omega
    · have hy : (y : Int) < 2 := hy
      show (0 : Int) + y * 4 + 4 ≤ 8
      omega
    · intro a e; cases e; show 0 < 4; decide
    · intro a e; cases e; show 1 < 4; decide
  · refine ⟨⟨⟨2, _, rfl, rfl, by decide, fun y hy => ?_⟩, by decide, by decide, by decide, by decide⟩,
      ⟨⟨3, _, rfl, rfl, by decide, fun y hy => ?_⟩, by decide, by decide, by decide, by decide⟩, by decide, rfl, rfl, ?_, ?_⟩
    · have hy : (y : Int) < 4 := hy
      show (0 : Int) + y * 6 + 6 ≤ 24
      omega
    · have hy : (y : Int) < 4 := hy
      show (0 : Int) + y * 6 + 6 ≤ 24
      omega
    · intro a e; cases e; show 2 < 4; decide
    · intro a e; cases e; show 3 < 4; decide

theorem filter_blocks : ∀ c ∈ filterCalls, c.Blocks (⟨2, -1⟩ : ConfigLength Rat) 2 := by
  intro c hc
  simp only [filterCalls, List.mem_cons, List.not_mem_nil, or_false] at hc
  rcases hc with rfl | rfl <;>
    exact ⟨⟨2, fun h => absurd h (by norm_num), fun _ => rfl, by norm_num, by norm_num⟩, by decide, by decide, by decide⟩

example (pins : List Pin) : ∃ s', (nativeGlobalFixed Rat (401/2) true).life 0 filterCalls ⟨filterHeap, pins⟩ = .ok () s' ∧
    LifeOf filterJava (FixedResult (401/2 : Rat) true) filterCalls ⟨filterHeap, pins⟩ s' :=
  C82_globalFixed filter_bytes filter_ok (by norm_num) (by norm_num) true

example (pins : List Pin) : ∃ s', (nativeGlobalOtsu Rat (fun _ => 0) 0 255 true).life 0 filterCalls ⟨filterHeap, pins⟩ = .ok () s' ∧
    LifeOf filterJava (OtsuResult Rat true) filterCalls ⟨filterHeap, pins⟩ s' :=
  C82_globalOtsu_partial filter_bytes filter_ok _ (by norm_num) (by norm_num) (by norm_num) (by norm_num) true

theorem filter_area : ∀ c ∈ filterCalls, ∀ i j, i < Grid.count c.input.width.toNat 2 → j < Grid.count c.input.height.toNat 2 →
    (Grid.hi c.input.width.toNat 2 i - Grid.lo c.input.width.toNat 2 i) *
      (Grid.hi c.input.height.toNat 2 j - Grid.lo c.input.height.toNat 2 j) ≤ 16843009 := by
  intro c hc
  simp only [filterCalls, List.mem_cons, List.not_mem_nil, or_false] at hc
  rcases hc with rfl | rfl
  · show ∀ i j : Nat, i < 2 → j < 1 → (Grid.hi 4 2 i - Grid.lo 4 2 i) * (Grid.hi 2 2 j - Grid.lo 2 2 j) ≤ 16843009
    intro i j hi hj
    have : Grid.hi 4 2 i ≤ 4 := by unfold Grid.hi Grid.size Grid.count; split <;> omega
    have : Grid.hi 2 2 j ≤ 2 := by unfold Grid.hi Grid.size Grid.count; split <;> omega
    have := Nat.mul_le_mul (show Grid.hi 4 2 i - Grid.lo 4 2 i ≤ 4 by omega) (show Grid.hi 2 2 j - Grid.lo 2 2 j ≤ 2 by omega)
    omega
  · show ∀ i j : Nat, i < 3 → j < 2 → (Grid.hi 6 2 i - Grid.lo 6 2 i) * (Grid.hi 4 2 j - Grid.lo 4 2 j) ≤ 16843009
    intro i j hi hj
    have : Grid.hi 6 2 i ≤ 6 := by unfold Grid.hi Grid.size Grid.count; split <;> omega
    have : Grid.hi 4 2 j ≤ 4 := by unfold Grid.hi Grid.size Grid.count; split <;> omega
    have := Nat.mul_le_mul (show Grid.hi 6 2 i - Grid.lo 6 2 i ≤ 6 by omega) (show Grid.hi 4 2 j - Grid.lo 4 2 j ≤ 4 by omega)
    omega

example (pins : List Pin) : ∃ s', (nativeBlockMean (⟨2, -1⟩ : ConfigLength Rat) (19/20) true true).life 0 filterCalls ⟨filterHeap, pins⟩ = .ok () s' ∧
    LifeOf filterJava (BlockMeanResult (⟨2, -1⟩ : ConfigLength Rat) (19/20) true true) filterCalls ⟨filterHeap, pins⟩ s' :=
  C82_blockMean_partial filter_bytes filter_ok (by norm_num) (by norm_num) true true
    (fun c hc => ⟨2, filter_blocks c hc, filter_area c hc⟩)

example (pins : List Pin) : ∃ s', (nativeBlockMinMax (⟨2, -1⟩ : ConfigLength Rat) (19/20) true 10 true).life 0 filterCalls ⟨filterHeap, pins⟩ =
      .ok () s' ∧
    LifeOf filterJava (BlockMinMaxResult (⟨2, -1⟩ : ConfigLength Rat) (19/20) true 10 true) filterCalls ⟨filterHeap, pins⟩ s' :=
  C82_blockMinMax_partial filter_bytes filter_ok (by norm_num) (by norm_num) (by norm_num) (by norm_num) true true
    (fun c hc => ⟨2, filter_blocks c hc⟩)

example (pins : List Pin) : ∃ s', (nativeBlockOtsu false (⟨2, -1⟩ : ConfigLength Rat) 1 1 true true).life 0 filterCalls ⟨filterHeap, pins⟩ =
      .ok () s' ∧
    LifeOf filterJava (BlockOtsuResult false (⟨2, -1⟩ : ConfigLength Rat) 1 1 true true) filterCalls ⟨filterHeap, pins⟩ s' :=
  C82_blockOtsu_partial filter_bytes filter_ok false (by norm_num) (by norm_num) (by norm_num) true true
    (fun c hc => ⟨2, filter_blocks c hc, by
      simp only [filterCalls, List.mem_cons, List.not_mem_nil, or_false] at hc
      rcases hc with rfl | rfl <;> decide⟩)

example (pins : List Pin) : ∃ s', (nativeLocalMean (fun _ => 7) (⟨6, -1⟩ : ConfigLength Rat) (19/20) true).life 0 filterCalls
      ⟨filterHeap, pins⟩ = .ok () s' ∧
    LifeOf filterJava (LocalMeanResult (⟨6, -1⟩ : ConfigLength Rat) (19/20) true) filterCalls ⟨filterHeap, pins⟩ s' :=
  C82_localMean_partial filter_bytes filter_ok _ _ true (fun c hc => by
    simp only [filterCalls, List.mem_cons, List.not_mem_nil, or_false] at hc
    refine ⟨6, ⟨6, fun h => absurd h (by norm_num), fun _ => rfl, by norm_num, by norm_num⟩, ?_⟩
    rcases hc with rfl | rfl <;> decide)

end Boof
