import Verif.Spec.Jobs
import Verif.Props.Blur
import Verif.Props.BinaryOps
import Verif.Props.Convolve
import Verif.Spec.Symmetry
import Verif.Props.Images
/-
C98: calls which do not share images can be made in any order.
-/
namespace Boof
open M
variable {V : Type}

theorem Job.Apart.symm {j k : Job V} (h : j.Apart k) : k.Apart j :=
  ⟨fun v hv => ⟨fun u hu => Ne.symm ((h.1 u hu).1 v hv), fun p hp => h.2 v hv p hp⟩, fun u hu p hp => (h.1 u hu).2 p hp⟩

theorem Gray.Valid.kept {h h' : Heap V} {g : Gray} (hv : g.Valid h)
    (ha : (h'.get g.buf).isSome = (h.get g.buf).isSome) (hc : ∀ i, h'.cell g.buf i = h.cell g.buf i) : g.Valid h' :=
  hv.transfer (by rw [ha]; exact hv.live) (fun i hi => by rw [hc]; exact hv.cells i hi)

theorem Gray.Shows.kept {h h' : Heap V} {g : Gray} {f : Nat → Nat → V} (hs : g.Shows h f)
    (hc : ∀ i, h'.cell g.buf i = h.cell g.buf i) : g.Shows h' f := fun x y hx hy => by
  have := hs x y hx hy
  unfold Heap.px at *
  rw [hc]; exact this

theorem pairwise_forall {l : List (Job V)} (hp : l.Pairwise Job.Apart) {j k : Job V} (hj : j ∈ l) (hk : k ∈ l) (hne : j ≠ k) : j.Apart k := by
  induction l with
  | nil => cases hj
  | cons a l ih =>
    obtain ⟨h1, h2⟩ := List.pairwise_cons.1 hp
    rcases List.mem_cons.1 hj with rfl | hj'
    · rcases List.mem_cons.1 hk with rfl | hk'
      · exact absurd rfl hne
      · exact h1 k hk'
    · rcases List.mem_cons.1 hk with rfl | hk'
      · exact (h1 j hj').symm
      · exact ih h2 hj' hk'

/-- Arrays which none of the jobs writes are kept. -/
theorem runAll_spec {l : List (Job V)} (hp : l.Pairwise Job.Apart) (hs : ∀ j, j ∈ l → j.Sound) :
    ∀ {h : Heap V}, (∀ j, j ∈ l → j.Ready h) → ∃ gs h', runAll l h = .ok gs h' ∧ List.Forall₂ (fun j g => j.Done g h') l gs ∧ h.next ≤ h'.next ∧
      (∀ b, b < h.next → (∀ j, j ∈ l → ∀ u, u ∈ j.written → b ≠ u.buf) →
        (h'.get b).isSome = (h.get b).isSome ∧ ∀ i, h'.cell b i = h.cell b i) := by
  induction l with
  | nil => intro h _; exact ⟨[], h, rfl, .nil, Nat.le_refl _, fun b _ _ => ⟨rfl, fun _ => rfl⟩⟩
  | cons j l ih =>
    intro h hr
    obtain ⟨ha, hp'⟩ := List.pairwise_cons.1 hp
    obtain ⟨g, h1, e, d, hb, hn, hk, -⟩ := hs j List.mem_cons_self h (hr j List.mem_cons_self)
    have keep : ∀ {u : Gray}, u.Valid h → (∀ v, v ∈ j.written → v.buf ≠ u.buf) →
        (h1.get u.buf).isSome = (h.get u.buf).isSome ∧ ∀ i, h1.cell u.buf i = h.cell u.buf i := fun hv hne =>
      hk _ hv.lt_next (fun v hv' => Ne.symm (hne v hv'))
    obtain ⟨gs, h', e', ds, hn', hk'⟩ := ih hp' (fun k hk => hs k (List.mem_cons_of_mem _ hk)) (h := h1) (fun k hk => by
      obtain ⟨r1, r2⟩ := hr k (List.mem_cons_of_mem _ hk)
      have a := ha k hk
      refine ⟨fun p hp => ?_, fun v hv => ?_⟩
      · obtain ⟨q1, q2⟩ := r1 p hp
        obtain ⟨k1, k2⟩ := keep q1 (fun v hv => (a.1 v hv).2 p hp)
        exact ⟨q1.kept k1 k2, q2.kept k2⟩
      · have q := r2 v hv
        obtain ⟨k1, k2⟩ := keep q (fun u hu => (a.1 u hu).1 v hv)
        exact q.kept k1 k2)
    refine ⟨g :: gs, h', (M.bind_ok e).trans ((M.bind_ok e').trans rfl), .cons ?_ ds, by omega, fun b hb hne => ?_⟩
    · have hne : ∀ k, k ∈ l → ∀ u, u ∈ k.written → g.buf ≠ u.buf := fun k hk u hu => by
        rcases hb with ⟨v, hv, ev⟩ | hb
        · rw [ev]; exact ((ha k hk).1 v hv).1 u hu
        · have := ((hr k (List.mem_cons_of_mem _ hk)).2 u hu).lt_next
          omega
      obtain ⟨d1, d2, d3, d4⟩ := d
      obtain ⟨k1, k2⟩ := hk' _ d3.lt_next hne
      exact ⟨d1, d2, d3.kept k1 k2, d4.kept k2⟩
    · obtain ⟨k1, k2⟩ := hk b hb (fun u hu => hne j List.mem_cons_self u hu)
      obtain ⟨k3, k4⟩ := hk' b (by omega) (fun k hk u hu => hne k (List.mem_cons_of_mem _ hk) u hu)
      exact ⟨k3.trans k1, fun i => (k4 i).trans (k2 i)⟩

/-- Calls which do not write what another one uses: in whatever order they are made, each of them succeeds, in the end each image which was
returned shows the picture of its call, and all inputs and all other images are as before. -/
theorem C98_any_order {l l' : List (Job V)} (hl : l'.Perm l) (hp : l.Pairwise Job.Apart) (hs : ∀ j, j ∈ l → j.Sound)
    {h : Heap V} (hr : ∀ j, j ∈ l → j.Ready h) :
    ∃ gs h', runAll l' h = .ok gs h' ∧ List.Forall₂ (fun j g => j.Done g h') l' gs ∧
      (∀ j, j ∈ l → ∀ p, p ∈ j.inputs → (∀ u, u ∈ j.written → u.buf ≠ p.1.buf) → p.1.Valid h' ∧ p.1.Shows h' p.2) ∧
      (∀ b, b < h.next → (∀ j, j ∈ l → ∀ u, u ∈ j.written → b ≠ u.buf) → ∀ i, h'.cell b i = h.cell b i) := by
  obtain ⟨gs, h', e, d, -, k⟩ := runAll_spec (hl.symm.pairwise hp (fun h => h.symm)) (fun j hj => hs j (hl.subset hj)) (h := h)
    (fun j hj => hr j (hl.subset hj))
  refine ⟨gs, h', e, d, fun j hj p hp' hne => ?_, fun b hb hne => (k b hb (fun j hj => hne j (hl.subset hj))).2⟩
  obtain ⟨v, s⟩ := (hr j hj).1 p hp'
  have hk := k p.1.buf v.lt_next (fun k hk u hu => by
    by_cases hjk : k = j
    · subst hjk; exact Ne.symm (hne u hu)
    · have : j.Apart k := pairwise_forall hp hj (hl.subset hk) (Ne.symm hjk)
      exact Ne.symm (this.2 u hu p hp'))
  exact ⟨v.kept hk.1 hk.2, s.kept hk.2⟩


/-! ## The calls -/

theorem Produced.sound {j : Job V} {output : Gray} (hw : j.written = [output])
    (hrun : ∀ h, j.Ready h → ∃ g h', j.run h = .ok g h' ∧ Produced h h' output g j.width j.height j.picture) : j.Sound := fun h hr => by
  obtain ⟨g, h', e, p⟩ := hrun h hr
  refine ⟨g, h', e, ⟨p.width, p.height, p.valid, fun x y hx hy => p.pix x y (by rw [← p.width]; exact hx) (by rw [← p.height]; exact hy)⟩, ?_, p.nextLe,
    fun b hb hne => ?_, fun o ho ow oh => ?_⟩
  · rcases p.buf with ⟨e, -⟩ | h
    · exact Or.inl ⟨output, by simp [hw], e⟩
    · exact Or.inr h
  · have := hne output (by simp [hw])
    exact ⟨p.alive b this hb, fun i => p.frame b i this hb⟩
  · rw [hw] at ho
    cases ho
    obtain ⟨e1, e2⟩ := p.inPlace ow oh
    exact ⟨e1, fun i hi => e2.frame _ _ (fun x y hx hy hc => hi x y hx hy hc.2)⟩

theorem Produced2.sound {j : Job V} {output storage : Gray} {m : Nat → Nat → V} (hw : j.written = [output, storage])
    (hrun : ∀ h, j.Ready h → ∃ g s' h', j.run h = .ok g h' ∧ Produced2 h h' output g storage s' j.width j.height j.picture m) : j.Sound := fun h hr => by
  obtain ⟨g, s', h', e, p⟩ := hrun h hr
  refine ⟨g, h', e, ⟨p.width, p.height, p.valid, fun x y hx hy => p.pix x y (by rw [← p.width]; exact hx) (by rw [← p.height]; exact hy)⟩, ?_, p.nextLe,
    fun b hb hne => ?_, fun o ho ow oh => ?_⟩
  · rcases p.buf with e | h
    · exact Or.inl ⟨output, by simp [hw], e⟩
    · exact Or.inr h
  · have h1 := hne output (by simp [hw])
    have h2 := hne storage (by simp [hw])
    exact ⟨p.alive b h1 h2 hb, fun i => p.frame b i h1 h2 hb⟩
  · rw [hw] at ho
    cases ho
    obtain ⟨e1, e2⟩ := p.inPlace ow oh
    exact ⟨e1, fun i hi => e2 i (fun x y hx hy => hi x y (by rw [ow]; exact hx) (by rw [oh]; exact hy))⟩

/-- `Gray::copy` -/
theorem C98_copy (z : V) {src dst : Gray} {f : Nat → Nat → V} (hc : dst.CanBe src.width src.height) (hs : src.Sep dst src.width src.height) :
    (Job.mk (dst.copy z src) [(src, f)] [dst] src.width src.height f).Sound :=
  Produced.sound rfl (fun h hr => by
    obtain ⟨v, s⟩ := hr.1 _ (List.mem_singleton.2 rfl)
    obtain ⟨g, h', e, p, -⟩ := C05_copy z (hr.2 _ (List.mem_singleton.2 rfl)) v hc hs s
    exact ⟨g, h', e, p⟩)

/-- `threshold`, also in place -/
theorem C98_threshold (le gt : V → V → Bool) (bit : Bool → V) (z thr : V) (down : Bool) {input output : Gray} {f : Nat → Nat → V}
    (hc : output.CanBe input.width input.height) (hs : input.SepOrSame output input.width input.height) :
    (Job.mk (ThresholdOps.threshold le gt bit z input thr down output) [(input, f)] [output] input.width input.height
      (fun x y => bit (if down then le (f x y) thr else gt (f x y) thr))).Sound :=
  Produced.sound rfl (fun h hr => by
    obtain ⟨v, s⟩ := hr.1 _ (List.mem_singleton.2 rfl)
    obtain ⟨g, h', e, p, -⟩ := C33_threshold le gt bit z thr down v (hr.2 _ (List.mem_singleton.2 rfl)) s hc hs
    exact ⟨g, h', e, p⟩)

/-- `logicAnd`, also in place -/
theorem C98_and {a b output : Gray} {fa fb : Nat → Nat → Int} (hw : a.width = b.width) (hh : a.height = b.height)
    (hc : output.CanBe a.width a.height) (sa : a.SepOrSame output a.width a.height) (sb : b.SepOrSame output a.width a.height) :
    (Job.mk (BinaryImageOps.logicAnd a b output) [(a, fa), (b, fb)] [output] a.width a.height
      (fun x y => if fa x y ≠ 0 ∧ fb x y ≠ 0 then 1 else 0)).Sound :=
  Produced.sound rfl (fun h hr => by
    obtain ⟨v, s⟩ := hr.1 (a, fa) (by simp)
    obtain ⟨v', s'⟩ := hr.1 (b, fb) (by simp)
    obtain ⟨g, h', e, p, -⟩ := C30_and v v' (hr.2 output (by simp)) hw hh s s' hc sa sb
    exact ⟨g, h', e, p⟩)

/-- `logicOr`, also in place -/
theorem C98_or {a b output : Gray} {fa fb : Nat → Nat → Int} (hw : a.width = b.width) (hh : a.height = b.height)
    (hc : output.CanBe a.width a.height) (sa : a.SepOrSame output a.width a.height) (sb : b.SepOrSame output a.width a.height) :
    (Job.mk (BinaryImageOps.logicOr a b output) [(a, fa), (b, fb)] [output] a.width a.height
      (fun x y => if fa x y ≠ 0 ∨ fb x y ≠ 0 then 1 else 0)).Sound :=
  Produced.sound rfl (fun h hr => by
    obtain ⟨v, s⟩ := hr.1 (a, fa) (by simp)
    obtain ⟨v', s'⟩ := hr.1 (b, fb) (by simp)
    obtain ⟨g, h', e, p, -⟩ := C30_or v v' (hr.2 output (by simp)) hw hh s s' hc sa sb
    exact ⟨g, h', e, p⟩)

/-- `ConvolveImage::convolve`, and `horizontal` and `vertical` -/
theorem C98_convolve {S : Type} (z : V) (A : Arith V S) {k : Kernel S} {kw o : Nat} (b : Border V) {input output : Gray} {f F : Nat → Nat → V}
    (hc : output.CanBe input.width input.height) (hs : input.Sep output input.width input.height)
    (hok : o < kw) (hkw : kw < 65536) (hw : input.width + kw ≤ 2147483648) (hh : input.height + kw ≤ 2147483648)
    (hrx : b.Reach input.width o (kw - 1 - o)) (hry : b.Reach input.height o (kw - 1 - o)) :
    (∀ c, k.Is2D kw o c → (∀ x y, x < input.width → y < input.height →
        (boxAt A kw o c (b.ext input.width input.height f) x y).bind A.out = some (F x y)) →
      (Job.mk (ConvolveImage.convolve z A k b input output) [(input, f)] [output] input.width input.height F).Sound) ∧
    (∀ c, k.Is1D kw o c → (∀ x y, x < input.width → y < input.height →
        (rowAt A kw o c (b.ext input.width input.height f) x y).bind A.out = some (F x y)) →
      (Job.mk (ConvolveImage.horizontal z A k b input output) [(input, f)] [output] input.width input.height F).Sound) ∧
    (∀ c, k.Is1D kw o c → (∀ x y, x < input.width → y < input.height →
        (colAt A kw o c (b.ext input.width input.height f) x y).bind A.out = some (F x y)) →
      (Job.mk (ConvolveImage.vertical z A k b input output) [(input, f)] [output] input.width input.height F).Sound) := by
  refine ⟨fun c hk hF => Produced.sound rfl (fun h hr => ?_), fun c hk hF => Produced.sound rfl (fun h hr => ?_),
    fun c hk hF => Produced.sound rfl (fun h hr => ?_)⟩ <;> obtain ⟨v, s⟩ := hr.1 _ (List.mem_singleton.2 rfl)
  · obtain ⟨g, h', e, p, -⟩ := C49_convolve_partial z A b v (hr.2 _ (List.mem_singleton.2 rfl)) s hc hs hk hok hkw hw hh hrx hry hF
    exact ⟨g, h', e, p⟩
  · obtain ⟨g, h', e, p, -⟩ := C47_horizontal_partial z A b v (hr.2 _ (List.mem_singleton.2 rfl)) s hc hs hk hok hw (show input.height < 2147483648 by omega) hrx hF
    exact ⟨g, h', e, p⟩
  · obtain ⟨g, h', e, p, -⟩ := C48_vertical_partial z A b v (hr.2 _ (List.mem_singleton.2 rfl)) s hc hs hk hok hh (show input.width < 2147483648 by omega) hry hF
    exact ⟨g, h', e, p⟩

/-- What does not depend on memory in `BlurCall`. -/
structure BlurShapes (input output storage : Gray) (n : Nat) : Prop where
  outputShape : output.CanBe input.width input.height
  storageShape : storage.CanBe input.width input.height
  outputApart : input.Sep output input.width input.height
  storageApart : input.Sep storage input.width input.height
  apart : storage.buf ≠ output.buf
  widthBound : input.width + n ≤ 2147483648
  heightBound : input.height + n ≤ 2147483648
  lengthBound : input.dataLength < 2147483648
  storageBound : storage.dataLength < 2147483648

/-- `BlurImageOps::mean`, integral pixels -/
theorem C98_mean {t : IntTy} (ht : t ∈ [U8, U16, S16, S32, S64]) (junk : Nat → Int) {input output storage : Gray} {f : Nat → Nat → Int}
    {r : Nat} {P : Int} (hb : BlurShapes input output storage (2 * r + 1)) (hr : 0 < r)
    (hshape : 2 * r + 1 ≤ input.height ∨ input.width < 2 * r + 1) (hP : FitsSums t input.width input.height f (2 * r + 1) P) :
    (Job.mk (do let p ← BlurImageOps.meanInt t (intElem t junk) input output r storage; pure p.1) [(input, f)] [output, storage]
      input.width input.height (meanImage t r input.width input.height f)).Sound :=
  Produced2.sound (storage := storage) rfl (fun h hrd => by
    obtain ⟨v, s⟩ := hrd.1 _ (List.mem_singleton.2 rfl)
    obtain ⟨g, s', h', e, p, -⟩ := C54_mean_partial ht junk v (hrd.2 output (by simp)) (hrd.2 storage (by simp)) s hb.outputShape hb.storageShape
      hb.outputApart hb.storageApart hb.apart hr hb.widthBound hb.heightBound hb.lengthBound hb.storageBound hshape hP.nonneg hP.bound hP.pixels hP.sums
    exact ⟨g, s', h', (M.bind_ok e).trans rfl, p⟩)

section
variable {K : Type} [Field K] [LinearOrder K] [IsStrictOrderedRing K] [FloorRing K]

/-- `BlurImageOps::mean`, floating point pixels, exact arithmetic -/
theorem C98_mean_float (E : GrowArray.Elem K) (hz : E.ms E.zero = E.zero) {input output storage : Gray} {f : Nat → Nat → K}
    {r : Nat} (hb : BlurShapes input output storage (2 * r + 1)) (hr : 0 < r) (hshape : 2 * r + 1 ≤ input.height ∨ input.width < 2 * r + 1) :
    (Job.mk (do let p ← BlurImageOps.meanFloat E input output r storage; pure p.1) [(input, f)] [output, storage]
      input.width input.height (meanImageK r input.width input.height f)).Sound :=
  Produced2.sound (storage := storage) rfl (fun h hrd => by
    obtain ⟨v, s⟩ := hrd.1 _ (List.mem_singleton.2 rfl)
    obtain ⟨g, s', h', e, p, -⟩ := C54_mean_float_partial E hz v (hrd.2 output (by simp)) (hrd.2 storage (by simp)) s hb.outputShape hb.storageShape
      hb.outputApart hb.storageApart hb.apart hr hb.widthBound hb.heightBound hb.lengthBound hb.storageBound hshape
    exact ⟨g, s', h', (M.bind_ok e).trans rfl, p⟩)
end

/-- Three calls: a threshold in place, a threshold into another image which is too small, and a copy. -/
example : let a : Gray := ⟨0, 4, 2, 2, 0, 2, false⟩
    let b : Gray := ⟨1, 4, 2, 2, 0, 2, false⟩
    let u : Gray := ⟨2, 1, 1, 1, 0, 1, false⟩
    let v : Gray := ⟨3, 0, 0, 0, 0, 0, false⟩
    let fa : Nat → Nat → Int := fun x y => 10 * (x + 2 * y : Nat)
    let fb : Nat → Nat → Int := fun x _ => x
    let T := fun (i : Gray) (t : Int) (o : Gray) => ThresholdOps.threshold (fun a b => decide (a ≤ b)) (fun a b => decide (b < a)) b2i 0 i t true o
    let l : List (Job Int) := [⟨T a 15 a, [(a, fa)], [a], 2, 2, fun x y => b2i (if true then decide (fa x y ≤ 15) else decide (15 < fa x y))⟩,
      ⟨T b 0 u, [(b, fb)], [u], 2, 2, fun x y => b2i (if true then decide (fb x y ≤ 0) else decide (0 < fb x y))⟩,
      ⟨v.copy 0 b, [(b, fb)], [v], 2, 2, fb⟩]
    let h : Heap Int := ⟨[some [0, 10, 20, 30], some [0, 1, 0, 1], some [7], some []]⟩
    l.Pairwise Job.Apart ∧ (∀ j, j ∈ l → j.Sound) ∧ (∀ j, j ∈ l → j.Ready h) ∧
    (match runAll l h with | .ok gs h' => gs.map (fun g => h'.get g.buf) | _ => []) = [some [1, 1, 0, 0], some [1, 0, 1, 0], some [0, 1, 0, 1]] ∧
    (match runAll l.reverse h with | .ok gs h' => gs.map (fun g => h'.get g.buf) | _ => []) =
      [some [0, 1, 0, 1], some [1, 0, 1, 0], some [1, 1, 0, 0]] := by
  intro a b u v fa fb T l h
  have ha : a.Shows h fa := fun x y hx hy => by
    have : ∀ x : Nat, x < 2 → ∀ y : Nat, y < 2 → h.px a x y = some (fa x y) := by decide
    exact this x hx y hy
  have hb : b.Shows h fb := fun x y hx hy => by
    have : ∀ x : Nat, x < 2 → ∀ y : Nat, y < 2 → h.px b x y = some (fb x y) := by decide
    exact this x hx y hy
  have va : a.Valid h := by decide
  have vb : b.Valid h := by decide
  have vu : u.Valid h := by decide
  have vv : v.Valid h := by decide
  refine ⟨?_, ?_, ?_, by decide +kernel, by decide +kernel⟩
  · simp [l, Job.Apart, a, b, u, v]
  · intro j hj
    simp only [l, List.mem_cons, List.not_mem_nil, or_false] at hj
    rcases hj with rfl | rfl | rfl
    · exact C98_threshold _ _ _ _ _ _ (Or.inl rfl) (Or.inl rfl)
    · exact C98_threshold _ _ _ _ _ _ (Or.inl rfl) (Or.inr (Or.inl (by decide)))
    · exact C98_copy _ (Or.inl rfl) (Or.inl (by decide))
  · intro j hj
    simp only [l, List.mem_cons, List.not_mem_nil, or_false] at hj
    rcases hj with rfl | rfl | rfl <;>
      exact ⟨fun p hp => by rw [List.mem_singleton.1 hp]; constructor <;> assumption, fun g hg => by rw [List.mem_singleton.1 hg]; assumption⟩

/-- Images which `C98_mean` allows: both results have yet to be made larger. -/
example : let a : Gray := ⟨0, 12, 4, 3, 0, 4, false⟩
    let o : Gray := ⟨1, 4, 2, 2, 0, 2, false⟩
    let s : Gray := ⟨2, 0, 0, 0, 0, 0, false⟩
    let f : Nat → Nat → Int := fun x y => 40 * x + 3 * y
    BlurShapes a o s 3 ∧ 2 * 1 + 1 ≤ a.height ∧ FitsSums U8 a.width a.height f (2 * 1 + 1) 255 := by
  intro a o s f
  refine ⟨⟨Or.inl rfl, Or.inl rfl, Or.inl (by decide), Or.inl (by decide), by decide, by decide, by decide, by decide, by decide⟩, by decide, ?_⟩
  refine ⟨by decide, by decide, fun x y hx hy => ?_, by decide⟩
  have : ∀ x : Nat, x < 4 → ∀ y : Nat, y < 3 → U8.InRange (f x y) ∧ |f x y| ≤ 255 := by decide
  exact this x hx y hy

end Boof
