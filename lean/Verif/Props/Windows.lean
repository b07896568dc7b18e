import Verif.Props.MiscOps
import Verif.Props.Statistics
import Verif.Proofs.Blocks
/-
What C23, C24 and C26 are for windows of larger images: the loops over the array start at its first cell whatever the window is.
-/
namespace Boof
open M
variable {V : Type}

/-- A loop over the first `width * height` cells of the array. -/
theorem linear_cells {h : Heap V} {g : Gray} (hv : g.Valid h) (d : Nat → V) :
    Spec (loop g.totalPixels (fun i => wr g.buf i (d i))) h
      (fun _ h' => CellsSet h h' g.buf 0 (g.width * g.height) d) := by
  have ht : g.totalPixels = g.width * g.height := wrap32_of_lt hv.area_lt
  rw [ht]
  refine Spec.loop (fun i h' => CellsSet h h' g.buf 0 i d) (CellsSet.refl _ _ _ _) ?_
  intro i h1 hi hs
  refine hs.wr (Nat.zero_le _) ?_ rfl
  rw [hs.frame _ _ (by omega)]
  exact hv.cells i (by have := hv.area_le; omega)

/-- **C23, every image.** `fill` sets exactly the first `width * height * bands` cells of the array, whether or not they are the cells of
the image. -/
theorem C23_fill_interleaved_cells {h : Heap V} {g : Interleaved} (hv : g.Valid h) (v : V) :
    ∃ h', ImageMiscOps.fill3 g v h = .ok () h' ∧
      ∀ b i, h'.cell b i = if b = g.buf ∧ i < g.width * g.height * g.numBands then some v else h.cell b i := by
  have hl : wrap32 (wrap32 (g.width * g.height) * g.numBands) = g.flat.totalPixels := by
    show _ = wrap32 (g.width * g.numBands * g.height)
    unfold wrap32
    rw [Nat.mod_mul_mod, Nat.mul_right_comm]
  obtain ⟨_, h', e, p⟩ := linear_cells hv.flat (fun _ => v)
  refine ⟨h', ?_, fun b i => ?_⟩
  · unfold ImageMiscOps.fill3
    rw [hl]; exact e
  · have ha : g.flat.width * g.flat.height = g.width * g.height * g.numBands := Nat.mul_right_comm _ _ _
    rw [ha] at p
    split
    · next hc => obtain ⟨rfl, hi⟩ := hc; exact p.cells i (Nat.zero_le _) hi
    · next hc => exact p.frame b i (fun ⟨h1, _, h3⟩ => hc ⟨h1, h3⟩)

/-- The image begins at the first cell of its array and has no gaps between its rows. -/
def Gray.Linear (g : Gray) : Prop := g.offset = 0 ∧ (g.height = 1 ∨ g.stride = g.width)

theorem Gray.Linear.addr {g : Gray} (hl : g.Linear) {x y : Nat} (hy : y < g.height) : g.addr x y = y * g.width + x := by
  unfold Gray.addr
  rcases hl with ⟨h0, h1 | h1⟩
  · have : y = 0 := by omega
    subst this
    rw [h0]; omega
  · rw [h0, h1]; omega

/-- The last pixel lies among the first `width * height` cells only if the image is linear. -/
theorem Gray.Valid.linear_of_last {h : Heap V} {g : Gray} (hv : g.Valid h) (h0 : 0 < g.width) (h1 : 0 < g.height)
    (hl : g.addr (g.width - 1) (g.height - 1) < g.width * g.height) : g.Linear := by
  unfold Gray.addr at hl
  have h3 : g.width * g.height = g.width * (g.height - 1) + g.width := by
    conv_lhs => rw [show g.height = (g.height - 1) + 1 by omega, Nat.mul_succ]
  have h2 : g.width * (g.height - 1) ≤ (g.height - 1) * g.stride := by
    rw [Nat.mul_comm]; exact Nat.mul_le_mul_left _ hv.rowLe
  have he : (g.height - 1) * g.stride = (g.height - 1) * g.width := by rw [Nat.mul_comm _ g.width]; omega
  refine ⟨by omega, ?_⟩
  by_cases hh : g.height = 1
  · exact Or.inl hh
  · exact Or.inr (Nat.eq_of_mul_eq_mul_left (by omega) he)

theorem CellsSet.painted {h h' : Heap V} {g : Gray} {d : Nat → V} (hs : CellsSet h h' g.buf 0 (g.width * g.height) d)
    (hl : g.Linear) : Painted h h' g (fun x y => some (d (y * g.width + x))) := by
  have hin : ∀ x y, x < g.width → y < g.height → y * g.width + x < g.width * g.height := by
    intro x y hx hy
    have := Nat.mul_le_mul_right g.width (Nat.succ_le_of_lt hy)
    rw [Nat.succ_mul] at this
    rw [Nat.mul_comm g.width]; omega
  refine ⟨?_, ?_, hs.alive, hs.next⟩
  · intro x y hx hy
    unfold Heap.px
    rw [hl.addr hy, hs.cells _ (Nat.zero_le _) (hin x y hx hy)]
    rfl
  · intro b i hn
    refine hs.frame b i ?_
    rintro ⟨rfl, _, hi⟩
    have hw : 0 < g.width := by
      rcases Nat.eq_zero_or_pos g.width with e | e
      · rw [e] at hi; omega
      · exact e
    have hy : i / g.width < g.height := by
      rw [Nat.div_lt_iff_lt_mul hw, Nat.mul_comm]; exact hi
    refine hn (i % g.width) (i / g.width) (Nat.mod_lt _ hw) hy ⟨rfl, ?_⟩
    rw [hl.addr hy]
    have := Nat.div_add_mod i g.width
    rw [Nat.mul_comm] at this
    exact this.symm

/-- **C23, exactly.** Where no cell of the array has the value yet, `fill` is right for exactly the images which begin at the first cell and
have no gaps between rows. -/
theorem C23_fill_interleaved_iff {h : Heap V} {g : Interleaved} (hv : g.Valid h) (v : V) (h0 : 0 < g.width) (h1 : 0 < g.height)
    (h2 : 0 < g.numBands) (hne : ∀ i, h.cell g.buf i ≠ some v) :
    (∃ h', ImageMiscOps.fill3 g v h = .ok () h' ∧ Painted3 h h' g (fun _ _ _ => some v)) ↔
      g.offset = 0 ∧ (g.height = 1 ∨ g.stride = g.width * g.numBands) := by
  have hpos : 0 < g.width * g.numBands := Nat.mul_pos h0 h2
  constructor
  · obtain ⟨h', e, hc⟩ := C23_fill_interleaved_cells hv v
    rintro ⟨h'', e', p⟩
    rw [e] at e'; cases e'
    have := p.pix (g.width - 1) (g.height - 1) (g.numBands - 1) (by omega) (by omega) (by omega)
    unfold Heap.px3 at this
    rw [hc] at this
    split at this
    · next hh =>
      refine hv.flat.linear_of_last hpos h1 ?_
      have ha : g.flat.width * g.flat.height = g.width * g.height * g.numBands := Nat.mul_right_comm _ _ _
      rw [ha]
      refine Nat.lt_of_le_of_lt (Nat.le_of_eq ?_) hh.2
      show g.offset + (g.height - 1) * g.stride + (g.width * g.numBands - 1) = _
      unfold Interleaved.addr
      have : g.width * g.numBands = (g.width - 1) * g.numBands + g.numBands := by
        conv_lhs => rw [show g.width = (g.width - 1) + 1 by omega, Nat.succ_mul]
      omega
    · exact absurd this (hne _)
  · intro hl
    have hl' : g.flat.Linear := hl
    have he : wrap32 (wrap32 (g.width * g.height) * g.numBands) = g.flat.totalPixels := by
      show _ = wrap32 (g.width * g.numBands * g.height)
      unfold wrap32
      rw [Nat.mod_mul_mod, Nat.mul_right_comm]
    obtain ⟨_, h', e, p⟩ := linear_cells hv.flat (fun _ => v)
    refine ⟨h', ?_, (p.painted hl').to3⟩
    unfold ImageMiscOps.fill3
    rw [he]; exact e

/-- **C24, every image.** `fill_uniform` puts the draws, in order, into the first `width * height` cells of the array. -/
theorem C24_fill_uniform_cells {h : Heap V} {g : Gray} (hv : g.Valid h) (draw : Nat → V) :
    ∃ h', ImageMiscOps.fillUniform g draw h = .ok () h' ∧
      ∀ b i, h'.cell b i = if b = g.buf ∧ i < g.width * g.height then some (draw i) else h.cell b i := by
  obtain ⟨_, h', e, p⟩ := linear_cells hv draw
  refine ⟨h', e, fun b i => ?_⟩
  split
  · next hc => obtain ⟨rfl, hi⟩ := hc; exact p.cells i (Nat.zero_le _) hi
  · next hc => exact p.frame b i (fun ⟨h1, _, h3⟩ => hc ⟨h1, h3⟩)

/-- **C24, exactly.** Where no cell of the array holds a value which can be drawn, `fill_uniform` draws each pixel and changes nothing else for
exactly the images which begin at the first cell and have no gaps between rows. -/
theorem C24_fill_uniform_iff {h : Heap V} {g : Gray} (hv : g.Valid h) (draw : Nat → V) (h0 : 0 < g.width) (h1 : 0 < g.height)
    (hne : ∀ i j, h.cell g.buf i ≠ some (draw j)) :
    (∃ h', ImageMiscOps.fillUniform g draw h = .ok () h' ∧ ∃ n : Nat → Nat → Nat, Painted h h' g (fun x y => some (draw (n x y)))) ↔
      g.Linear := by
  constructor
  · obtain ⟨h', e, hc⟩ := C24_fill_uniform_cells hv draw
    rintro ⟨h'', e', n, p⟩
    rw [e] at e'; cases e'
    have := p.pix (g.width - 1) (g.height - 1) (by omega) (by omega)
    unfold Heap.px at this
    rw [hc] at this
    split at this
    · next hh => exact hv.linear_of_last h0 h1 hh.2
    · exact absurd this (hne _ _)
  · intro hl
    obtain ⟨_, h', e, p⟩ := linear_cells hv draw
    exact ⟨h', e, fun x y => y * g.width + x, p.painted hl⟩

/-- `m` is the smallest of `top` and the first `n` cells of array `b`. -/
def Heap.SmallestOf (h : Heap V) (lt : V → V → Bool) (top : V) (b n : Nat) (m : V) : Prop :=
  (m = top ∨ ∃ i, i < n ∧ h.cell b i = some m) ∧ lt top m = false ∧ ∀ i v, i < n → h.cell b i = some v → lt v m = false

theorem min_cells {lt : V → V → Bool} (hl : StrictTotal lt) (top : V) {h : Heap V} {g : Gray} (hv : g.Valid h) :
    ∃ m, ImageStatistics.min lt top g h = .ok m h ∧ h.SmallestOf lt top g.buf (g.width * g.height) m := by
  have ht : g.totalPixels = g.width * g.height := wrap32_of_lt hv.area_lt
  have key : Spec (ImageStatistics.min lt top g) h (fun m h' => h' = h ∧ h.SmallestOf lt top g.buf (g.width * g.height) m) := by
    unfold ImageStatistics.min
    rw [ht]
    refine Spec.loopS (fun i m h' => h' = h ∧ h.SmallestOf lt top g.buf i m)
      ⟨rfl, Or.inl rfl, hl.irrefl _, fun i v hi => by omega⟩ ?_
    rintro i m h' hi ⟨rfl, hm, htop, hall⟩
    obtain ⟨v, hc⟩ := hv.cells i (by have := hv.area_le; omega)
    refine Spec.bind_eq (M.rd_run hc) (Spec.pure ⟨rfl, ?_⟩)
    have hweak : ∀ a, lt a m = false → lt v m = true → lt a v = false := by
      intro a ha hvm
      cases hav : lt a v with
      | false => rfl
      | true => rw [hl.trans _ _ _ hav hvm] at ha; cases ha
    by_cases hlt : lt v m = true
    · rw [if_pos hlt]
      refine ⟨Or.inr ⟨i, by omega, hc⟩, hweak _ htop hlt, fun k w hk hw => ?_⟩
      rcases Nat.lt_or_ge k i with hki | hki
      · exact hweak _ (hall k w hki hw) hlt
      · have : k = i := by omega
        subst this
        rw [hc] at hw; cases hw
        exact hl.irrefl _
    · rw [if_neg hlt]
      refine ⟨?_, htop, fun k w hk hw => ?_⟩
      · rcases hm with h1 | ⟨k, hk, hw⟩
        · exact Or.inl h1
        · exact Or.inr ⟨k, by omega, hw⟩
      · rcases Nat.lt_or_ge k i with hki | hki
        · exact hall k w hki hw
        · have : k = i := by omega
          subst this
          rw [hc] at hw; cases hw
          simpa using hlt
  obtain ⟨m, h', e, rfl, hm⟩ := key
  exact ⟨m, e, hm⟩

/-- **C26, every image.** `min` is the smallest of the largest number of the type and the first `width * height` cells of the array, also for
windows and for images without pixels. -/
theorem C26_min_cells {lt : V → V → Bool} (hl : StrictTotal lt) (top : V) {h : Heap V} {g : Gray} (hv : g.Valid h) :
    ∃ m, ImageStatistics.min lt top g h = .ok m h ∧ h.SmallestOf lt top g.buf (g.width * g.height) m := min_cells hl top hv

/-- **C26, every image.** `max` is the largest of `numeric_limits<T>::min()` and the first `width * height` cells of the array. -/
theorem C26_max_cells {lt : V → V → Bool} (hl : StrictTotal lt) (bot : V) {h : Heap V} {g : Gray} (hv : g.Valid h) :
    ∃ m, ImageStatistics.max lt bot g h = .ok m h ∧ h.SmallestOf (fun a b => lt b a) bot g.buf (g.width * g.height) m :=
  min_cells (lt := fun a b => lt b a) hl.flip bot hv

/-- **C26.** Windows which begin at the first cell and have no gaps are handled like images which own their array. -/
theorem C26_min_linear {lt : V → V → Bool} (hl : StrictTotal lt) {top : V} {h : Heap V} {g : Gray} (hv : g.Valid h)
    (hlin : g.Linear) (h0 : 0 < g.width) (h1 : 0 < g.height) {f : Nat → Nat → V} (hf : g.Shows h f)
    (htop : ∀ x y, x < g.width → y < g.height → lt top (f x y) = false) :
    ∃ m, ImageStatistics.min lt top g h = .ok m h ∧ (∃ x y, x < g.width ∧ y < g.height ∧ m = f x y) ∧
      (∀ x y, x < g.width → y < g.height → lt (f x y) m = false) := by
  obtain ⟨m, e, hm, ht, hall⟩ := min_cells hl top hv
  have hin : ∀ x y, x < g.width → y < g.height → h.cell g.buf (y * g.width + x) = some (f x y) ∧ y * g.width + x < g.width * g.height := by
    intro x y hx hy
    have := Nat.mul_le_mul_right g.width (Nat.succ_le_of_lt hy)
    rw [Nat.succ_mul] at this
    refine ⟨?_, by rw [Nat.mul_comm g.width]; omega⟩
    rw [← hlin.addr hy]; exact hf x y hx hy
  have hb : ∀ x y, x < g.width → y < g.height → lt (f x y) m = false :=
    fun x y hx hy => hall _ _ (hin x y hx hy).2 (hin x y hx hy).1
  refine ⟨m, e, ?_, hb⟩
  rcases hm with rfl | ⟨i, hi, hc⟩
  · refine ⟨0, 0, h0, h1, ?_⟩
    rcases hl.total m (f 0 0) with h | h | h
    · rw [htop 0 0 h0 h1] at h; cases h
    · exact h
    · rw [hb 0 0 h0 h1] at h; cases h
  · have hy : i / g.width < g.height := by
      rw [Nat.div_lt_iff_lt_mul h0, Nat.mul_comm]; exact hi
    have hx := Nat.mod_lt i h0
    refine ⟨i % g.width, i / g.width, hx, hy, ?_⟩
    have h2 := (hin _ _ hx hy).1
    have := Nat.div_add_mod i g.width
    rw [Nat.mul_comm] at this
    rw [this, hc] at h2
    exact Option.some.inj h2

/-! Windows of a 3x2 picture: one which is linear (its first row), one which is not. -/

example : (Gray.wrap 0 6 3 1 0 3).Valid (⟨[some [1,2,3,4,5,6]]⟩ : Heap Int) ∧ (Gray.wrap 0 6 3 1 0 3).Linear :=
  ⟨by decide, rfl, Or.inl rfl⟩

example : (Gray.wrap 0 6 2 2 1 3).Valid (⟨[some [1,2,3,4,5,6]]⟩ : Heap Int) ∧ ¬(Gray.wrap 0 6 2 2 1 3).Linear :=
  ⟨by decide, fun h => by cases h.1⟩

/-- The window of the second and third column: `min` looks at 1, 2, 3, 4 instead of 2, 3, 5, 6. -/
example : ∃ m, ImageStatistics.min (fun a b => decide (a < b)) U8.hi (Gray.wrap 0 6 2 2 1 3) (⟨[some [1,2,3,4,5,6]]⟩ : Heap Int) =
    .ok m ⟨[some [1,2,3,4,5,6]]⟩ ∧
    Heap.SmallestOf (⟨[some [1,2,3,4,5,6]]⟩ : Heap Int) (fun a b => decide (a < b)) U8.hi 0 4 m ∧ m = 1 := by
  obtain ⟨m, e, hm⟩ := C26_min_cells StrictTotal.int U8.hi (g := Gray.wrap 0 6 2 2 1 3) (h := ⟨[some [1,2,3,4,5,6]]⟩) (by decide)
  refine ⟨m, e, hm, ?_⟩
  have e2 : ImageStatistics.min (fun a b => decide (a < b)) U8.hi (Gray.wrap 0 6 2 2 1 3) (⟨[some [1,2,3,4,5,6]]⟩ : Heap Int) =
    .ok 1 ⟨[some [1,2,3,4,5,6]]⟩ := rfl
  rw [e] at e2
  cases e2; rfl

example : ∃ h', ImageMiscOps.fill3 (Interleaved.wrap 0 4 1 1 2 2 4) 9 (⟨[some [0,0,0,0]]⟩ : Heap Int) = .ok () h' ∧
    ∀ b i, h'.cell b i = if b = 0 ∧ i < 2 then some 9 else Heap.cell (⟨[some [0,0,0,0]]⟩ : Heap Int) b i :=
  C23_fill_interleaved_cells (by decide) 9

/-- The hypotheses of `C23_fill_interleaved_iff` and `C24_fill_uniform_iff`: no cell is 9. -/
example : ∀ i, Heap.cell (⟨[some [0,0,0,0]]⟩ : Heap Int) 0 i ≠ some 9 := by
  intro i
  match i with
  | 0 => decide
  | 1 => decide
  | 2 => decide
  | 3 => decide
  | n + 4 => intro h; cases h

end Boof
