import Verif.Model.ImageOps
import Verif.Proofs.Paint
import Verif.Proofs.Interleaved
/-
C21-C24: filling images.
-/
namespace Boof
variable {V : Type}

/-! ## C21 fill -/

/-- `fill` sets every pixel and changes no other cell, for images and sub-images alike. -/
theorem C21_fill {h : Heap V} {g : Gray} (hv : g.Valid h) (v : V) :
    ∃ h', ImageMiscOps.fill g v h = .ok () h' ∧ Painted h h' g (fun _ _ => some v) := by
  suffices Spec (ImageMiscOps.fill g v) h (fun _ h' => Painted h h' g (fun _ _ => some v)) by
    obtain ⟨_, h', e, p⟩ := this; exact ⟨h', e, p⟩
  unfold ImageMiscOps.fill
  by_cases hs : g.subimage = true
  · rw [if_pos hs]
    refine paint_loop2 (fun _ _ => v) ?_
    intro y x h1 hy hx hp
    exact upto_wr hv hp hx hy (by rw [hv.row_eq hy]; unfold Gray.addr; omega) rfl
  · rw [if_neg hs]
    exact paint_linear hv (by simpa using hs) (fun _ => v)

/-- In particular no pixel of the parent image outside the window changes. -/
theorem C21_parent {h : Heap V} {g : Gray} (hv : g.Valid h) {x0 y0 x1 y1 : Nat} {s : Gray} {h1 : Heap V}
    (hsub : g.makeSubimage x0 y0 x1 y1 h = .ok s h1) (v : V) :
    ∃ h', ImageMiscOps.fill s v h1 = .ok () h' ∧
      Painted h h' g (fun x y => if (x0 ≤ x ∧ x < x1) ∧ (y0 ≤ y ∧ y < y1) then some v else none) := by
  unfold Gray.makeSubimage at hsub
  split at hsub
  · cases hsub
  rename_i hb
  cases hsub
  have hx1 : x1 ≤ g.width := by omega
  have hy1 : y1 ≤ g.height := by omega
  obtain ⟨h', e, p⟩ := C21_fill (sub_valid hv (by omega : x0 ≤ x1) (by omega : y0 ≤ y1) hx1 hy1) v
  refine ⟨h', e, ?_, ?_, p.alive, p.next⟩
  · intro x y hx hy
    by_cases hin : (x0 ≤ x ∧ x < x1) ∧ (y0 ≤ y ∧ y < y1)
    · rw [if_pos hin]
      have := p.pix (x - x0) (y - y0) (by show x - x0 < x1 - x0; omega) (by show y - y0 < y1 - y0; omega)
      unfold Heap.px at this
      rw [sub_addr hv hy1 hx1 (by omega) (by omega)] at this
      have ex : x0 + (x - x0) = x := by omega
      have ey : y0 + (y - y0) = y := by omega
      rw [ex, ey] at this
      exact this
    · rw [if_neg hin]
      refine p.frame _ _ ?_
      intro x' y' hx' hy' ⟨_, e2⟩
      have hx'' : x' < x1 - x0 := hx'
      have hy'' : y' < y1 - y0 := hy'
      rw [sub_addr hv hy1 hx1 hx'' hy''] at e2
      have := hv.addr_inj hx (by omega) e2
      omega
  · intro b i hb
    refine p.frame _ _ ?_
    intro x' y' hx' hy' ⟨e1, e2⟩
    have hx'' : x' < x1 - x0 := hx'
    have hy'' : y' < y1 - y0 := hy'
    rw [sub_addr hv hy1 hx1 hx'' hy''] at e2
    exact hb _ _ (by omega) (by omega) ⟨e1, e2⟩

/-- Hypotheses are met by a 2x2 window of a 4x3 image. -/
example : ∃ s, (Gray.mk 0 12 4 3 0 4 false).makeSubimage 1 1 3 3 ⟨[some (List.replicate 12 (7:Int))]⟩
    = .ok s ⟨[some (List.replicate 12 (7:Int))]⟩ ∧ s.width = 2 := ⟨_, rfl, rfl⟩
example : (Gray.mk 0 12 4 3 0 4 false).Valid (⟨[some (List.replicate 12 (7:Int))]⟩ : Heap Int) := by decide

/-! ## C22 fill_border -/

/-- Pixels at distance less than `r` from an edge of a `w × ht` image. -/
def NearEdge (w ht r x y : Nat) : Prop := x < r ∨ y < r ∨ w - r ≤ x ∨ ht - r ≤ y

instance (w ht r x y : Nat) : Decidable (NearEdge w ht r x y) := inferInstanceAs (Decidable (_ ∨ _ ∨ _ ∨ _))

/-- `fill_border` sets exactly the pixels near an edge, whatever the radius. -/
theorem C22_fill_border {h : Heap V} {g : Gray} (hv : g.Valid h) (v : V) (r : Nat) :
    ∃ h', ImageMiscOps.fillBorder g v r h = .ok () h' ∧
      Painted h h' g (fun x y => if NearEdge g.width g.height r x y then some v else none) := by
  unfold ImageMiscOps.fillBorder
  by_cases hbig : r ≥ g.width ∨ r ≥ g.height
  · rw [if_pos hbig]
    obtain ⟨h', e, p⟩ := C21_fill hv v
    refine ⟨h', e, p.congr ?_⟩
    intro x y hx hy
    rw [if_pos (by unfold NearEdge; omega)]
  rw [if_neg hbig]
  suffices Spec _ h (fun _ h' => Painted h h' g (sel (NearEdge g.width g.height r) (fun _ _ => v))) by
    obtain ⟨_, h', e, p⟩ := this
    refine ⟨h', e, p.congr ?_⟩
    intro x y _ _
    by_cases hn : NearEdge g.width g.height r x y
    · rw [sel_pos hn, if_pos hn]
    · rw [sel_neg hn, if_neg hn]
  refine Spec.bind (P := fun _ h1 => Painted h h1 g (sel (fun _ y => y < r ∨ g.height - r ≤ y) (fun _ _ => v))) ?_ ?_
  · refine Spec.conseq (Spec.loop
      (fun k h1 => Painted h h1 g (sel (fun _ y => y < k ∨ g.height - k ≤ y) (fun _ _ => v)))
      (Painted.sel_none (fun x y _ _ => by omega)) ?_) (fun _ _ p => p)
    intro k h1 hk hp
    refine Spec.conseq (Spec.loop
      (fun x0 h2 => Painted h h2 g (sel (fun x y => (y < k ∨ g.height - k ≤ y) ∨
        ((y = k ∨ y = g.height - k - 1) ∧ x < x0)) (fun _ _ => v))) ?_ ?_) ?_
    · exact hp.sel_iff (fun x y _ _ => by omega)
    · intro x0 h2 hx0 hp2
      have a1 := hv.addr_lt32 hx0 (show k < g.height by omega)
      have a2 := hv.addr_lt32 hx0 (show g.height - k - 1 < g.height by omega)
      unfold Gray.addr at a1 a2
      refine Spec.bind (P := fun _ h3 => Painted h h3 g (sel (fun x y => ((y < k ∨ g.height - k ≤ y) ∨
        ((y = k ∨ y = g.height - k - 1) ∧ x < x0)) ∨ (x = x0 ∧ y = k)) (fun _ _ => v))) ?_ ?_
      · exact hp2.sel_wr hv hx0 (show k < g.height by omega) (wrap32_of_lt a1) rfl (fun _ _ _ _ => Iff.rfl)
      · intro _ h3 hp3
        refine hp3.sel_wr hv hx0 (show g.height - k - 1 < g.height by omega) (wrap32_of_lt a2) rfl ?_
        intro x' y' _ _; omega
    · intro _ h2 hp2
      exact hp2.sel_iff (fun x y _ _ => by omega)
  · intro _ h1 hp
    refine Spec.conseq (Spec.loop
      (fun k h1 => Painted h h1 g (sel (fun x y => (y < r ∨ g.height - r ≤ y) ∨ x < k ∨ g.width - k ≤ x) (fun _ _ => v)))
      (hp.sel_iff (fun x y _ _ => by omega)) ?_) ?_
    · intro k h1 hk hp
      refine Spec.conseq (Spec.loop
        (fun j h2 => Painted h h2 g (sel (fun x y => ((y < r ∨ g.height - r ≤ y) ∨ x < k ∨ g.width - k ≤ x) ∨
          ((x = k ∨ x = g.width - k - 1) ∧ r ≤ y ∧ y < r + j)) (fun _ _ => v))) ?_ ?_) ?_
      · exact hp.sel_iff (fun x y _ _ => by omega)
      · intro j h2 hj hp2
        have hy : r + j < g.height := by omega
        have hmul : (r + j) * g.stride = r * g.stride + j * g.stride := Nat.add_mul _ _ _
        have a1 := hv.addr_lt32 (show k < g.width by omega) hy
        have a2 := hv.addr_lt32 (show g.width - 1 - k < g.width by omega) hy
        unfold Gray.addr at a1 a2
        refine Spec.bind (P := fun _ h3 => Painted h h3 g (sel (fun x y => (((y < r ∨ g.height - r ≤ y) ∨ x < k ∨
          g.width - k ≤ x) ∨ ((x = k ∨ x = g.width - k - 1) ∧ r ≤ y ∧ y < r + j)) ∨ (x = k ∧ y = r + j))
          (fun _ _ => v))) ?_ ?_
        · refine hp2.sel_wr hv (show k < g.width by omega) hy ?_ rfl (fun _ _ _ _ => Iff.rfl)
          rw [wrap32_of_lt (by omega)]; unfold Gray.addr; omega
        · intro _ h3 hp3
          refine hp3.sel_wr hv (show g.width - 1 - k < g.width by omega) hy ?_ rfl ?_
          · rw [wrap32_of_lt (by omega)]; unfold Gray.addr; omega
          · intro x' y' _ _; omega
      · intro _ h2 hp2
        exact hp2.sel_iff (fun x y _ _ => by omega)
    · intro _ h2 hp2
      exact hp2.sel_iff (fun x y _ _ => by unfold NearEdge; omega)

/-- A 5x5 image with radius 2 has exactly one pixel that is not near an edge. -/
example : ¬NearEdge 5 5 2 2 2 ∧ NearEdge 5 5 2 3 2 := by decide

/-! ## C23 fill of interleaved images -/

/-- Full statement C23: for every valid interleaved image, `fill` sets every band of every pixel and nothing else.
Proved for images that own their array; for windows it is false (`C23_fill_interleaved_refuted`). -/
theorem C23_fill_interleaved_partial {h : Heap V} {g : Interleaved} (hv : g.Valid h) (hs : g.subimage = false)
    (v : V) : ∃ h', ImageMiscOps.fill3 g v h = .ok () h' ∧ Painted3 h h' g (fun _ _ _ => some v) := by
  have ha := hv.flat.area_lt
  have hl : wrap32 (wrap32 (g.width * g.height) * g.numBands) = g.flat.totalPixels := by
    show _ = wrap32 (g.width * g.numBands * g.height)
    unfold wrap32
    rw [Nat.mod_mul_mod, Nat.mul_right_comm]
  obtain ⟨_, h', e, p⟩ := paint_linear hv.flat hs (fun _ => v)
  refine ⟨h', ?_, ?_⟩
  · unfold ImageMiscOps.fill3
    rw [hl]; exact e
  · exact p.to3

/-- On a window of a larger image `fill` writes cells of the parent that are not in the window, and leaves
cells of the window unwritten. -/
theorem C23_fill_interleaved_refuted :
    ∃ (h h' : Heap Int) (g : Interleaved), g.Valid h ∧ g.subimage = true ∧
      ImageMiscOps.fill3 g 9 h = .ok () h' ∧ ¬Painted3 h h' g (fun _ _ _ => some 9) ∧
      h'.px3 g 0 0 0 = some 0 ∧ h'.cell 0 0 = some 9 := by
  refine ⟨⟨[some [0,0,0,0]]⟩, ⟨[some [9,9,0,0]]⟩, Interleaved.wrap 0 4 1 1 2 2 4, ?_, rfl, rfl, ?_, rfl, rfl⟩
  · decide
  · intro p
    have := p.pix 0 0 0 (by decide) (by decide) (by decide)
    exact absurd this (by decide)

/-- Hypotheses of the partial theorem: a 2x1 image with three bands. -/
example : (Interleaved.mk 0 6 2 1 3 0 6 false).Valid (⟨[some (List.replicate 6 (7:Int))]⟩ : Heap Int) := by decide

/-! ## C24 fill_uniform -/

/-- Full statement C24: every pixel receives one generated value, and nothing else changes.
Proved for images that own their array; for windows it is false (`C24_fill_uniform_refuted`). -/
theorem C24_fill_uniform_partial {h : Heap V} {g : Gray} (hv : g.Valid h) (hs : g.subimage = false)
    (draw : Nat → V) (InRange : V → Prop) (hd : ∀ i, InRange (draw i)) :
    ∃ h', ImageMiscOps.fillUniform g draw h = .ok () h' ∧
      (∃ f : Nat → Nat → V, Painted h h' g (fun x y => some (f x y)) ∧ ∀ x y, InRange (f x y)) ∧
      -- distinct pixels receive distinct draws
      (∃ n : Nat → Nat → Nat, Painted h h' g (fun x y => some (draw (n x y))) ∧
        ∀ x y x' y', x < g.width → x' < g.width → n x y = n x' y' → x = x' ∧ y = y') := by
  obtain ⟨_, h', e, p⟩ := paint_linear hv hs draw
  exact ⟨h', e, ⟨_, p, fun x y => hd _⟩, ⟨fun x y => y * g.width + x, p, fun x y x' y' hx hx' he =>
    addr_inj_aux hx hx' he⟩⟩

/-- On a window, pixels of the parent outside the window are overwritten and pixels of the window are not set. -/
theorem C24_fill_uniform_refuted :
    ∃ (h h' : Heap Int) (g : Gray), g.Valid h ∧ g.subimage = true ∧
      ImageMiscOps.fillUniform g (fun _ => 5) h = .ok () h' ∧
      h'.px g 0 0 = some 0 ∧ h'.cell 0 0 = some 5 := by
  refine ⟨⟨[some [0,0,0,0]]⟩, ⟨[some [5,0,0,0]]⟩, Gray.wrap 0 4 1 1 3 2, by decide, rfl, rfl, rfl, rfl⟩

example : (Gray.mk 0 6 3 2 0 3 false).Valid (⟨[some (List.replicate 6 (7:Int))]⟩ : Heap Int) ∧
    ∀ i : Nat, (fun v : Int => 0 ≤ v ∧ v < 10) ((i % 10 : Nat) : Int) := by
  constructor
  · decide
  · intro i; show (0:Int) ≤ ((i % 10 : Nat) : Int) ∧ ((i % 10 : Nat) : Int) < 10; omega

end Boof
