import Verif.Proofs.Image
/-
Row-major loops that write one value per pixel.
-/
namespace Boof
variable {V : Type}

/-- Pixels already written when a row-major scan is about to process `(x,y)`. -/
def upto (f : Nat → Nat → V) (y x : Nat) : Nat → Nat → Option V :=
  fun x' y' => if y' < y ∨ (y' = y ∧ x' < x) then some (f x' y') else none

theorem paint_loop2 {h : Heap V} {g : Gray} (f : Nat → Nat → V)
    {body : Nat → Nat → M V Unit}
    (hbody : ∀ y x h1, y < g.height → x < g.width → Painted h h1 g (upto f y x) →
      Spec (body y x) h1 (fun _ h2 => Painted h h2 g (upto f y (x+1)))) :
    Spec (M.loop g.height (fun y => M.loop g.width (body y))) h
      (fun _ h2 => Painted h h2 g (fun x y => some (f x y))) := by
  have := Spec.loop (n := g.height) (body := fun y => M.loop g.width (body y)) (h := h)
    (fun y h1 => Painted h h1 g (upto f y 0))
    ((Painted.refl h g).congr (fun x y _ _ => by simp [upto]))
    (fun y h1 hy hp => by
      refine Spec.conseq (Spec.loop (fun x h2 => Painted h h2 g (upto f y x)) hp
        (fun x h2 hx hp2 => hbody y x h2 hy hx hp2)) ?_
      intro _ h2 hp2
      refine hp2.congr ?_
      intro x' y' hx' hy'
      unfold upto
      by_cases e : y' < y + 1
      · rw [if_pos (by omega), if_pos (by omega)]
      · rw [if_neg (by omega), if_neg (by omega)])
  refine Spec.conseq this ?_
  intro _ h2 hp2
  refine hp2.congr ?_
  intro x' y' hx' hy'
  unfold upto
  rw [if_pos (Or.inl hy')]

/-- Writing the next pixel of a row-major scan. -/
theorem upto_wr {h h1 : Heap V} {g : Gray} {f : Nat → Nat → V} {y x i : Nat} (hv : g.Valid h)
    (hp : Painted h h1 g (upto f y x)) (hx : x < g.width) (hy : y < g.height) (hi : i = g.addr x y)
    {v : V} (hvv : v = f x y) :
    Spec (M.wr g.buf i v) h1 (fun _ h2 => Painted h h2 g (upto f y (x+1))) := by
  subst hvv
  refine hp.spec_wr hv hx hy _ hi ?_
  intro x' y' hx' hy'
  unfold upto
  by_cases e : x' = x ∧ y' = y
  · obtain ⟨rfl, rfl⟩ := e
    rw [if_pos (by omega), if_pos ⟨rfl, rfl⟩]
  · rw [if_neg e]
    by_cases e2 : y' < y ∨ y' = y ∧ x' < x
    · rw [if_pos e2, if_pos (by omega)]
    · rw [if_neg e2, if_neg (by omega)]

/-! ### Painting a region, in any order -/

open Classical in
/-- The pixels of region `P`, with values `f`. -/
noncomputable def sel (P : Nat → Nat → Prop) (f : Nat → Nat → V) : Nat → Nat → Option V :=
  fun x y => if P x y then some (f x y) else none

theorem sel_pos {P : Nat → Nat → Prop} {f : Nat → Nat → V} {x y : Nat} (hp : P x y) : sel P f x y = some (f x y) :=
  if_pos hp

theorem sel_neg {P : Nat → Nat → Prop} {f : Nat → Nat → V} {x y : Nat} (hp : ¬P x y) : sel P f x y = none :=
  if_neg hp

theorem sel_eq {P P' : Nat → Nat → Prop} {f f' : Nat → Nat → V} {x y : Nat} (hp : P x y ↔ P' x y)
    (hf : P x y → f x y = f' x y) : sel P f x y = sel P' f' x y := by
  by_cases e : P x y
  · rw [sel_pos e, sel_pos (hp.mp e), hf e]
  · rw [sel_neg e, sel_neg (fun e' => e (hp.mpr e'))]

theorem Painted.sel_none {h : Heap V} {g : Gray} {P : Nat → Nat → Prop} {f : Nat → Nat → V}
    (hP : ∀ x y, x < g.width → y < g.height → ¬P x y) : Painted h h g (sel P f) :=
  (Painted.refl h g).congr (fun x y hx hy => (sel_neg (hP x y hx hy)).symm)

theorem Painted.sel_congr {h h1 : Heap V} {g : Gray} {P P' : Nat → Nat → Prop} {f f' : Nat → Nat → V}
    (hp : Painted h h1 g (sel P f)) (hP : ∀ x y, x < g.width → y < g.height → (P x y ↔ P' x y))
    (hf : ∀ x y, x < g.width → y < g.height → P x y → f x y = f' x y) :
    Painted h h1 g (sel P' f') :=
  hp.congr (fun x y hx hy => sel_eq (hP x y hx hy) (hf x y hx hy))

theorem Painted.sel_iff {h h1 : Heap V} {g : Gray} {P P' : Nat → Nat → Prop} {f : Nat → Nat → V}
    (hp : Painted h h1 g (sel P f)) (hP : ∀ x y, x < g.width → y < g.height → (P x y ↔ P' x y)) :
    Painted h h1 g (sel P' f) := hp.sel_congr hP (fun _ _ _ _ _ => rfl)

theorem Painted.sel_all {h h1 : Heap V} {g : Gray} {P : Nat → Nat → Prop} {f : Nat → Nat → V}
    (hp : Painted h h1 g (sel P f)) (hP : ∀ x y, x < g.width → y < g.height → P x y) :
    Painted h h1 g (fun x y => some (f x y)) :=
  hp.congr (fun x y hx hy => sel_pos (hP x y hx hy))

/-- Writing one pixel extends the painted region by it. -/
theorem Painted.sel_wr {h h1 : Heap V} {g : Gray} {P P' : Nat → Nat → Prop} {f : Nat → Nat → V} {x y i : Nat} {v : V}
    (hp : Painted h h1 g (sel P f)) (hv : g.Valid h) (hx : x < g.width) (hy : y < g.height) (hi : i = g.addr x y)
    (hvv : v = f x y)
    (hP : ∀ x' y', x' < g.width → y' < g.height → (P' x' y' ↔ P x' y' ∨ (x' = x ∧ y' = y))) :
    Spec (M.wr g.buf i v) h1 (fun _ h2 => Painted h h2 g (sel P' f)) := by
  subst hvv
  refine hp.spec_wr hv hx hy _ hi ?_
  intro x' y' hx' hy'
  by_cases e : x' = x ∧ y' = y
  · rw [if_pos e, sel_pos ((hP x' y' hx' hy').mpr (Or.inr e))]
    obtain ⟨rfl, rfl⟩ := e; rfl
  · rw [if_neg e]
    refine sel_eq ?_ (fun _ => rfl)
    rw [hP x' y' hx' hy']
    exact ⟨fun h => h.resolve_right e, Or.inl⟩

/-- A value not yet painted is the original one. -/
theorem Painted.sel_px {h h1 : Heap V} {g : Gray} {P : Nat → Nat → Prop} {f : Nat → Nat → V} {x y : Nat}
    (hp : Painted h h1 g (sel P f)) (hx : x < g.width) (hy : y < g.height) (hn : ¬P x y) :
    h1.px g x y = h.px g x y := by
  rw [hp.pix x y hx hy, sel_neg hn]; rfl

/-- Writing the whole array of an image which owns it, cell by cell. -/
theorem paint_linear {h : Heap V} {g : Gray} (hv : g.Valid h) (hs : g.subimage = false) (d : Nat → V) :
    Spec (M.loop g.totalPixels (fun i => M.wr g.buf i (d i))) h
      (fun _ h2 => Painted h h2 g (fun x y => some (d (y * g.width + x)))) := by
  obtain ⟨e1, e2⟩ := hv.owner hs
  have ht : g.totalPixels = g.width * g.height := wrap32_of_lt hv.area_lt
  rw [ht]
  have := Spec.loop (n := g.width * g.height) (body := fun i => M.wr g.buf i (d i)) (h := h)
    (fun i h1 => Painted h h1 g (sel (fun x y => y * g.width + x < i) (fun x y => d (y * g.width + x))))
    (Painted.sel_none (fun x y _ _ => by omega))
    (fun i h1 hi hp => by
      have hw : 0 < g.width := by
        rcases Nat.eq_zero_or_pos g.width with e | e
        · rw [e] at hi; omega
        · exact e
      have hx : i % g.width < g.width := Nat.mod_lt _ hw
      have hy : i / g.width < g.height := by
        rw [Nat.div_lt_iff_lt_mul hw, Nat.mul_comm]; exact hi
      have hdm : i / g.width * g.width + i % g.width = i := by
        have := Nat.div_add_mod i g.width; rw [Nat.mul_comm] at this; exact this
      refine hp.sel_wr hv hx hy ?_ ?_ ?_
      · unfold Gray.addr; rw [e1, e2]; omega
      · simp only [hdm]
      · intro x' y' hx' hy'
        constructor
        · intro hlt
          rcases Nat.lt_or_ge (y' * g.width + x') i with h | h
          · exact Or.inl h
          · exact Or.inr (addr_inj_aux hx' hx (by omega))
        · rintro (h | ⟨rfl, rfl⟩) <;> omega)
  refine Spec.conseq this (fun _ h2 hp => hp.sel_all ?_)
  intro x y hx hy
  rw [Nat.mul_comm g.width]
  have := Nat.mul_le_mul_right g.width (Nat.succ_le_of_lt hy)
  rw [Nat.succ_mul] at this
  show y * g.width + x < _
  omega

/-! ### Reading an input while the output is written -/

/-- Everything a pixelwise operation needs to know about an input image after the output was reshaped. -/
structure Readable (h h1 : Heap V) (a g' : Gray) (f : Nat → Nat → V) : Prop where
  valid : a.Valid h1
  /-- pixel `(x,y)` can be read as long as it has not been written -/
  read : ∀ (h2 : Heap V) (P : Nat → Nat → Prop) (F : Nat → Nat → V) (x y : Nat), Painted h1 h2 g' (sel P F) →
    x < a.width → y < a.height → ¬P x y → h2.px a x y = some (f x y)

theorem Reshaped.readable {h h1 : Heap V} {g g' a : Gray} {w ht : Nat} {f : Nat → Nat → V}
    (hr : Reshaped h h1 g g' w ht) (ha : a.Valid h) (hw : a.width = w) (hh : a.height = ht)
    (hs : a.SepOrSame g w ht) (hf : a.Shows h f) : Readable h h1 a g' f := by
  rcases hs with rfl | hs
  · obtain ⟨e1, e2⟩ := hr.same hw hh
    subst e1; subst e2
    refine ⟨ha, fun h2 P F x y hp hx hy hn => ?_⟩
    rw [hp.sel_px hx hy hn]; exact hf x y hx hy
  · obtain ⟨hv1, hpx, hd⟩ := hr.input ha hs
    refine ⟨hv1, fun h2 P F x y hp hx hy hn => ?_⟩
    rw [hp.px_disjoint hd hx hy, hpx]; exact hf x y hx hy

/-- An input that is separate from the output is unchanged by the whole operation. -/
theorem Produced.input {h h' : Heap V} {g g' a : Gray} {w ht : Nat} {F f : Nat → Nat → V}
    (hp : Produced h h' g g' w ht F) (ha : a.Valid h) (hs : a.Sep g w ht) (hf : a.Shows h f) :
    a.Valid h' ∧ a.Shows h' f := by
  rcases hs with hne | ⟨ew, eh, hd⟩
  · have hc : ∀ i, h'.cell a.buf i = h.cell a.buf i := fun i => hp.frame _ _ hne ha.lt_next
    refine ⟨ha.transfer ?_ ?_, ?_⟩
    · rw [hp.alive _ hne ha.lt_next]; exact ha.live
    · intro i hi; rw [hc]; exact ha.cells i hi
    · intro x y hx hy
      unfold Heap.px; rw [hc]; exact hf x y hx hy
  · obtain ⟨e, p⟩ := hp.inPlace ew eh
    subst e
    rcases hp.buf with ⟨_, hk⟩ | hlt
    · refine ⟨hk a ha, fun x y hx hy => ?_⟩
      rw [p.px_disjoint hd hx hy]; exact hf x y hx hy
    · have hv := hp.valid.live
      by_cases eb : a.buf = g'.buf
      · have := ha.lt_next; omega
      · refine ⟨ha.transfer ?_ ?_, fun x y hx hy => ?_⟩
        · rw [p.alive]; exact ha.live
        · intro i hi
          rw [p.frame _ _ (fun x y _ _ e => eb e.1)]; exact ha.cells i hi
        · rw [p.px_disjoint hd hx hy]; exact hf x y hx hy

theorem upto_sel (f : Nat → Nat → V) (y x : Nat) : upto f y x = sel (fun x' y' => y' < y ∨ (y' = y ∧ x' < x)) f := by
  funext x' y'
  unfold upto
  by_cases e : y' < y ∨ (y' = y ∧ x' < x)
  · rw [if_pos e, sel_pos e]
  · rw [if_neg e, sel_neg e]

theorem Readable.rd {h h1 h2 : Heap V} {a g' : Gray} {f F : Nat → Nat → V} (hr : Readable h h1 a g' f) {x y : Nat}
    (hp : Painted h1 h2 g' (upto F y x)) (hx : x < a.width) (hy : y < a.height) :
    M.rd a.buf (a.addr x y) h2 = .ok (f x y) h2 :=
  M.rd_run (hr.read h2 _ F x y (by rw [← upto_sel]; exact hp) hx hy (by omega))

theorem Produced.congr {h h' : Heap V} {g g' : Gray} {w ht : Nat} {f f2 : Nat → Nat → V} (hp : Produced h h' g g' w ht f)
    (e : ∀ x y, x < w → y < ht → f x y = f2 x y) : Produced h h' g g' w ht f2 :=
  { hp with
    pix := fun x y hx hy => by rw [← e x y hx hy]; exact hp.pix x y hx hy
    inPlace := fun ew eh => by
      obtain ⟨a, b⟩ := hp.inPlace ew eh
      exact ⟨a, b.congr (fun x y hx hy => by rw [e x y (by omega) (by omega)])⟩ }

end Boof
