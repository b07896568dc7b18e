import Verif.Spec.Image
import Verif.Cpp.Logic
/-
Helper lemmas about image layouts, `Painted`, `Reshaped` and `Produced`.
-/
namespace Boof
variable {V : Type}

theorem addr_inj_aux {s x y x' y' : Nat} (hx : x < s) (hx' : x' < s) (e : y * s + x = y' * s + x') :
    x = x' ∧ y = y' := by
  have hy : y = y' := by
    rcases Nat.lt_trichotomy y y' with h | h | h
    · have := Nat.mul_le_mul_right s (Nat.succ_le_of_lt h)
      rw [Nat.succ_mul] at this; omega
    · exact h
    · have := Nat.mul_le_mul_right s (Nat.succ_le_of_lt h)
      rw [Nat.succ_mul] at this; omega
  subst hy
  exact ⟨by omega, rfl⟩

namespace Gray.Valid
variable {h h' : Heap V} {g : Gray}

theorem addr_lt (hv : g.Valid h) {x y : Nat} (hx : x < g.width) (hy : y < g.height) :
    g.addr x y < g.dataLength := by
  have := hv.fits y hy
  unfold Gray.addr; omega

theorem rowEnd_lt (hv : g.Valid h) {y : Nat} (hy : y < g.height) :
    g.offset + y * g.stride + g.width < P32 := by
  have := hv.fits y hy; have := hv.lenLt; omega

theorem addr_lt32 (hv : g.Valid h) {x y : Nat} (hx : x < g.width) (hy : y < g.height) :
    g.addr x y < P32 := Nat.lt_trans (hv.addr_lt hx hy) hv.lenLt

theorem index_eq (hv : g.Valid h) {x y : Nat} (hx : x < g.width) (hy : y < g.height) :
    g.indexOf x y = g.addr x y := wrap32_of_lt (hv.addr_lt32 hx hy)

theorem row_eq (hv : g.Valid h) {y : Nat} (hy : y < g.height) :
    wrap32 (g.offset + y * g.stride) = g.offset + y * g.stride :=
  wrap32_of_lt (by have := hv.rowEnd_lt hy; omega)

theorem px_some (hv : g.Valid h) {x y : Nat} (hx : x < g.width) (hy : y < g.height) :
    ∃ v, h.px g x y = some v := hv.cells _ (hv.addr_lt hx hy)

theorem addr_inj (hv : g.Valid h) {x y x' y' : Nat} (hx : x < g.width) (hx' : x' < g.width)
    (e : g.addr x y = g.addr x' y') : x = x' ∧ y = y' := by
  have := hv.rowLe
  unfold Gray.addr at e
  exact addr_inj_aux (s := g.stride) (by omega) (by omega) (by omega)

theorem area_le (hv : g.Valid h) : g.width * g.height ≤ g.dataLength := by
  rcases Nat.eq_zero_or_pos g.height with h0 | h0
  · rw [h0]; simp
  · have h1 := hv.fits (g.height - 1) (by omega)
    have h2 := Nat.mul_le_mul_left (g.height - 1) hv.rowLe
    have h3 : g.width * g.height = (g.height - 1) * g.width + g.width := by
      rw [Nat.mul_comm, ← Nat.succ_mul]; congr 1; omega
    omega

theorem area_lt (hv : g.Valid h) : g.width * g.height < P32 :=
  Nat.lt_of_le_of_lt hv.area_le hv.lenLt

theorem transfer (hv : g.Valid h) (hl : (h'.get g.buf).isSome)
    (hc : ∀ i, i < g.dataLength → ∃ v, h'.cell g.buf i = some v) : g.Valid h' :=
  { hv with live := hl, cells := hc }

theorem lt_next (hv : g.Valid h) : g.buf < h.next := by
  have := hv.live
  obtain ⟨l, e⟩ := Option.isSome_iff_exists.mp this
  exact Heap.lt_next_of_get e

theorem shows (hv : g.Valid h) (z : V) : g.Shows h (fun x y => (h.px g x y).getD z) := by
  intro x y hx hy
  obtain ⟨v, e⟩ := hv.px_some hx hy
  simp only [e, Option.getD_some]

/-- Validity can be decided, which the examples use. -/
instance (h : Heap V) (g : Gray) : Decidable (g.Valid h) :=
  decidable_of_iff
    ((h.get g.buf).isSome = true ∧ (∀ i, i < g.dataLength → (h.cell g.buf i).isSome = true) ∧
      g.dataLength < P32 ∧ g.width < P32 ∧ g.height < P32 ∧ g.width ≤ g.stride ∧
      (∀ y, y < g.height → g.offset + y * g.stride + g.width ≤ g.dataLength) ∧
      (g.subimage = false → g.offset = 0 ∧ g.stride = g.width))
    ⟨fun ⟨a, b, c, d, e, f, k, l⟩ => ⟨a, fun i hi => Option.isSome_iff_exists.mp (b i hi), c, d, e, f, k, l⟩,
     fun hv => ⟨hv.live, fun i hi => Option.isSome_iff_exists.mpr (hv.cells i hi), hv.lenLt, hv.widthLt,
       hv.heightLt, hv.rowLe, hv.fits, hv.owner⟩⟩

end Gray.Valid

namespace Painted
variable {h h1 h2 : Heap V} {g a : Gray} {f f' : Nat → Nat → Option V}

theorem refl (h : Heap V) (g : Gray) : Painted h h g (fun _ _ => none) :=
  ⟨fun _ _ _ _ => rfl, fun _ _ _ => rfl, fun _ => rfl, rfl⟩

theorem congr (hp : Painted h h1 g f)
    (e : ∀ x y, x < g.width → y < g.height → f x y = f' x y) : Painted h h1 g f' :=
  ⟨fun x y hx hy => by rw [← e x y hx hy]; exact hp.pix x y hx hy, hp.frame, hp.alive, hp.next⟩

theorem trans (h01 : Painted h h1 g f) (h12 : Painted h1 h2 g f') :
    Painted h h2 g (fun x y => (f' x y).or (f x y)) :=
  ⟨fun x y hx hy => by rw [h12.pix x y hx hy, h01.pix x y hx hy, Option.or_assoc],
   fun b i hb => by rw [h12.frame b i hb, h01.frame b i hb],
   fun b => by rw [h12.alive, h01.alive], by rw [h12.next, h01.next]⟩

theorem cell_some (hp : Painted h h1 g f) (hv : g.Valid h) (b i : Nat) (he : ∃ v, h.cell b i = some v) :
    ∃ v, h1.cell b i = some v := by
  by_cases hb : ∀ x y, x < g.width → y < g.height → ¬(b = g.buf ∧ i = g.addr x y)
  · rw [hp.frame b i hb]; exact he
  · have : ∃ x y, x < g.width ∧ y < g.height ∧ b = g.buf ∧ i = g.addr x y := by
      apply Classical.byContradiction
      intro hn
      exact hb (fun x y hx hy hbi => hn ⟨x, y, hx, hy, hbi⟩)
    obtain ⟨x, y, hx, hy, rfl, rfl⟩ := this
    have := hp.pix x y hx hy
    unfold Heap.px at this
    rw [this]
    cases f x y with
    | some v => exact ⟨v, rfl⟩
    | none => exact hv.px_some hx hy

theorem valid (hp : Painted h h1 g f) (hv : g.Valid h) (ha : a.Valid h) : a.Valid h1 :=
  ha.transfer (by rw [hp.alive]; exact ha.live) (fun i hi => hp.cell_some hv _ _ (ha.cells i hi))

theorem px_disjoint (hp : Painted h h1 g f) (hd : a.Disjoint g) {x y : Nat} (hx : x < a.width)
    (hy : y < a.height) : h1.px a x y = h.px a x y :=
  hp.frame _ _ (fun x' y' hx' hy' e => hd x y x' y' hx hy hx' hy' e.1 e.2)

theorem write (hp : Painted h h1 g f) (hv : g.Valid h) {x y : Nat} (hx : x < g.width)
    (hy : y < g.height) (v : V) :
    ∃ h2, M.wr g.buf (g.addr x y) v h1 = .ok () h2 ∧
      Painted h h2 g (fun x' y' => if x' = x ∧ y' = y then some v else f x' y') := by
  obtain ⟨w, hw⟩ := (hp.valid hv hv).px_some hx hy
  refine ⟨h1.setCell g.buf (g.addr x y) v, M.wr_run hw, ?_, ?_, ?_, ?_⟩
  · intro x' y' hx' hy'
    unfold Heap.px
    rw [Heap.cell_setCell hw]
    by_cases e : x' = x ∧ y' = y
    · obtain ⟨rfl, rfl⟩ := e; simp
    · have : ¬(g.buf = g.buf ∧ g.addr x' y' = g.addr x y) := by
        rintro ⟨-, e'⟩; exact e (hv.addr_inj hx' hx e')
      rw [if_neg this]
      simp only [e, if_false]
      exact hp.pix x' y' hx' hy'
  · intro b i hb
    rw [Heap.cell_setCell hw, if_neg (hb x y hx hy)]
    exact hp.frame b i hb
  · intro b
    rw [← hp.alive]
    by_cases e : b = g.buf
    · subst e
      have hl := (hp.valid hv hv).live
      obtain ⟨l, el⟩ := Option.isSome_iff_exists.mp hl
      rw [Heap.get_setCell_same el, el]; rfl
    · rw [Heap.get_setCell_ne e]
  · rw [Heap.next_setCell, hp.next]

/-- Writing pixel `(x,y)` inside a program. -/
theorem spec_wr (hp : Painted h h1 g f) (hv : g.Valid h) {x y i : Nat} (hx : x < g.width)
    (hy : y < g.height) (v : V) (hi : i = g.addr x y)
    (e : ∀ x' y', x' < g.width → y' < g.height → f' x' y' = if x' = x ∧ y' = y then some v else f x' y') :
    Spec (M.wr g.buf i v) h1 (fun _ h2 => Painted h h2 g f') := by
  subst hi
  obtain ⟨h2, e2, p2⟩ := hp.write hv hx hy v
  exact Spec.of_eq e2 (p2.congr (fun x' y' hx' hy' => (e x' y' hx' hy').symm))

end Painted

theorem reshape_spec {h : Heap V} (z : V) {g : Gray} {w ht : Nat} (hv : g.Valid h)
    (hw : w < P32) (hh : ht < P32) (ha : w * ht < P32) (hc : g.CanBe w ht) :
    Spec (g.reshape z w ht) h (fun g' h' => Reshaped h h' g g' w ht) := by
  unfold Gray.reshape
  by_cases e : g.width = w ∧ g.height = ht
  · rw [if_pos e]
    exact Spec.pure ⟨e.1, e.2, hv, rfl, fun _ _ _ _ => rfl, fun _ _ _ => rfl, Or.inl ⟨rfl, rfl⟩,
      fun _ _ => ⟨rfl, rfl⟩, Or.inl ⟨rfl, rfl, fun _ => rfl⟩⟩
  · rw [if_neg e]
    have hs : g.subimage = false := by
      rcases hc with hc | hc
      · exact hc
      · exact absurd hc e
    have ho := hv.owner hs
    simp only [hs, Bool.false_eq_true, if_false]
    rw [wrap32_of_lt ha]
    by_cases hd : w * ht > g.dataLength
    · rw [if_pos hd]
      obtain ⟨l, el⟩ := Option.isSome_iff_exists.mp hv.live
      refine Spec.bind_eq (a := ()) (h' := h.free g.buf) (by simp [M.delArr, el]) ?_
      refine Spec.bind_eq (a := h.next) (h' := (h.free g.buf).alloc (List.replicate (w*ht) z))
        (by simp [M.newArr, Heap.next_free]) ?_
      refine Spec.pure ⟨rfl, rfl, ?_, hs.symm ▸ rfl, ?_, ?_, Or.inr ⟨rfl, ?_⟩, fun h1 h2 => absurd ⟨h1, h2⟩ e,
        Or.inr ⟨rfl, ?_, ?_⟩⟩
      · refine ⟨?_, ?_, ha, hw, hh, Nat.le_refl _, ?_, fun _ => ⟨ho.1, rfl⟩⟩
        · rw [Heap.get_alloc, Heap.next_free]; simp
        · intro i hi
          rw [Heap.cell_alloc, Heap.next_free, if_pos rfl]
          exact ⟨z, by rw [List.getElem?_replicate, if_pos hi]⟩
        · intro y hy
          show g.offset + y * w + w ≤ w * ht
          have := Nat.mul_le_mul_right w (Nat.succ_le_of_lt hy)
          rw [Nat.succ_mul, Nat.mul_comm ht w] at this
          rw [ho.1]; omega
      · intro b i hb hlt
        rw [Heap.cell_alloc, Heap.next_free, if_neg (by omega), Heap.cell_free, if_neg hb]
      · intro b hb hlt
        rw [Heap.get_alloc, Heap.next_free, if_neg (by omega), Heap.get_free, if_neg hb]
      · rw [Heap.next_alloc, Heap.next_free]; omega
      · rw [Heap.next_alloc, Heap.next_free]
      · have := hv.lt_next
        rw [Heap.get_alloc, Heap.next_free, if_neg (by omega), Heap.get_free, if_pos rfl]
    · rw [if_neg hd]
      refine Spec.pure ⟨rfl, rfl, ?_, hs.symm ▸ rfl, fun _ _ _ _ => rfl, fun _ _ _ => rfl,
        Or.inl ⟨rfl, rfl⟩, fun h1 h2 => absurd ⟨h1, h2⟩ e, Or.inl ⟨rfl, rfl, fun _ => rfl⟩⟩
      refine ⟨hv.live, hv.cells, hv.lenLt, hw, hh, Nat.le_refl _, ?_, fun _ => ⟨ho.1, rfl⟩⟩
      intro y hy
      show g.offset + y * w + w ≤ g.dataLength
      have := Nat.mul_le_mul_right w (Nat.succ_le_of_lt hy)
      rw [Nat.succ_mul, Nat.mul_comm ht w] at this
      rw [ho.1]; omega

theorem reshape_throws {h : Heap V} (z : V) {g : Gray} {w ht : Nat} (hs : g.subimage = true)
    (he : ¬(g.width = w ∧ g.height = ht)) : g.reshape z w ht h = .throw h := by
  unfold Gray.reshape
  rw [if_neg he, if_pos hs]; rfl

namespace Reshaped
variable {h h1 : Heap V} {g g' a : Gray} {w ht : Nat}

theorem input (hr : Reshaped h h1 g g' w ht) (ha : a.Valid h) (hs : a.Sep g w ht) :
    a.Valid h1 ∧ (∀ x y, h1.px a x y = h.px a x y) ∧ a.Disjoint g' := by
  rcases hs with hne | ⟨ew, eh, hd⟩
  · refine ⟨ha.transfer ?_ ?_, fun x y => hr.frame _ _ hne ha.lt_next, ?_⟩
    · rw [hr.alive _ hne ha.lt_next]; exact ha.live
    · intro i hi; rw [hr.frame _ _ hne ha.lt_next]; exact ha.cells i hi
    · intro x y x' y' _ _ _ _ eb
      rcases hr.buf with ⟨e, _⟩ | ⟨e, _⟩
      · exact absurd (eb.trans e) hne
      · have := ha.lt_next; omega
  · obtain ⟨e1, e2⟩ := hr.same ew eh
    subst e1; subst e2
    exact ⟨ha, fun _ _ => rfl, hd⟩

theorem produced (hr : Reshaped h h1 g g' w ht) {h2 : Heap V} {f : Nat → Nat → V}
    (hp : Painted h1 h2 g' (fun x y => some (f x y))) :
    Produced h h2 g g' w ht f := by
  refine ⟨hr.width, hr.height, hp.valid hr.valid hr.valid, hr.sub, ?_, ?_, ?_, ?_, ?_, ?_, ?_⟩
  · intro x y hx hy
    rw [hp.pix x y (by rw [hr.width]; exact hx) (by rw [hr.height]; exact hy)]; rfl
  · intro b i hb hlt
    rw [hp.frame b i, hr.frame b i hb hlt]
    intro x y _ _ ⟨e, _⟩
    rcases hr.buf with ⟨e', _⟩ | ⟨e', _⟩
    · exact hb (e.trans e')
    · omega
  · intro b hb hlt
    rw [hp.alive, hr.alive b hb hlt]
  · rcases hr.buf with ⟨e, e'⟩ | ⟨e, _⟩
    · refine Or.inl ⟨e, fun a ha => ?_⟩
      exact hp.valid hr.valid (by rw [e']; exact ha)
    · exact Or.inr (by omega)
  · rw [hp.next]
    rcases hr.buf with ⟨_, e'⟩ | ⟨_, e'⟩
    · rw [e']; exact Nat.le_refl _
    · omega
  · intro ew eh
    obtain ⟨e1, e2⟩ := hr.same ew eh
    subst e1; subst e2
    exact ⟨rfl, hp⟩
  · rcases hr.memory with ⟨e1, e2, e3⟩ | ⟨e1, e2, e3⟩
    · exact Or.inl ⟨e1, by rw [hp.next, e2], fun b => by rw [hp.alive, e3]⟩
    · refine Or.inr ⟨e1, by rw [hp.next, e2], ?_⟩
      rw [← Option.not_isSome_iff_eq_none, hp.alive, e3]; simp

end Reshaped
end Boof
