import Verif.Proofs.Paint
/-
A small calculus for programs which write each pixel of an output image at most once with a value that does not depend on
what was written before.
-/
namespace Boof
variable {V α β : Type}

/-- `m` returns `a` and changes nothing, in every heap reached from `h1` by writing pixels of `g` with their values `F`. -/
def Computes (h1 : Heap V) (g : Gray) (F : Nat → Nat → V) (m : M V α) (a : α) : Prop :=
  ∀ P h2, Painted h1 h2 g (sel P F) → m h2 = .ok a h2

/-- `m` writes the pixels in `R` with their values `F`. -/
def Paints (h1 : Heap V) (g : Gray) (F : Nat → Nat → V) (m : M V Unit) (R : Nat → Nat → Prop) : Prop :=
  ∀ P h2, Painted h1 h2 g (sel P F) → Spec m h2 (fun _ h3 => Painted h1 h3 g (sel (fun x y => P x y ∨ R x y) F))

variable {h1 : Heap V} {g : Gray} {F : Nat → Nat → V}

namespace Computes

theorem pure (a : α) : Computes h1 g F (pure a : M V α) a := fun _ _ _ => rfl

theorem bind {m : M V α} {a : α} {f : α → M V β} {b : β} (hm : Computes h1 g F m a) (hf : Computes h1 g F (f a) b) :
    Computes h1 g F (m >>= f) b := fun P h2 hp => by rw [M.bind_ok (hm P h2 hp)]; exact hf P h2 hp

theorem of_const {m : M V α} {a : α} (e : ∀ h, m h = .ok a h) : Computes h1 g F m a := fun _ h2 _ => e h2

theorem congr {m : M V α} {a b : α} (hm : Computes h1 g F m a) (e : a = b) : Computes h1 g F m b := e ▸ hm

end Computes

namespace Paints

theorem bind {m : M V α} {a : α} {f : α → M V Unit} {R : Nat → Nat → Prop} (hm : Computes h1 g F m a)
    (hf : Paints h1 g F (f a) R) : Paints h1 g F (m >>= f) R :=
  fun P h2 hp => Spec.bind_eq (hm P h2 hp) (hf P h2 hp)

theorem congr {m : M V Unit} {R R' : Nat → Nat → Prop} (hm : Paints h1 g F m R)
    (e : ∀ x y, x < g.width → y < g.height → (R x y ↔ R' x y)) : Paints h1 g F m R' :=
  fun P h2 hp => (hm P h2 hp).conseq (fun _ _ p => p.sel_iff (fun x y hx hy => by rw [e x y hx hy]))

theorem seq {m m' : M V Unit} {R R' : Nat → Nat → Prop} (hm : Paints h1 g F m R) (hm' : Paints h1 g F m' R') :
    Paints h1 g F (do m; m') (fun x y => R x y ∨ R' x y) :=
  fun P h2 hp => (hm P h2 hp).bind (fun _ h3 p3 => (hm' _ h3 p3).conseq
    (fun _ _ p => p.sel_iff (fun x y _ _ => or_assoc)))

theorem nothing : Paints h1 g F (Pure.pure () : M V Unit) (fun _ _ => False) :=
  fun P h2 hp => Spec.pure (hp.sel_iff (fun x y _ _ => by simp))

theorem loop {n : Nat} {body : Nat → M V Unit} {R : Nat → Nat → Nat → Prop}
    (hb : ∀ i, i < n → Paints h1 g F (body i) (R i)) :
    Paints h1 g F (M.loop n body) (fun x y => ∃ i, i < n ∧ R i x y) := by
  intro P h2 hp
  refine (Spec.loop (fun i h3 => Painted h1 h3 g (sel (fun x y => P x y ∨ ∃ j, j < i ∧ R j x y) F))
    (hp.sel_iff (fun x y _ _ => by simp)) (fun i h3 hi p3 => ?_))
  refine (hb i hi _ h3 p3).conseq (fun _ _ p => p.sel_iff (fun x y _ _ => ?_))
  constructor
  · rintro ((a | ⟨j, hj, a⟩) | a)
    · exact Or.inl a
    · exact Or.inr ⟨j, by omega, a⟩
    · exact Or.inr ⟨i, by omega, a⟩
  · rintro (a | ⟨j, hj, a⟩)
    · exact Or.inl (Or.inl a)
    · rcases Nat.lt_or_ge j i with h | h
      · exact Or.inl (Or.inr ⟨j, h, a⟩)
      · have : j = i := by omega
        subst this; exact Or.inr a

theorem forRange {lo hi : Nat} {body : Nat → M V Unit} {R : Nat → Nat → Nat → Prop}
    (hb : ∀ i, lo ≤ i → i < hi → Paints h1 g F (body i) (R i)) :
    Paints h1 g F (M.forRange lo hi body) (fun x y => ∃ i, lo ≤ i ∧ i < hi ∧ R i x y) := by
  refine (Paints.loop (R := fun k => R (lo + k)) (fun i h => hb (lo + i) (by omega) (by omega))).congr ?_
  intro x y _ _
  constructor
  · rintro ⟨i, h, r⟩; exact ⟨lo + i, by omega, by omega, r⟩
  · rintro ⟨i, h, h', r⟩
    refine ⟨i - lo, by omega, ?_⟩
    have : lo + (i - lo) = i := by omega
    rw [this]; exact r

/-- Write one pixel. -/
theorem wr {i x y : Nat} {v : V} (hv : g.Valid h1) (hx : x < g.width) (hy : y < g.height) (hi : i = g.addr x y)
    (hvv : v = F x y) : Paints h1 g F (M.wr g.buf i v) (fun x' y' => x' = x ∧ y' = y) :=
  fun _ _ hp => hp.sel_wr hv hx hy hi hvv (fun _ _ _ _ => Iff.rfl)

theorem done {m : M V Unit} {R : Nat → Nat → Prop} (hm : Paints h1 g F m R)
    (hR : ∀ x y, x < g.width → y < g.height → R x y) :
    Spec m h1 (fun _ h2 => Painted h1 h2 g (fun x y => some (F x y))) :=
  (hm (fun _ _ => False) h1 (Painted.sel_none (fun _ _ _ _ h => h))).conseq
    (fun _ _ p => p.sel_all (fun x y hx hy => Or.inr (hR x y hx hy)))

/-- A whole image, one pixel per iteration. -/
theorem loop2 {w ht : Nat} {body : Nat → Nat → M V Unit}
    (hb : ∀ x y, x < w → y < ht → Paints h1 g F (body y x) (fun x' y' => x' = x ∧ y' = y)) :
    Paints h1 g F (M.loop ht (fun y => M.loop w (body y))) (fun x y => x < w ∧ y < ht) :=
  (Paints.loop (fun y hy => Paints.loop (fun x hx => hb x y hx hy))).congr (fun x y _ _ =>
    ⟨by rintro ⟨y', h', x', h, rfl, rfl⟩; exact ⟨h, h'⟩, fun ⟨h, h'⟩ => ⟨y, h', x, h, rfl, rfl⟩⟩)

end Paints

/-- The pixels of image `a` show `f` while `g` is being written. -/
structure Pixels (h1 : Heap V) (g : Gray) (F : Nat → Nat → V) (a : Gray) (f : Nat → Nat → V) : Prop where
  valid : a.Valid h1
  read : ∀ x y i, x < a.width → y < a.height → i = a.addr x y → Computes h1 g F (M.rd a.buf i) (f x y)

theorem Gray.Disjoint.pixels {a : Gray} {f : Nat → Nat → V} (hd : a.Disjoint g) (hv : a.Valid h1) (hf : a.Shows h1 f) :
    Pixels h1 g F a f :=
  ⟨hv, fun x y i hx hy hi P h2 hp => by
    subst hi
    exact M.rd_run (by have := hp.px_disjoint hd hx hy; unfold Heap.px at this; rw [this]; exact hf x y hx hy)⟩

theorem Heap.ext_cells {h h' : Heap V} (hc : ∀ b i, h.cell b i = h'.cell b i)
    (ha : ∀ b, (h.get b).isSome = (h'.get b).isSome) (hn : h.next = h'.next) : h = h' := by
  have hg : ∀ b, h.get b = h'.get b := by
    intro b
    have h1 := ha b
    have h2 := hc b
    unfold Heap.cell at h2
    rcases e : h.get b with _ | l <;> rcases e' : h'.get b with _ | l'
    · rfl
    · rw [e, e'] at h1; simp at h1
    · rw [e, e'] at h1; simp at h1
    · rw [e, e'] at h2
      simp only [Option.bind_some] at h2
      rw [List.ext_getElem? h2]
  obtain ⟨l⟩ := h
  obtain ⟨l'⟩ := h'
  congr 1
  apply List.ext_getElem?
  intro b
  have := hg b
  unfold Heap.get at this
  simp only [Heap.next] at hn
  rcases Nat.lt_or_ge b l.length with hlt | hge
  · have hlt' : b < l'.length := by omega
    rw [List.getElem?_eq_getElem hlt, List.getElem?_eq_getElem hlt'] at *
    simp only [Option.join_some] at this
    rw [this]
  · rw [List.getElem?_eq_none hge, List.getElem?_eq_none (by omega)]

/-- Painting is deterministic. -/
theorem Painted.unique {h h' h'' : Heap V} {f : Nat → Nat → Option V} (p : Painted h h' g f) (q : Painted h h'' g f) :
    h' = h'' := by
  refine Heap.ext_cells (fun b i => ?_) (fun b => by rw [p.alive, q.alive]) (by rw [p.next, q.next])
  by_cases e : ∀ x y, x < g.width → y < g.height → ¬(b = g.buf ∧ i = g.addr x y)
  · rw [p.frame b i e, q.frame b i e]
  · simp only [Classical.not_forall, Classical.not_not] at e
    obtain ⟨x, y, hx, hy, rfl, rfl⟩ := e
    have a := p.pix x y hx hy
    have b := q.pix x y hx hy
    unfold Heap.px at a b
    rw [a, b]

end Boof
