import Verif.Cpp.Logic
/-
Partial correctness: a computation which is undefined or ends with a result of which `Q` holds.
-/
namespace Boof
variable {V : Type}

/-- `m` is undefined from `h`, or ends normally with `Q`. -/
def SpecOrUb {α : Type} (m : M V α) (h : Heap V) (Q : α → Heap V → Prop) : Prop :=
  m h = .ub ∨ ∃ a h', m h = .ok a h' ∧ Q a h'

namespace SpecOrUb
variable {α β : Type}

theorem pure {a : α} {h : Heap V} {Q : α → Heap V → Prop} (hq : Q a h) : SpecOrUb (Pure.pure a : M V α) h Q :=
  Or.inr ⟨a, h, rfl, hq⟩

theorem bind {m : M V α} {f : α → M V β} {h : Heap V} {P : α → Heap V → Prop} {Q : β → Heap V → Prop} (hm : SpecOrUb m h P)
    (hf : ∀ a h', P a h' → SpecOrUb (f a) h' Q) : SpecOrUb (m >>= f) h Q := by
  rcases hm with e | ⟨a, h', e, hp⟩
  · exact Or.inl (M.bind_ub e)
  · rcases hf a h' hp with e' | ⟨b, h'', e', hq⟩
    · exact Or.inl ((M.bind_ok e).trans e')
    · exact Or.inr ⟨b, h'', (M.bind_ok e).trans e', hq⟩

theorem loop {n : Nat} {body : Nat → M V Unit} {h : Heap V} (I : Nat → Heap V → Prop) (h0 : I 0 h)
    (hb : ∀ i h', i < n → I i h' → SpecOrUb (body i) h' (fun _ h'' => I (i+1) h'')) :
    SpecOrUb (M.loop n body) h (fun _ h' => I n h') := by
  show SpecOrUb (M.loopS n () _) h _
  induction n with
  | zero => exact SpecOrUb.pure h0
  | succ n ih => exact SpecOrUb.bind (m := M.loopS n () _) (ih (fun i h' hi => hb i h' (by omega))) (fun _ h' q => hb n h' (by omega) q)

theorem loopS {σ : Type} {n : Nat} {init : σ} {body : Nat → σ → M V σ} {h : Heap V} (I : Nat → σ → Heap V → Prop) (h0 : I 0 init h)
    (hb : ∀ i s h', i < n → I i s h' → SpecOrUb (body i s) h' (fun s' h'' => I (i+1) s' h'')) :
    SpecOrUb (M.loopS n init body) h (fun s h' => I n s h') := by
  induction n with
  | zero => exact SpecOrUb.pure h0
  | succ n ih => exact SpecOrUb.bind (ih (fun i s h' hi => hb i s h' (by omega))) (fun s h' q => hb n s h' (by omega) q)

theorem conseq {m : M V α} {h : Heap V} {P Q : α → Heap V → Prop} (hm : SpecOrUb m h P) (hq : ∀ a h', P a h' → Q a h') :
    SpecOrUb m h Q := by
  rcases hm with e | ⟨a, h', e, hp⟩
  · exact Or.inl e
  · exact Or.inr ⟨a, h', e, hq a h' hp⟩

theorem of_eq {m : M V α} {h h' : Heap V} {a : α} {Q : α → Heap V → Prop} (e : m h = .ok a h') (hq : Q a h') : SpecOrUb m h Q :=
  Or.inr ⟨a, h', e, hq⟩

theorem bind_eq {m : M V α} {f : α → M V β} {h h' : Heap V} {a : α} {Q : β → Heap V → Prop} (e : m h = .ok a h')
    (hf : SpecOrUb (f a) h' Q) : SpecOrUb (m >>= f) h Q :=
  bind (of_eq (Q := fun a' h'' => a' = a ∧ h'' = h') e ⟨rfl, rfl⟩) (by rintro _ _ ⟨rfl, rfl⟩; exact hf)

theorem rd {b i : Nat} {h : Heap V} {Q : V → Heap V → Prop} (hq : ∀ v, h.cell b i = some v → Q v h) :
    SpecOrUb (M.rd b i : M V V) h Q := by
  unfold SpecOrUb M.rd
  cases e : h.cell b i with
  | none => exact Or.inl rfl
  | some v => exact Or.inr ⟨v, h, rfl, hq v e⟩

theorem wr {b i : Nat} {v : V} {h : Heap V} {Q : Unit → Heap V → Prop}
    (hq : ∀ h', (∀ b' k, b' ≠ b → h'.cell b' k = h.cell b' k) → Q () h') : SpecOrUb (M.wr b i v) h Q := by
  unfold SpecOrUb M.wr
  cases e : h.cell b i with
  | none => exact Or.inl rfl
  | some w =>
    refine Or.inr ⟨(), _, rfl, hq _ (fun b' k hb => ?_)⟩
    rw [Heap.cell_setCell e, if_neg (fun q => hb q.1)]

theorem arith {t : IntTy} {v : Int} {h : Heap V} {Q : Int → Heap V → Prop} (hq : ∀ v, Q v h) : SpecOrUb (t.arith v : M V Int) h Q := by
  unfold SpecOrUb IntTy.arith
  split
  · split
    · exact Or.inr ⟨_, h, rfl, hq _⟩
    · exact Or.inl rfl
  · exact Or.inr ⟨_, h, rfl, hq _⟩

/-- Signed arithmetic is exact, or undefined. -/
theorem arithS {t : IntTy} (ht : t.signed = true) {v : Int} {h : Heap V} :
    SpecOrUb (t.arith v : M V Int) h (fun r h' => r = v ∧ h' = h ∧ t.InRange v) := by
  unfold SpecOrUb IntTy.arith
  rw [if_pos ht]
  split
  · next hr => exact Or.inr ⟨_, h, rfl, rfl, rfl, hr⟩
  · exact Or.inl rfl

/-- A computation which is undefined or satisfies something false is undefined. -/
theorem ub {m : M V α} {h : Heap V} {Q : α → Heap V → Prop} (hm : SpecOrUb m h Q) (hn : ∀ a h', ¬Q a h') : m h = .ub := by
  rcases hm with e | ⟨a, h', _, q⟩
  · exact e
  · exact absurd q (hn a h')

end SpecOrUb

end Boof
