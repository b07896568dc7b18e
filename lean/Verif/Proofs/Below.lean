import Verif.Cpp.Logic
/-
Computations which do the same as others, or are undefined.
-/
namespace Boof
variable {V α β : Type}

/-- `m` is undefined wherever it differs from `m'`. -/
def Below (m m' : M V α) : Prop := ∀ h, m h = .ub ∨ m h = m' h

namespace Below

theorem refl (m : M V α) : Below m m := fun _ => Or.inr rfl

theorem bind {m m' : M V α} {f f' : α → M V β} (hm : Below m m') (hf : ∀ a, Below (f a) (f' a)) :
    Below (m >>= f) (m' >>= f') := fun h => by
  rcases hm h with e | e
  · exact Or.inl (M.bind_ub e)
  · have q : (m' >>= f') h = M.bind m' f' h := rfl
    have q1 : (m >>= f) h = M.bind m f h := rfl
    rw [q, q1]
    unfold M.bind
    rw [e]
    cases m' h with
    | ok a h1 => exact hf a h1
    | throw s => exact Or.inr rfl
    | ub => exact Or.inr rfl
    | timeout => exact Or.inr rfl

theorem loopS {n : Nat} {init : β} {body body' : Nat → β → M V β} (hb : ∀ i s, Below (body i s) (body' i s)) :
    Below (M.loopS n init body) (M.loopS n init body') := by
  induction n with
  | zero => exact refl _
  | succ n ih => exact bind ih (fun s => hb n s)

theorem loop {n : Nat} {body body' : Nat → M V Unit} (hb : ∀ i, Below (body i) (body' i)) :
    Below (M.loop n body) (M.loop n body') := loopS (fun i _ => hb i)

theorem ite {c : Prop} [Decidable c] {m1 m1' m2 m2' : M V α} (h1 : Below m1 m1') (h2 : Below m2 m2') :
    Below (if c then m1 else m2) (if c then m1' else m2') := by
  split
  · exact h1
  · exact h2

/-- A computation that never ends normally is below one that begins in the same way. -/
theorem of_ub {m : M V α} {f f' : α → M V β} (hf : ∀ a h, f a h = .ub) : Below (m >>= f) (m >>= f') :=
  bind (refl m) (fun a h => Or.inl (hf a h))

end Below
end Boof
