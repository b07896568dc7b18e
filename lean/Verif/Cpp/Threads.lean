import Verif.Cpp.Core
/-
Threads: programs given by their single accesses to memory, and what happens when several of them run at the same time on one
memory.  Like `Cpp/Core` this models the language, not the library.  The accesses of different threads are interleaved in any
way.  A C++ program without data races behaves like this (sequential consistency for programs without races), and with a data race
it is undefined, so that `Race` has to be excluded along with the interleavings.

Programs here do not allocate or release arrays.
-/
namespace Boof

/-- A program as a tree of accesses: what it does next may depend on what it has read. -/
inductive Accesses (V α : Type) where
  /-- it has returned `a` -/
  | done (a : α)
  /-- an exception has left it -/
  | throw
  /-- undefined behaviour -/
  | ub
  /-- it goes on for ever -/
  | timeout
  /-- reads cell `i` of array `b`, and goes on with the value read -/
  | rd (b i : Nat) (k : V → Accesses V α)
  /-- writes `v` to cell `i` of array `b` -/
  | wr (b i : Nat) (v : V) (k : Accesses V α)

namespace Accesses
variable {V α β ι : Type}

/-- The program run alone. -/
def run : Accesses V α → M V α
  | done a => M.pure a
  | throw => M.throw
  | ub => M.ub
  | timeout => M.timeout
  | rd b i k => M.bind (M.rd b i) (fun v => (k v).run)
  | wr b i v k => M.bind (M.wr b i v) (fun _ => k.run)

/-- One access; nothing if it is undefined.  Programs which have ended stay as they are. -/
def step : Accesses V α → Heap V → Option (Accesses V α × Heap V)
  | done a, h => some (done a, h)
  | throw, h => some (throw, h)
  | timeout, h => some (timeout, h)
  | ub, _ => none
  | rd b i k, h => (h.cell b i).map (fun v => (k v, h))
  | wr b i v k, h => (h.cell b i).map (fun _ => (k, h.setCell b i v))

/-- The access the program makes next: array, index and whether it is a write. -/
def next : Accesses V α → Option (Nat × Nat × Bool)
  | rd b i _ => some (b, i, false)
  | wr b i _ _ => some (b, i, true)
  | _ => none

/-- All arrays the program can ever write are in `W`. -/
def WritesIn (W : Nat → Prop) : Accesses V α → Prop
  | rd _ _ k => ∀ v, (k v).WritesIn W
  | wr b _ _ k => W b ∧ k.WritesIn W
  | _ => True

/-- All arrays the program can ever read are in `R`. -/
def ReadsIn (R : Nat → Prop) : Accesses V α → Prop
  | rd b _ k => R b ∧ ∀ v, (k v).ReadsIn R
  | wr _ _ _ k => k.ReadsIn R
  | _ => True

/-- All cells the program can ever read are in `R`, those it can write in `W`, and what it returns is in `P`. -/
def Touches (R W : Nat → Nat → Prop) (P : α → Prop) : Accesses V α → Prop
  | rd b i k => R b i ∧ ∀ v, (k v).Touches R W P
  | wr b i _ k => W b i ∧ k.Touches R W P
  | done a => P a
  | _ => True

/-- When the program runs alone in the memory, all cells it reads are in `R`, those it writes in `W`, and what it returns is in `P`. -/
def On (R W : Nat → Nat → Prop) (P : α → Prop) : Accesses V α → Heap V → Prop
  | rd b i k, h => R b i ∧ ∀ v, h.cell b i = some v → (k v).On R W P h
  | wr b i v k, h => W b i ∧ k.On R W P (h.setCell b i v)
  | done a, _ => P a
  | _, _ => True

/-- `f` after `p`. -/
def bind : Accesses V α → (α → Accesses V β) → Accesses V β
  | done a, f => f a
  | throw, _ => throw
  | ub, _ => ub
  | timeout, _ => timeout
  | rd b i k, f => rd b i (fun v => (k v).bind f)
  | wr b i v k, f => wr b i v (k.bind f)

end Accesses

variable {V α ι : Type}

/-- Thread `i` runs `p i`.  A schedule is the list of the threads which make the next access. -/
def schedule [DecidableEq ι] : List ι → (ι → Accesses V α) → Heap V → Option ((ι → Accesses V α) × Heap V)
  | [], p, h => some (p, h)
  | i :: s, p, h =>
    match (p i).step h with
    | none => none
    | some (q, h') => schedule s (fun j => if j = i then q else p j) h'

/-- A data race: two threads are about to access the same cell, and at least one of them is going to write it. -/
def Race (p : ι → Accesses V α) : Prop :=
  ∃ i j, i ≠ j ∧ ∃ b k w w', (p i).next = some (b, k, w) ∧ (p j).next = some (b, k, w') ∧ (w = true ∨ w' = true)

end Boof
