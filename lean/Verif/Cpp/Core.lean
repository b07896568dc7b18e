/-
Outcome monad, heap, machine integers and loops: the semantics of the C++ subset the library uses.

Nothing in this file models a function of the library; it models the language.
-/
namespace Boof

/-- Outcome of running a piece of C++ on a heap `s`.
* `ok a s`   normal completion with value `a` and final heap `s`;
* `throw s`  a C++ exception left the function, with the heap as it was at that moment
             (which exception class is thrown is not distinguished);
* `ub`       undefined behaviour was reached;
* `timeout`  the fuel given to an unbounded loop was exhausted. -/
inductive Res (σ : Type) (α : Type) where
  | ok (a : α) (s : σ)
  | throw (s : σ)
  | ub
  | timeout
deriving DecidableEq, Repr

/-- The heap: allocation number `b` is `bufs[b]`; `none` after `delete[]`. -/
structure Heap (V : Type) where
  bufs : List (Option (List V))
deriving DecidableEq, Repr

namespace Heap
variable {V : Type}

/-- Contents of the live array `b`. -/
def get (h : Heap V) (b : Nat) : Option (List V) := (h.bufs[b]?).join

/-- The cell `b[i]`, `none` when it is outside every live array. -/
def cell (h : Heap V) (b i : Nat) : Option V := (h.get b).bind (fun l => l[i]?)

/-- Store to a cell (only meaningful when the cell exists). -/
def setCell (h : Heap V) (b i : Nat) (v : V) : Heap V :=
  match h.get b with
  | some l => ⟨h.bufs.set b (some (l.set i v))⟩
  | none => h

/-- `new T[n]` with the given initial contents. -/
def alloc (h : Heap V) (l : List V) : Heap V := ⟨h.bufs ++ [some l]⟩

/-- The id `alloc` uses. -/
def next (h : Heap V) : Nat := h.bufs.length

/-- `delete[]`. -/
def free (h : Heap V) (b : Nat) : Heap V := ⟨h.bufs.set b none⟩

end Heap

/-- Programs over a heap with cells of type `V`. -/
def M (V : Type) (α : Type) : Type := Heap V → Res (Heap V) α

namespace M
variable {V α β : Type}

protected def pure (a : α) : M V α := fun h => .ok a h

protected def bind (m : M V α) (f : α → M V β) : M V β := fun h =>
  match m h with
  | .ok a h' => f a h'
  | .throw h' => .throw h'
  | .ub => .ub
  | .timeout => .timeout

instance : Monad (M V) where
  pure := M.pure
  bind := M.bind

/-- Undefined behaviour. -/
def ub : M V α := fun _ => .ub
/-- `throw`. -/
protected def throw : M V α := fun h => .throw h
/-- Fuel exhausted. -/
def timeout : M V α := fun _ => .timeout

/-- Read `b[i]`. -/
def rd (b i : Nat) : M V V := fun h =>
  match h.cell b i with
  | some v => .ok v h
  | none => .ub

/-- Write `b[i] = v`. -/
def wr (b i : Nat) (v : V) : M V Unit := fun h =>
  match h.cell b i with
  | some _ => .ok () (h.setCell b i v)
  | none => .ub

/-- `new T[n]()` with every element `z`. -/
def newArr (n : Nat) (z : V) : M V Nat := fun h => .ok h.next (h.alloc (List.replicate n z))

/-- `delete[] b`; deleting an array that is not live is undefined behaviour. -/
def delArr (b : Nat) : M V Unit := fun h =>
  match h.get b with
  | some _ => .ok () (h.free b)
  | none => .ub

/-- `if (c) throw ...` -/
def throwIf (c : Bool) : M V Unit := if c then M.throw else M.pure ()

/-- Counted loop carrying a local state: `for i in [0,n) { s = body(i,s) }`. -/
def loopS : (n : Nat) → (init : β) → (body : Nat → β → M V β) → M V β
  | 0, init, _ => M.pure init
  | n+1, init, body => M.bind (loopS n init body) (fun s => body n s)

/-- Counted loop: `for i in [0,n) { body(i) }`. -/
def loop (n : Nat) (body : Nat → M V Unit) : M V Unit :=
  loopS n () (fun i _ => body i)

/-- `for (i = lo; i < hi; i++) body(i)` where `i` is not modified by the body. -/
def forRange (lo hi : Nat) (body : Nat → M V Unit) : M V Unit :=
  loop (hi - lo) (fun k => body (lo + k))

end M

/-! ### Machine integers -/

/-- 2^32 -/
abbrev P32 : Nat := 4294967296

/-- Value of a `uint32_t` expression built from `+` and `*`, given its exact value. -/
def wrap32 (n : Nat) : Nat := n % P32

/-- `uint32_t` subtraction. -/
def sub32 (a b : Nat) : Nat := (a + (P32 - b % P32)) % P32

/-- Conversion `int` → `uint32_t`. -/
def toU32 (v : Int) : Nat := (v % (P32 : Int)).toNat

/-- Conversion `uint32_t` → `int32_t` (two's complement). -/
def toS32 (n : Nat) : Int :=
  let m := n % P32
  if m < 2147483648 then (m : Int) else (m : Int) - (P32 : Int)

/-- Integral element types. -/
structure IntTy where
  bits : Nat
  signed : Bool
deriving DecidableEq, Repr

namespace IntTy
/-- `std::numeric_limits<T>::min()` -/
def lo (t : IntTy) : Int := if t.signed then -(2 ^ (t.bits - 1) : Nat) else 0
/-- `std::numeric_limits<T>::max()` -/
def hi (t : IntTy) : Int :=
  if t.signed then (2 ^ (t.bits - 1) : Nat) - 1 else (2 ^ t.bits : Nat) - 1
/-- Representable in the type. -/
def InRange (t : IntTy) (v : Int) : Prop := t.lo ≤ v ∧ v ≤ t.hi
instance (t : IntTy) (v : Int) : Decidable (t.InRange v) := inferInstanceAs (Decidable (_ ∧ _))
/-- Conversion to the type (modular, as all supported compilers do). -/
def cast (t : IntTy) (v : Int) : Int :=
  let m := v % ((2 ^ t.bits : Nat) : Int)
  if t.signed = true ∧ ((2 ^ (t.bits - 1) : Nat) : Int) ≤ m then m - ((2 ^ t.bits : Nat) : Int) else m

/-- Result of an arithmetic operation performed in the type, given its exact value:
unsigned types wrap, signed overflow is undefined behaviour. -/
def arith {V : Type} (t : IntTy) (v : Int) : M V Int :=
  if t.signed then (if t.InRange v then M.pure v else M.ub) else M.pure (t.cast v)

end IntTy

/-- base_types.h:12-16 -/
def U8 : IntTy := ⟨8, false⟩
def U16 : IntTy := ⟨16, false⟩
def S16 : IntTy := ⟨16, true⟩
def S32 : IntTy := ⟨32, true⟩
def U32 : IntTy := ⟨32, false⟩
def S64 : IntTy := ⟨64, true⟩

/-- `TypeInfo<T>::sum_type`, base_types.h:25-49 (integral types). -/
def IntTy.sumType (t : IntTy) : IntTy :=
  if t = U8 ∨ t = U16 then U32 else if t = S16 ∨ t = S32 then S32 else t

/-- `TypeInfo<T>::signed_type`, base_types.h:25-49 (integral types). -/
def IntTy.signedType (t : IntTy) : IntTy := if t = S64 then S64 else S32

/-- Type in which arithmetic on values of integer type `t` is done (integral promotion). -/
def IntTy.promote (t : IntTy) : IntTy := if t = S64 ∨ t = U32 then t else S32

end Boof
