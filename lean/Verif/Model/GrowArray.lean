import Verif.Cpp.Core
/-
`GrowArray<T>`, boofcv/base_types.h:65-193.

The array is a value: `data` lists the `array_length` elements of the C++ array (the array's address is not
modelled, so a source pointer that points into the array itself is not covered).  An operation maps a record to an
outcome; the state part of the outcome is the record afterwards, also when it throws.
-/
namespace Boof

/-- base_types.h:69-79.  `array_length` is `data.length`. -/
structure GrowArray (V : Type) where
  data : List V
  size : Nat
  default : V
  canResize : Bool
deriving DecidableEq, Repr

namespace GrowArray
variable {V : Type}

/-- What is known about the element type: `ms v` is the element all of whose bytes are the low byte of `(int)v`
(the effect of `memset` with value `v`); `sz` is `sizeof(T)`; `junk i` is the indeterminate content of element `i`
of an array returned by `new T[n]`. -/
structure Elem (V : Type) where
  ms : V → V
  sz : Nat
  zero : V
  junk : Nat → V

/-- `array_length` -/
def arrayLength (a : GrowArray V) : Nat := a.data.length

/-- Wrapper of foreign memory, base_types.h:81-86 -/
def wrap (E : Elem V) (data : List V) (size : Nat) : GrowArray V :=
  { data := data, size := size, default := E.zero, canResize := false }

/-- `fill`, base_types.h:154-156 (`memset` over `size*sizeof(T)` bytes; beyond the array it is undefined). -/
def fill (E : Elem V) (v : V) (a : GrowArray V) : Res (GrowArray V) Unit :=
  if a.size ≤ a.data.length then
    .ok () { a with data := List.replicate a.size (E.ms v) ++ a.data.drop a.size }
  else .ub

/-- `GrowArray(size)`, base_types.h:88-94 -/
def new (E : Elem V) (size : Nat) : Res (GrowArray V) Unit :=
  fill E E.zero { data := (List.range size).map E.junk, size := size, default := E.zero, canResize := true }

/-- `GrowArray()`, base_types.h:96-98 -/
def newDefault (E : Elem V) : Res (GrowArray V) Unit := new E 10

/-- `GrowArray({...})`, base_types.h:100-109 -/
def ofList (E : Elem V) (l : List V) : GrowArray V :=
  { data := l, size := l.length, default := E.zero, canResize := true }

/-- `grow_array`, base_types.h:123-133.  `memset` receives `new_size` as a byte count, so only the first
`new_size/sizeof(T)` elements are set; the others keep their indeterminate bytes (of a partially set element too). -/
def growArray (E : Elem V) (n : Nat) (a : GrowArray V) : Res (GrowArray V) Unit :=
  if a.canResize = false then .throw a
  else if n > a.arrayLength then
    .ok () { a with data := (List.range n).map (fun i => if i < n / E.sz then E.ms a.default else E.junk i), size := 0 }
  else .ok () { a with size := 0 }

/-- `resize`, base_types.h:139-152 (`memmove` of `size` elements, `memset` of the others). -/
def resize (E : Elem V) (n : Nat) (a : GrowArray V) : Res (GrowArray V) Unit :=
  if a.canResize = false then .throw a
  else if n > a.arrayLength then
    if a.size ≤ a.data.length then
      .ok () { a with data := a.data.take a.size ++ List.replicate (n - a.size) (E.ms a.default), size := n }
    else .ub
  else .ok () { a with size := n }

/-- `at(i)` as an rvalue, base_types.h:158-162 -/
def at' (i : Nat) (a : GrowArray V) : Res (GrowArray V) V :=
  if i ≥ a.size then .throw a
  else match a.data[i]? with
    | some v => .ok v a
    | none => .ub

/-- `at(i) = v`, base_types.h:158-162 -/
def setAt (i : Nat) (v : V) (a : GrowArray V) : Res (GrowArray V) Unit :=
  if i ≥ a.size then .throw a
  else if i < a.data.length then .ok () { a with data := a.data.set i v } else .ub

/-- `operator[]` as an rvalue, base_types.h:164-166 -/
def idx (i : Nat) (a : GrowArray V) : Res (GrowArray V) V :=
  match a.data[i]? with
  | some v => .ok v a
  | none => .ub

/-- `memcpy`/`memmove`/element loop into the first `l.length` elements. -/
def blit (l : List V) (a : GrowArray V) : Res (GrowArray V) Unit :=
  if l.length ≤ a.data.length then .ok () { a with data := l ++ a.data.drop l.length } else .ub

/-- `a = other`, base_types.h:168-177, for two different objects (self assignment does nothing). -/
def assign (E : Elem V) (a other : GrowArray V) : Res (GrowArray V) Unit :=
  match growArray E other.size { a with default := other.default } with
  | .ok _ a1 =>
    if other.size ≤ other.data.length then blit (other.data.take other.size) { a1 with size := other.size } else .ub
  | r => r

/-- `setTo({...})`, base_types.h:179-186 -/
def setTo (E : Elem V) (l : List V) (a : GrowArray V) : Res (GrowArray V) Unit :=
  match resize E l.length a with
  | .ok _ a1 => blit l a1
  | r => r

/-- `set(src,length)`, base_types.h:188-192; `src` is the list of elements at the source pointer. -/
def set (E : Elem V) (src : List V) (length : Nat) (a : GrowArray V) : Res (GrowArray V) Unit :=
  match growArray E length a with
  | .ok _ a1 => if length ≤ src.length then blit (src.take length) { a1 with size := length } else .ub
  | r => r

end GrowArray

/-- The element whose every byte is the low byte of `v`, for an integer type (effect of `memset` with value `v`,
which is converted to `int` and then to `unsigned char`). -/
def memsetInt (t : IntTy) (v : Int) : Int :=
  t.cast (((List.range (t.bits / 8)).map (fun i => (v % 256) * (256 ^ i : Nat))).sum)

/-- The element description of an integer type. -/
def intElem (t : IntTy) (junk : Nat → Int) : GrowArray.Elem Int :=
  { ms := memsetInt t, sz := t.bits / 8, zero := 0, junk := junk }

end Boof
