import Verif.Model.GrowArray
/-
`GrowArray<T>`, boofcv/base_types.h:65-193, with its array in memory.  (`Model/GrowArray` models the same functions on
values; `Props/ArrayMemory` relates the two.)
-/
namespace Boof

/-- The members, base_types.h:69-79; `data` is the address of the array (always of its first element). -/
structure ArrObj (V : Type) where
  data : Nat
  size : Nat
  arrayLength : Nat
  default : V
  canResize : Bool
deriving DecidableEq, Repr

variable {V : Type}

/-- `new T[n]`: the elements are indeterminate. -/
def newJunk (E : GrowArray.Elem V) (n : Nat) : M V Nat := fun h => .ok h.next (h.alloc ((List.range n).map E.junk))

/-- Read `n` elements from `b[i]` on. -/
def readSpan (b i n : Nat) : M V (List V) := M.loopS n [] (fun k l => do pure (l ++ [← M.rd b (i + k)]))

/-- Store the elements `l` from `b[0]` on. -/
def writeSpan (b : Nat) (l : List V) : M V Unit := M.loop l.length (fun k =>
  match l[k]? with
  | some v => M.wr b k v
  | none => M.ub)

/-- `memmove(b, s+i, n*sizeof(T))`: as if all were read before anything is written. -/
def memMove (b s i n : Nat) : M V Unit := do
  let l ← readSpan s i n
  writeSpan b l

/-- `memcpy(b, s, n*sizeof(T))`: undefined when the two regions overlap. -/
def memCopy (b s n : Nat) : M V Unit :=
  if b = s ∧ 0 < n then M.ub else memMove b s 0 n

namespace ArrObj

/-- base_types.h:154-156 -/
def fill (E : GrowArray.Elem V) (v : V) (a : ArrObj V) : M V Unit :=
  M.loop a.size (fun i => M.wr a.data i (E.ms v))

/-- base_types.h:88-94 -/
def new (E : GrowArray.Elem V) (size : Nat) : M V (ArrObj V) := do
  let d ← newJunk E size
  let a : ArrObj V := { data := d, size := size, arrayLength := size, default := E.zero, canResize := true }
  a.fill E a.default
  pure a

/-- base_types.h:100-109 -/
def ofList (E : GrowArray.Elem V) (l : List V) : M V (ArrObj V) := do
  let d ← newJunk E l.length
  writeSpan d l
  pure { data := d, size := l.length, arrayLength := l.length, default := E.zero, canResize := true }

/-- base_types.h:81-86 -/
def wrap (E : GrowArray.Elem V) (data arrayLength size : Nat) : ArrObj V :=
  { data := data, size := size, arrayLength := arrayLength, default := E.zero, canResize := false }

/-- base_types.h:111-117 -/
def destroy (a : ArrObj V) : M V Unit :=
  if a.canResize = false then pure () else M.delArr a.data

/-- The implicit copy constructor: member by member. -/
def copyConstruct (a : ArrObj V) : ArrObj V := a

/-- base_types.h:123-133 -/
def growArray (E : GrowArray.Elem V) (n : Nat) (a : ArrObj V) : M V (ArrObj V) :=
  if a.canResize = false then M.throw
  else if n > a.arrayLength then do
    M.delArr a.data
    let d ← newJunk E n
    M.loop (n / E.sz) (fun i => M.wr d i (E.ms a.default))
    pure { a with data := d, arrayLength := n, size := 0 }
  else pure { a with size := 0 }

/-- base_types.h:139-152 -/
def resize (E : GrowArray.Elem V) (n : Nat) (a : ArrObj V) : M V (ArrObj V) :=
  if a.canResize = false then M.throw
  else if n > a.arrayLength then do
    let tmp ← newJunk E n
    memMove tmp a.data 0 a.size
    M.loop (n - a.size) (fun i => M.wr tmp (a.size + i) (E.ms a.default))
    M.delArr a.data
    pure { a with data := tmp, arrayLength := n, size := n }
  else pure { a with size := n }

/-- `at(i)`: the place the returned reference stands for, base_types.h:158-162 -/
def at' (i : Nat) (a : ArrObj V) : M V (Nat × Nat) :=
  if i ≥ a.size then M.throw else pure (a.data, i)

/-- `at(i) = v` -/
def setAt (i : Nat) (v : V) (a : ArrObj V) : M V Unit := do
  let r ← a.at' i
  M.wr r.1 r.2 v

/-- `a = other`, base_types.h:168-177, for two different objects (when `grow_array` throws, the default value has been
replaced already; the members after a throw are not given here). -/
def assign (E : GrowArray.Elem V) (a other : ArrObj V) : M V (ArrObj V) := do
  let a ← growArray E other.size { a with default := other.default }
  let a := { a with size := other.size }
  memCopy a.data other.data other.size
  pure a

/-- base_types.h:179-186 -/
def setTo (E : GrowArray.Elem V) (l : List V) (a : ArrObj V) : M V (ArrObj V) := do
  let a ← a.resize E l.length
  writeSpan a.data l
  pure a

/-- `set(src,length)`, base_types.h:188-192, where `src` points to the element `s[i]`. -/
def set (E : GrowArray.Elem V) (s i length : Nat) (a : ArrObj V) : M V (ArrObj V) := do
  let a ← a.growArray E length
  let a := { a with size := length }
  memMove a.data s i length
  pure a

/-- `return k;` for a local array (or a kernel, whose only memory is its array), base_types.h:65 and
convolve_kernels.h:228-234: when the compiler elides the copy the caller's object is the local one; otherwise it is
copy-constructed (the class has no move constructor) and the local one destroyed. -/
def returned (elide : Bool) (a : ArrObj V) : M V (ArrObj V) :=
  if elide then pure a
  else do
    let r := a.copyConstruct
    a.destroy
    pure r

/-- The array of `FactoryKernel::table1D(width)`, convolve_kernels.h:227-234: the member `data` is made with 10
elements, `KernelBase(width,width/2)` (38-43) throws for an empty kernel (which destroys the member), `Kernel1D` resizes it,
the loop stores the ones, and the kernel is returned by value. -/
def table (E : GrowArray.Elem V) (one : V) (width : Nat) (elide : Bool) : M V (ArrObj V) := do
  let a ← new E 10
  if width / 2 ≥ width then do
    a.destroy
    M.throw
  else do
    let a ← a.resize E width
    M.loop width (fun i => M.wr a.data i one)
    a.returned elide

end ArrObj
end Boof
