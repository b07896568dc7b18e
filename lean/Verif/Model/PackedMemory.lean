import Verif.Model.PackedSet
/-
`PackedSet<T>`, boofcv/packed_sets.h, with its arrays in memory: the array of block pointers and the blocks are
allocations, the object is a record of members, and elements are passed and returned by reference.  (`Model/PackedSet`
models the same functions on values; `Props/PackedMemory` relates the two.)  `set_info` is a `std::vector` and stays a value.
-/
namespace Boof

/-- What a cell of an array holds: an element (`T`), or the address of an array (`T*`). -/
inductive Slot (V : Type) where
  | elem (v : V)
  | addr (b : Nat)
deriving DecidableEq, Repr

/-- The members of an object, packed_sets.h:41-49; `blocks` is the address of the pointer array. -/
structure PackedObj where
  blocks : Nat
  count : Nat
  sizeOfBlock : Nat
  total : Nat
  setInfo : List PackedSetInfo
deriving DecidableEq, Repr

/-- An argument of type `const T&`: a temporary, or the place `b[i]` in memory, read when the function reads it. -/
inductive ElemRef (V : Type) where
  | value (v : V)
  | place (b i : Nat)
deriving DecidableEq, Repr

variable {V : Type}

/-- Read an element. -/
def rdElem (b i : Nat) : M (Slot V) V := do
  match ← M.rd b i with
  | .elem v => pure v
  | .addr _ => M.ub

/-- Read a pointer; using a cell which holds none is undefined. -/
def rdAddr (b i : Nat) : M (Slot V) Nat := do
  match ← M.rd b i with
  | .addr a => pure a
  | .elem _ => M.ub

/-- The value of a reference. -/
def ElemRef.read : ElemRef V → M (Slot V) V
  | .value v => pure v
  | .place b i => rdElem b i

namespace PackedObj

/-- packed_sets.h:51-58; `junk` is the indeterminate content of a fresh array. -/
def new (junk : V) (sizeOfBlock : Nat) : M (Slot V) PackedObj := do
  let b ← M.newArr 1 (.elem junk)
  M.loop 1 (fun i => do
    let a ← M.newArr sizeOfBlock (.elem junk)
    M.wr b i (.addr a))
  pure { blocks := b, count := 1, sizeOfBlock := sizeOfBlock, total := 0, setInfo := [] }

/-- packed_sets.h:62-72 (the members' last values are not kept: the object is gone). -/
def destroy (o : PackedObj) : M (Slot V) Unit := do
  M.loop o.count (fun i => do
    let a ← rdAddr o.blocks i
    M.delArr a)
  M.delArr o.blocks

/-- The implicit copy constructor: member by member. -/
def copyConstruct (o : PackedObj) : PackedObj := o

/-- packed_sets.h:74-77 -/
def clear (o : PackedObj) : M (Slot V) PackedObj := pure { o with setInfo := [], total := 0 }

/-- packed_sets.h:82-90 -/
def startNewSet (o : PackedObj) : M (Slot V) PackedObj :=
  if o.sizeOfBlock = 0 then M.ub
  else pure { o with setInfo := o.setInfo ++
    [{ block := o.total / o.sizeOfBlock, offset := o.total % o.sizeOfBlock, size := 0 }] }

/-- packed_sets.h:95-99 -/
def sizeOfTail (o : PackedObj) : Nat :=
  match o.setInfo.getLast? with
  | none => 0
  | some s => s.size

/-- The growth of the pointer array in `_add_element`, packed_sets.h:120-129. -/
def addBlock (junk : V) (block : Nat) (o : PackedObj) : M (Slot V) PackedObj := do
  let tmp ← M.newArr (wrap32 (block + 1)) (.elem junk)
  M.loop o.count (fun i => do
    let a ← M.rd o.blocks i
    M.wr tmp i a)
  let a ← M.newArr o.sizeOfBlock (.elem junk)
  M.wr tmp o.count (.addr a)
  M.delArr o.blocks
  pure { o with blocks := tmp, count := wrap32 (o.count + 1) }

/-- `_add_element`, packed_sets.h:118-132; the reference is read by the assignment in line 130, after the growth. -/
def addElement (junk : V) (e : ElemRef V) (o : PackedObj) : M (Slot V) PackedObj :=
  if o.sizeOfBlock = 0 then M.ub
  else do
    let block := o.total / o.sizeOfBlock
    let o ← (if block = o.count then addBlock junk block o else pure o)
    let a ← rdAddr o.blocks block
    let v ← e.read
    M.wr a (o.total % o.sizeOfBlock) (.elem v)
    pure { o with total := wrap32 (o.total + 1) }

/-- packed_sets.h:104-113 -/
def pushTail (junk : V) (e : ElemRef V) (o : PackedObj) : M (Slot V) PackedObj := do
  let o ← (if o.setInfo.length = 0 then o.startNewSet else pure o)
  let o ← o.addElement junk e
  match o.setInfo.getLast? with
  | none => M.ub
  | some s => pure { o with setInfo := o.setInfo.dropLast ++ [{ s with size := wrap32 (s.size + 1) }] }

/-- packed_sets.h:137-142 -/
def removeTail (o : PackedObj) : M (Slot V) PackedObj :=
  match o.setInfo.getLast? with
  | none => pure o
  | some s => pure { o with total := sub32 o.total s.size, setInfo := o.setInfo.dropLast }

/-- The place `blocks[b / _size_of_block][b % _size_of_block]`, for `b = set.block*_size_of_block + set.offset + i`. -/
def place (o : PackedObj) (s : PackedSetInfo) (i : Nat) : M (Slot V) (Nat × Nat) :=
  if o.sizeOfBlock = 0 then M.ub
  else do
    let b := wrap32 (s.block * o.sizeOfBlock + s.offset + i)
    let a ← rdAddr o.blocks (b / o.sizeOfBlock)
    pure (a, b % o.sizeOfBlock)

/-- `at`, packed_sets.h:150-163: the place the returned reference stands for. -/
def at' (set element : Nat) (o : PackedObj) : M (Slot V) (Nat × Nat) :=
  match o.setInfo[set]? with
  | none => M.throw
  | some s => if element ≥ s.size then M.throw else o.place s element

/-- packed_sets.h:165-173; the value is the output vector afterwards. -/
def loadSet (set : Nat) (out : List V) (o : PackedObj) : M (Slot V) (List V) :=
  match o.setInfo[set]? with
  | none => M.throw
  | some s => M.loopS s.size out (fun i out => do
      let (a, j) ← o.place s i
      let v ← rdElem a j
      pure (out ++ [v]))

/-- packed_sets.h:175-186 -/
def writeSet (set : Nat) (input : List V) (o : PackedObj) : M (Slot V) PackedObj :=
  match o.setInfo[set]? with
  | none => M.throw
  | some s =>
    if input.length ≠ s.size then M.throw
    else do
      M.loop s.size (fun i => do
        let (a, j) ← o.place s i
        match input[i]? with
        | some v => M.wr a j (.elem v)
        | none => M.ub)
      pure o

end PackedObj
end Boof
