import Verif.Cpp.Core
/-
`PackedSet<T>`, boofcv/packed_sets.h.

The blocks are values: `blocks[i]` lists the elements of `blocks[i]` in C++.  Operations map a record to an outcome.
`junk` is the indeterminate content of a freshly allocated block.
-/
namespace Boof

/-- packed_sets.h:14-24 -/
structure PackedSetInfo where
  block : Nat
  offset : Nat
  size : Nat
deriving DecidableEq, Repr

/-- packed_sets.h:38-49; `_number_of_blocks` is `blocks.length`. -/
structure PackedSet (V : Type) where
  blocks : List (List V)
  sizeOfBlock : Nat
  total : Nat
  setInfo : List PackedSetInfo
deriving DecidableEq, Repr

namespace PackedSet
variable {V : Type}

/-- packed_sets.h:51-58 -/
def new (junk : V) (sizeOfBlock : Nat) : PackedSet V :=
  { blocks := [List.replicate sizeOfBlock junk], sizeOfBlock := sizeOfBlock, total := 0, setInfo := [] }

/-- packed_sets.h:60 -/
def newDefault (junk : V) : PackedSet V := new junk 2000

/-- packed_sets.h:74-77 -/
def clear (p : PackedSet V) : Res (PackedSet V) Unit := .ok () { p with setInfo := [], total := 0 }

/-- packed_sets.h:82-90 -/
def startNewSet (p : PackedSet V) : Res (PackedSet V) Unit :=
  if p.sizeOfBlock = 0 then .ub
  else .ok () { p with setInfo := p.setInfo ++
    [{ block := p.total / p.sizeOfBlock, offset := p.total % p.sizeOfBlock, size := 0 }] }

/-- packed_sets.h:95-99 -/
def sizeOfTail (p : PackedSet V) : Nat :=
  match p.setInfo.getLast? with
  | none => 0
  | some s => s.size

/-- `_add_element`, packed_sets.h:118-132 -/
def addElement (junk : V) (e : V) (p : PackedSet V) : Res (PackedSet V) Unit :=
  if p.sizeOfBlock = 0 then .ub
  else
    let block := p.total / p.sizeOfBlock
    let p := if block = p.blocks.length
      then { p with blocks := p.blocks ++ [List.replicate p.sizeOfBlock junk] } else p
    match p.blocks[block]? with
    | none => .ub
    | some row =>
      if p.total % p.sizeOfBlock < row.length then
        .ok () { p with blocks := p.blocks.set block (row.set (p.total % p.sizeOfBlock) e),
                        total := wrap32 (p.total + 1) }
      else .ub

/-- `set_info.back().size++` (packed_sets.h:112); undefined on an empty vector. -/
def bumpTail (p : PackedSet V) : Res (PackedSet V) Unit :=
  match p.setInfo.getLast? with
  | none => .ub
  | some s => .ok () { p with setInfo := p.setInfo.dropLast ++ [{ s with size := wrap32 (s.size + 1) }] }

/-- packed_sets.h:104-113 -/
def pushTail (junk : V) (e : V) (p : PackedSet V) : Res (PackedSet V) Unit :=
  match (if p.setInfo.length = 0 then p.startNewSet else .ok () p) with
  | .ok _ p1 =>
    match p1.addElement junk e with
    | .ok _ p2 => p2.bumpTail
    | r => r
  | r => r

/-- packed_sets.h:137-142 -/
def removeTail (p : PackedSet V) : Res (PackedSet V) Unit :=
  match p.setInfo.getLast? with
  | none => .ok () p
  | some s => .ok () { p with total := sub32 p.total s.size, setInfo := p.setInfo.dropLast }

/-- `blocks[b / _size_of_block][b % _size_of_block]` -/
def cell (p : PackedSet V) (b : Nat) : Option V :=
  if p.sizeOfBlock = 0 then none else (p.blocks[b / p.sizeOfBlock]?).bind (fun r => r[b % p.sizeOfBlock]?)

/-- Store to that place (only meaningful when it exists). -/
def setCell (p : PackedSet V) (b : Nat) (v : V) : PackedSet V :=
  match p.blocks[b / p.sizeOfBlock]? with
  | none => p
  | some r => { p with blocks := p.blocks.set (b / p.sizeOfBlock) (r.set (b % p.sizeOfBlock) v) }

/-- The `uint32_t` expression `set.block*_size_of_block + set.offset + i` -/
def pos (p : PackedSet V) (s : PackedSetInfo) (i : Nat) : Nat := wrap32 (s.block * p.sizeOfBlock + s.offset + i)

/-- packed_sets.h:150-163 -/
def at' (set element : Nat) (p : PackedSet V) : Res (PackedSet V) V :=
  match p.setInfo[set]? with
  | none => .throw p
  | some s =>
    if element ≥ s.size then .throw p
    else match p.cell (p.pos s element) with
      | some v => .ok v p
      | none => .ub

/-- The loop of `load_set` (packed_sets.h:169-172) after `n` iterations; `none` is undefined behaviour. -/
def loadLoop (p : PackedSet V) (s : PackedSetInfo) (out : List V) : Nat → Option (List V)
  | 0 => some out
  | n+1 => (loadLoop p s out n).bind (fun o => (p.cell (p.pos s n)).map (fun v => o ++ [v]))

/-- packed_sets.h:165-173; the value is the output vector afterwards. -/
def loadSet (set : Nat) (out : List V) (p : PackedSet V) : Res (PackedSet V) (List V) :=
  match p.setInfo[set]? with
  | none => .throw p
  | some s => match loadLoop p s out s.size with
    | some o => .ok o p
    | none => .ub

/-- The loop of `write_set` (packed_sets.h:182-185) after `n` iterations. -/
def writeLoop (s : PackedSetInfo) (input : List V) (p : PackedSet V) : Nat → Option (PackedSet V)
  | 0 => some p
  | n+1 => (writeLoop s input p n).bind (fun q =>
      match q.cell (q.pos s n), input[n]? with
      | some _, some v => some (q.setCell (q.pos s n) v)
      | _, _ => none)

/-- packed_sets.h:175-186 -/
def writeSet (set : Nat) (input : List V) (p : PackedSet V) : Res (PackedSet V) Unit :=
  match p.setInfo[set]? with
  | none => .throw p
  | some s =>
    if input.length ≠ s.size then .throw p
    else match writeLoop s input p s.size with
      | some q => .ok () q
      | none => .ub

/-- packed_sets.h:188-190 -/
def numberOfSets (p : PackedSet V) : Nat := wrap32 p.setInfo.length

end PackedSet
end Boof
