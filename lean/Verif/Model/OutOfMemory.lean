import Verif.Model.Image
import Verif.Model.ArrayMemory
import Verif.Model.PackedMemory
/-
The functions which allocate, when memory may run out: each takes, for every `new` it may reach, whether there is memory
left.  When there is not, `std::bad_alloc` leaves the function at that point.  (The other models take every `new` to
succeed; `C116_enough` relates the two.)
-/
namespace Boof
open M
variable {V : Type}

/-- How a function is left: it returns, or `std::bad_alloc` leaves it; in both cases with the object as it is then. -/
inductive Left (α : Type) where
  | done (a : α)
  | failed (a : α)
deriving DecidableEq, Repr

/-- What follows a call which may fail: it is skipped when the call fails. -/
def Left.next {α β : Type} (r : Left α) (undone : α → β) (f : α → M V (Left β)) : M V (Left β) :=
  match r with
  | .done a => f a
  | .failed a => pure (.failed (undone a))

namespace Gray

/-- `Gray(width,height)`, image_types.h:87-95; `none` when line 90 fails: there is no object then. -/
def newOom (mem : Bool) (z : V) (width height : Nat) : M V (Option Gray) :=
  if mem then do
    let g ← Gray.new z width height
    pure (some g)
  else pure none

/-- `reshape`, image_types.h:150-166.  Line 159 has released the array when line 160 fails; no member has changed. -/
def reshapeOom (mem : Bool) (z : V) (g : Gray) (width height : Nat) : M V (Left Gray) :=
  if g.width = width ∧ g.height = height then pure (.done g)
  else if g.subimage then M.throw
  else do
    let desired := wrap32 (width * height)
    if desired > g.dataLength then do
      delArr g.buf
      if mem then do
        let b ← newArr desired z
        pure (.done { g with buf := b, dataLength := desired, width := width, height := height, stride := width })
      else pure (.failed g)
    else
      pure (.done { g with width := width, height := height, stride := width })

/-- `copy`, image_types.h:178-188 -/
def copyOom (mem : Bool) (z : V) (g src : Gray) : M V (Left Gray) := do
  let r ← (if g.subimage ∧ (g.width ≠ src.width ∨ g.height ≠ src.height) then M.throw
           else g.reshapeOom mem z src.width src.height)
  r.next id (fun g => do
    loop g.height (fun y =>
      memcpy g.buf (wrap32 (g.offset + y * g.stride)) src.buf (wrap32 (src.offset + y * src.stride)) src.width)
    pure (.done g))

end Gray

namespace Interleaved

/-- The shared part of `reshape/3`, `reshape/2` and `setNumberOfBands`, image_types.h:386-394, 409-414 and 437-445: the array
is released before the new one is made. -/
def ensureOom (mem : Bool) (z : V) (g : Interleaved) (len : Nat) : M V (Left Interleaved) :=
  if len > g.dataLength then do
    delArr g.buf
    if mem then do
      let b ← newArr len z
      pure (.done { g with buf := b, dataLength := len })
    else pure (.failed g)
  else pure (.done g)

/-- `reshape(width,height,bands)`, image_types.h:379-400 -/
def reshape3Oom (mem : Bool) (z : V) (g : Interleaved) (width height bands : Nat) : M V (Left Interleaved) :=
  if g.width = width ∧ g.height = height ∧ g.numBands = bands then pure (.done g)
  else if g.subimage then M.throw
  else do
    let r ← g.ensureOom mem z (wrap32 (width * height * bands))
    r.next id (fun g =>
      pure (.done { g with width := width, height := height, numBands := bands, stride := wrap32 (width * bands) }))

/-- `reshape(width,height)`, image_types.h:402-418 -/
def reshapeOom (mem : Bool) (z : V) (g : Interleaved) (width height : Nat) : M V (Left Interleaved) :=
  if g.width = width ∧ g.height = height then pure (.done g)
  else if g.subimage then M.throw
  else do
    let r ← g.ensureOom mem z (wrap32 (width * height * g.numBands))
    r.next id (fun g =>
      pure (.done { g with width := width, height := height, stride := wrap32 (width * g.numBands) }))

/-- image_types.h:430-448 -/
def setNumberOfBandsOom (mem : Bool) (z : V) (g : Interleaved) (desired : Nat) : M V (Left Interleaved) :=
  if g.numBands = desired then pure (.done g)
  else if g.subimage then M.throw
  else do
    let r ← g.ensureOom mem z (wrap32 (g.width * g.height * desired))
    r.next id (fun g => pure (.done { g with numBands := desired, stride := wrap32 (g.width * desired) }))

end Interleaved

namespace ArrObj

/-- base_types.h:88-94; no object when line 89 fails. -/
def newOom (mem : Bool) (E : GrowArray.Elem V) (size : Nat) : M V (Option (ArrObj V)) :=
  if mem then do
    let a ← ArrObj.new E size
    pure (some a)
  else pure none

/-- base_types.h:100-109; no object when line 103 fails. -/
def ofListOom (mem : Bool) (E : GrowArray.Elem V) (l : List V) : M V (Option (ArrObj V)) :=
  if mem then do
    let a ← ArrObj.ofList E l
    pure (some a)
  else pure none

/-- base_types.h:123-133: line 127 has released the array when line 128 fails; no member has changed. -/
def growArrayOom (mem : Bool) (E : GrowArray.Elem V) (n : Nat) (a : ArrObj V) : M V (Left (ArrObj V)) :=
  if a.canResize = false then M.throw
  else if n > a.arrayLength then do
    M.delArr a.data
    if mem then do
      let d ← newJunk E n
      M.loop (n / E.sz) (fun i => M.wr d i (E.ms a.default))
      pure (.done { a with data := d, arrayLength := n, size := 0 })
    else pure (.failed a)
  else pure (.done { a with size := 0 })

/-- base_types.h:139-152: line 144 allocates before anything is changed. -/
def resizeOom (mem : Bool) (E : GrowArray.Elem V) (n : Nat) (a : ArrObj V) : M V (Left (ArrObj V)) :=
  if a.canResize = false then M.throw
  else if n > a.arrayLength then
    if mem then do
      let tmp ← newJunk E n
      memMove tmp a.data 0 a.size
      M.loop (n - a.size) (fun i => M.wr tmp (a.size + i) (E.ms a.default))
      M.delArr a.data
      pure (.done { a with data := tmp, arrayLength := n, size := n })
    else pure (.failed a)
  else pure (.done { a with size := n })

/-- base_types.h:168-177 for two different objects: the default value is replaced first. -/
def assignOom (mem : Bool) (E : GrowArray.Elem V) (a other : ArrObj V) : M V (Left (ArrObj V)) := do
  let r ← growArrayOom mem E other.size { a with default := other.default }
  r.next id (fun a => do
    let a := { a with size := other.size }
    memCopy a.data other.data other.size
    pure (.done a))

/-- base_types.h:179-186 -/
def setToOom (mem : Bool) (E : GrowArray.Elem V) (l : List V) (a : ArrObj V) : M V (Left (ArrObj V)) := do
  let r ← a.resizeOom mem E l.length
  r.next id (fun a => do
    writeSpan a.data l
    pure (.done a))

/-- base_types.h:188-192 -/
def setOom (mem : Bool) (E : GrowArray.Elem V) (s i length : Nat) (a : ArrObj V) : M V (Left (ArrObj V)) := do
  let r ← a.growArrayOom mem E length
  r.next id (fun a => do
    let a := { a with size := length }
    memMove a.data s i length
    pure (.done a))

end ArrObj

/-- Where there is memory left in a call on a packed set: for the vector of sets, the array of block pointers, and the
block. -/
structure Supply where
  info : Bool
  ptrs : Bool
  block : Bool
deriving DecidableEq, Repr

/-- Memory for everything. -/
def Supply.full : Supply := ⟨true, true, true⟩

namespace PackedObj

/-- packed_sets.h:51-58.  When line 56 fails there is no object, and nobody releases the array made in line 54. -/
def newOom (s : Supply) (junk : V) (sizeOfBlock : Nat) : M (Slot V) (Option PackedObj) :=
  if s.ptrs then do
    let b ← M.newArr 1 (.elem junk)
    if s.block then do
      M.loop 1 (fun i => do
        let a ← M.newArr sizeOfBlock (.elem junk)
        M.wr b i (.addr a))
      pure (some { blocks := b, count := 1, sizeOfBlock := sizeOfBlock, total := 0, setInfo := [] })
    else pure none
  else pure none

/-- packed_sets.h:82-90; a failing `push_back` (line 89) has no effect. -/
def startNewSetOom (s : Supply) (o : PackedObj) : M (Slot V) (Left PackedObj) :=
  if o.sizeOfBlock = 0 then M.ub
  else if s.info then
    pure (.done { o with setInfo := o.setInfo ++
      [{ block := o.total / o.sizeOfBlock, offset := o.total % o.sizeOfBlock, size := 0 }] })
  else pure (.failed o)

/-- packed_sets.h:120-129.  When line 125 fails nobody releases the array made in line 121. -/
def addBlockOom (s : Supply) (junk : V) (block : Nat) (o : PackedObj) : M (Slot V) (Left PackedObj) :=
  if s.ptrs then do
    let tmp ← M.newArr (wrap32 (block + 1)) (.elem junk)
    M.loop o.count (fun i => do
      let a ← M.rd o.blocks i
      M.wr tmp i a)
    if s.block then do
      let a ← M.newArr o.sizeOfBlock (.elem junk)
      M.wr tmp o.count (.addr a)
      M.delArr o.blocks
      pure (.done { o with blocks := tmp, count := wrap32 (o.count + 1) })
    else pure (.failed o)
  else pure (.failed o)

/-- `_add_element`, packed_sets.h:118-132 -/
def addElementOom (s : Supply) (junk : V) (e : ElemRef V) (o : PackedObj) : M (Slot V) (Left PackedObj) :=
  if o.sizeOfBlock = 0 then M.ub
  else do
    let block := o.total / o.sizeOfBlock
    let r ← (if block = o.count then addBlockOom s junk block o else pure (.done o))
    r.next id (fun o => do
      let a ← rdAddr o.blocks block
      let v ← e.read
      M.wr a (o.total % o.sizeOfBlock) (.elem v)
      pure (.done { o with total := wrap32 (o.total + 1) }))

/-- packed_sets.h:104-113 -/
def pushTailOom (s : Supply) (junk : V) (e : ElemRef V) (o : PackedObj) : M (Slot V) (Left PackedObj) := do
  let r ← (if o.setInfo.length = 0 then o.startNewSetOom s else pure (.done o))
  r.next id (fun o => do
    let r ← o.addElementOom s junk e
    r.next id (fun o =>
      match o.setInfo.getLast? with
      | none => M.ub
      | some s => pure (.done { o with setInfo := o.setInfo.dropLast ++ [{ s with size := wrap32 (s.size + 1) }] })))

end PackedObj
end Boof
