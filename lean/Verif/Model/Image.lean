import Verif.Cpp.Core
/-
Model of boofcpp/src/boofcv/image_types.h.

An image object is a record of its data members; pixel arrays live in the heap.  Member functions that modify
`*this` return the new record.  `z` is the value-initialised element `T()`.
-/
namespace Boof
open M
variable {V : Type}

/-- `std::memcpy` of `n` elements (element granularity).  Overlapping ranges are undefined behaviour. -/
def memcpy (db di sb si n : Nat) : M V Unit :=
  if db = sb ∧ di < si + n ∧ si < di + n then ub
  else loop n (fun i => do
    let v ← rd sb (si + i)
    wr db (di + i) v)

/-- `Gray<T>`: image_types.h:20-26 (ImageBase members) and 83-85. -/
structure Gray where
  /-- `data`, as a heap array id -/
  buf : Nat
  dataLength : Nat
  width : Nat
  height : Nat
  offset : Nat
  stride : Nat
  subimage : Bool
deriving DecidableEq, Repr

namespace Gray

/-- image_types.h:38-40 -/
def totalPixels (g : Gray) : Nat := wrap32 (g.width * g.height)
/-- image_types.h:42-44 -/
def getWidth (g : Gray) : Nat := g.width
/-- image_types.h:46-48 (returns `width`, as the code does) -/
def getHeight (g : Gray) : Nat := g.width
/-- image_types.h:60-62 -/
def isInBounds (g : Gray) (x y : Nat) : Bool := x < g.width && y < g.height

/-- `Gray(width,height)`, image_types.h:87-95; `Gray()` (135) is `new z 0 0`. -/
def new (z : V) (width height : Nat) : M V Gray := do
  let b ← newArr (wrap32 (width * height)) z
  pure { buf := b, dataLength := wrap32 (width * height), width := width, height := height,
         offset := 0, stride := width, subimage := false }

/-- Wrapping constructor, image_types.h:100-108. -/
def wrap (data dataLength width height offset stride : Nat) : Gray :=
  { buf := data, dataLength := dataLength, width := width, height := height,
    offset := offset, stride := stride, subimage := true }

/-- One row of the initializer-list constructor, image_types.h:126-131: throws on a width mismatch,
otherwise stores the row through the running pointer `ptr`. -/
def ofRowsRow (width b ptr : Nat) (row : List V) (z : V) : M V Nat := do
  throwIf (row.length != width)
  loop row.length (fun i => wr b (ptr + i) (row.getD i z))
  pure (ptr + row.length)

/-- Initializer-list constructor, image_types.h:110-133 (sizes are below 2^32). -/
def ofRows (z : V) (rows : List (List V)) : M V Gray := do
  let height := rows.length
  let width := if height = 0 then 0 else (rows.headD []).length
  let b ← newArr (wrap32 (width * height)) z
  let _ ← loopS rows.length 0 (fun i ptr => ofRowsRow width b ptr (rows.getD i []) z)
  pure { buf := b, dataLength := wrap32 (width * height), width := width, height := height,
         offset := 0, stride := width, subimage := false }

/-- Destructor, image_types.h:138-148 (the object is gone afterwards). -/
def destroy (g : Gray) : M V Unit := if g.subimage then pure () else delArr g.buf

/-- image_types.h:150-166 -/
def reshape (z : V) (g : Gray) (width height : Nat) : M V Gray :=
  if g.width = width ∧ g.height = height then pure g
  else if g.subimage then M.throw
  else do
    let desired := wrap32 (width * height)
    if desired > g.dataLength then do
      delArr g.buf
      let b ← newArr desired z
      pure { g with buf := b, dataLength := desired, width := width, height := height, stride := width }
    else
      pure { g with width := width, height := height, stride := width }

/-- `index_of`, image_types.h:196-198; also the index expression of `at` (171) and `unsafe_at` (175). -/
def indexOf (g : Gray) (x y : Nat) : Nat := wrap32 (g.offset + y * g.stride + x)

/-- `at(x,y)` used as an rvalue, image_types.h:168-172. -/
def at' (g : Gray) (x y : Nat) : M V V :=
  if x ≥ g.width ∨ y ≥ g.height then M.throw else rd g.buf (g.indexOf x y)

/-- `at(x,y) = v`, image_types.h:168-172. -/
def setAt (g : Gray) (x y : Nat) (v : V) : M V Unit :=
  if x ≥ g.width ∨ y ≥ g.height then M.throw else wr g.buf (g.indexOf x y) v

/-- `unsafe_at(x,y)` as an rvalue, image_types.h:174-176. -/
def unsafeAt (g : Gray) (x y : Nat) : M V V := rd g.buf (g.indexOf x y)

/-- `unsafe_at(x,y) = v`, image_types.h:174-176. -/
def setUnsafeAt (g : Gray) (x y : Nat) (v : V) : M V Unit := wr g.buf (g.indexOf x y) v

/-- `copy`, image_types.h:178-188.  (`memcpy` of a zero-width row touches nothing.) -/
def copy (z : V) (g src : Gray) : M V Gray := do
  let g ← (if g.subimage ∧ (g.width ≠ src.width ∨ g.height ≠ src.height) then M.throw
           else g.reshape z src.width src.height)
  loop g.height (fun y =>
    memcpy g.buf (wrap32 (g.offset + y * g.stride)) src.buf (wrap32 (src.offset + y * src.stride)) src.width)
  pure g

/-- image_types.h:190-194 -/
def makeSubimage (g : Gray) (x0 y0 x1 y1 : Nat) : M V Gray :=
  if x1 > g.width ∨ y1 > g.height ∨ x1 < x0 ∨ y1 < y0 then M.throw
  else pure (wrap g.buf g.dataLength (x1 - x0) (y1 - y0) (wrap32 (g.offset + y0 * g.stride + x0)) g.stride)

/-- The copy constructor.  `Gray` (image_types.h:79-217) declares none, so the implicit one copies every member, including
the pointer to the pixels and the flag which says who releases them. -/
def clone (g : Gray) : Gray :=
  { buf := g.buf, dataLength := g.dataLength, width := g.width, height := g.height, offset := g.offset, stride := g.stride,
    subimage := g.subimage }

/-- `operator=`, image_types.h:200-216; `sameObject` is `this == &other`. -/
def assign (z : V) (g other : Gray) (sameObject : Bool) : M V Gray :=
  if sameObject then pure g
  else if other.subimage then
    pure { buf := other.buf, dataLength := other.dataLength, width := other.width, height := other.height,
           offset := other.offset, stride := other.stride, subimage := true }
  else g.copy z other

end Gray

/-- `Interleaved<T>`: image_types.h:20-26 and 331-336. -/
structure Interleaved where
  buf : Nat
  dataLength : Nat
  width : Nat
  height : Nat
  numBands : Nat
  offset : Nat
  stride : Nat
  subimage : Bool
deriving DecidableEq, Repr

namespace Interleaved

/-- image_types.h:338-347 -/
def new (z : V) (width height bands : Nat) : M V Interleaved := do
  let b ← newArr (wrap32 (width * height * bands)) z
  pure { buf := b, dataLength := wrap32 (width * height * bands), width := width, height := height,
         numBands := bands, offset := 0, stride := wrap32 (width * bands), subimage := false }

/-- image_types.h:352-361 -/
def wrap (data dataLength width height bands offset stride : Nat) : Interleaved :=
  { buf := data, dataLength := dataLength, width := width, height := height, numBands := bands,
    offset := offset, stride := stride, subimage := true }

/-- image_types.h:366-377 -/
def destroy (g : Interleaved) : M V Unit := if g.subimage then pure () else delArr g.buf

/-- The part shared by `reshape/3`, `reshape/2` and `setNumberOfBands`: replace the array when it is too small
(image_types.h:386-394, 409-414, 437-445; the inner sub-image tests are unreachable). -/
def ensure (z : V) (g : Interleaved) (len : Nat) : M V Interleaved :=
  if len > g.dataLength then do
    delArr g.buf
    let b ← newArr len z
    pure { g with buf := b, dataLength := len }
  else pure g

/-- `reshape(width,height,bands)`, image_types.h:379-400 -/
def reshape3 (z : V) (g : Interleaved) (width height bands : Nat) : M V Interleaved :=
  if g.width = width ∧ g.height = height ∧ g.numBands = bands then pure g
  else if g.subimage then M.throw
  else do
    let g ← g.ensure z (wrap32 (width * height * bands))
    pure { g with width := width, height := height, numBands := bands, stride := wrap32 (width * bands) }

/-- `reshape(width,height)`, image_types.h:402-418 -/
def reshape (z : V) (g : Interleaved) (width height : Nat) : M V Interleaved :=
  if g.width = width ∧ g.height = height then pure g
  else if g.subimage then M.throw
  else do
    let g ← g.ensure z (wrap32 (width * height * g.numBands))
    pure { g with width := width, height := height, stride := wrap32 (width * g.numBands) }

/-- image_types.h:430-448 -/
def setNumberOfBands (z : V) (g : Interleaved) (desired : Nat) : M V Interleaved :=
  if g.numBands = desired then pure g
  else if g.subimage then M.throw
  else do
    let g ← g.ensure z (wrap32 (g.width * g.height * desired))
    pure { g with numBands := desired, stride := wrap32 (g.width * desired) }

/-- `index_of`, image_types.h:473-475; index expression of `at` (423) and `unsafe_at` (427). -/
def indexOf (g : Interleaved) (x y band : Nat) : Nat :=
  wrap32 (g.offset + y * g.stride + x * g.numBands + band)

/-- `at(x,y,band)` as an rvalue, image_types.h:420-424 (`band` is not checked). -/
def at' (g : Interleaved) (x y band : Nat) : M V V :=
  if x ≥ g.width ∨ y ≥ g.height then M.throw else rd g.buf (g.indexOf x y band)

/-- `at(x,y,band) = v`, image_types.h:420-424. -/
def setAt (g : Interleaved) (x y band : Nat) (v : V) : M V Unit :=
  if x ≥ g.width ∨ y ≥ g.height then M.throw else wr g.buf (g.indexOf x y band) v

/-- image_types.h:463-471 -/
def makeSubimage (g : Interleaved) (x0 y0 x1 y1 : Nat) : M V Interleaved :=
  if x1 < x0 ∨ y1 < y0 then M.throw
  else if x1 > g.width ∨ y1 > g.height then M.throw
  else pure (wrap g.buf g.dataLength (x1 - x0) (y1 - y0) g.numBands
        (wrap32 (g.offset + y0 * g.stride + x0 * g.numBands)) g.stride)

/-- `memcpy` of `nbytes` bytes between arrays of elements of `sz` bytes: whole elements are copied and the
first `nbytes % sz` bytes of the next one are merged into the destination by `splice`. -/
def memcpyBytes (sz : Nat) (splice : Nat → V → V → V) (db di sb si nbytes : Nat) : M V Unit := do
  memcpy db di sb si (nbytes / sz)
  if nbytes % sz = 0 then pure ()
  else do
    let s ← rd sb (si + nbytes / sz)
    let d ← rd db (di + nbytes / sz)
    wr db (di + nbytes / sz) (splice (nbytes % sz) s d)

/-- `setTo`, image_types.h:450-461; `sz` is `sizeof(T)`.  The byte count passed to `memcpy` is
`src.width*this->num_bands`, as in the code; the row address is pointer arithmetic, so only `y*stride` wraps. -/
def setTo (sz : Nat) (splice : Nat → V → V → V) (z : V) (g src : Interleaved) : M V Interleaved := do
  let g ← (if g.subimage ∧ (g.width ≠ src.width ∨ g.height ≠ src.height ∨ g.numBands ≠ src.numBands) then M.throw
           else do
             let g ← g.setNumberOfBands z src.numBands
             g.reshape z src.width src.height)
  loop g.height (fun y =>
    memcpyBytes sz splice g.buf (g.offset + wrap32 (y * g.stride)) src.buf
      (src.offset + wrap32 (y * src.stride)) (wrap32 (src.width * g.numBands)))
  pure g

end Interleaved
end Boof
