import Verif.Model.Native
/-
`NativeChang2004`, the contour finder seen from Java: boofcpp-jni/src/main/cpp/NativeChang2004.cpp with `WrapJGrowQueue_I32` of
JNIBoofCPP.cpp:8-92, and boofcpp-jni/src/main/java/org/boofcpp/contour/NativeChang2004.java.

Java objects which native code changes are passed along explicitly.  Not modelled: look-up of fields and methods, and references
to enum constants.  Assumed of the Java library: `GrowQueue_I32.resize(n)` allocates a longer array only if the present one has
fewer than `n` elements, and `GrowQueue_I32.setTo` copies the first `size` elements.
-/
namespace Boof

/-- A Java `GrowQueue_I32`: reference to its array, and its size. -/
structure JQueue where
  data : Nat
  size : Int
deriving DecidableEq, Repr

/-- `GrowQueue_I32.resize` of the Java library. -/
def JQueue.resize (q : JQueue) (n : Int) : J Int JQueue := fun s =>
  match s.heap.get q.data with
  | none => .ub
  | some l =>
    if (l.length : Int) < n then .ok ⟨s.heap.next, n⟩ { s with heap := s.heap.alloc (List.replicate n.toNat 0) }
    else .ok { q with size := n } s

/-- `WrapJGrowQueue_I32`, JNIBoofCPP.h:12-41.  `data` is null between calls, see `setTo`. -/
structure WrapQueue where
  array : Nat
  size : Int
  length : Int
deriving DecidableEq, Repr

namespace WrapQueue

/-- Constructor, JNIBoofCPP.cpp:8-26.  The array of the queue is never null in Java. -/
def new (q : JQueue) : J Int WrapQueue := do
  let n ← J.arrayLength q.data
  pure { array := q.data, size := q.size, length := n }

/-- `resize`, JNIBoofCPP.cpp:72-92, with `data` null. -/
def resize (w : WrapQueue) (q : JQueue) (desired : Nat) : J Int (WrapQueue × JQueue) := do
  if desired = toU32 w.size then pure (w, q)
  else do
    let q ← q.resize (toS32 desired)
    let w := { w with size := toS32 desired }
    if desired > toU32 w.length then do
      let n ← J.arrayLength q.data
      pure ({ w with array := q.data, length := n }, q)
    else pure (w, q)

/-- `setTo`, JNIBoofCPP.cpp:52-70, with `criticalGet` and `criticalRelease`, 34-41.  `this->size` is converted to `size_t` for
the comparison. -/
def setTo (copy : Bool) (w : WrapQueue) (q : JQueue) (input : List Nat) : J Int (WrapQueue × JQueue) := do
  let (w, q) ← (if (input.length : Int) ≠ w.size % 18446744073709551616 then w.resize q (wrap32 input.length) else pure (w, q) : J Int (WrapQueue × JQueue))
  let p ← J.pin copy w.array
  J.lift (M.forRange 0 w.size.toNat (fun i =>
    match input[i]? with
    | none => M.ub
    | some v => M.wr p i (toS32 v)))
  J.release w.array (some p) .commit
  pure (w, q)

end WrapQueue

/-- A Java `ContourPacked`. -/
structure JContour where
  id : Int
  externalIndex : Int
  internalIndexes : List Int
deriving DecidableEq, Repr

/-- `addContour`, NativeChang2004.java:47-52: the new element of `storageContours`. -/
def addContour (q : JQueue) (id externalIndex : Int) : J Int JContour := fun s =>
  match s.heap.get q.data with
  | none => .ub
  | some l => if q.size ≤ l.length then .ok ⟨id, externalIndex, l.take q.size.toNat⟩ s else .ub

/-- The loop over the contours, NativeChang2004.cpp:60-66; `copy` says whether an array is copied when it is pinned. -/
def sendContours (copy : Nat → Bool) : List ContourPacked → WrapQueue → JQueue → J Int (List JContour × JQueue)
  | [], _, q => pure ([], q)
  | p :: ps, w, q => do
    let (w, q) ← w.setTo (copy ps.length) q p.internalIndexes
    let c ← addContour q (toS32 p.id) (toS32 p.externalIndex)
    let (cs, q) ← sendContours copy ps w q
    pure (c :: cs, q)

/-- What Java holds after `process`: `storageContours`, `packedPoints` and `storagePoints`. -/
structure ChangResult where
  contours : List JContour
  packed : JavaPacked
  queue : JQueue
deriving DecidableEq, Repr

/-- The first half of `native_process`, NativeChang2004.cpp:36-52: the images. -/
def nativeChangImages (fuel : Nat) (l : Labeller) (jbinary jlabel : JImage) (copyIn copyOut : Bool) : J Int Labeller := do
  let input ← wrapCritical 0 jbinary
  let label ← wrapCritical 0 jlabel
  let pi ← J.pin copyIn (jbinary.data.getD 0)
  let po ← J.pin copyOut (jlabel.data.getD 0)
  let (l, label) ← J.lift (l.process fuel { input with buf := pi } { label with buf := po })
  J.release (jbinary.data.getD 0) (some pi) .abort
  J.release (jlabel.data.getD 0) (some label.buf) .commit
  pure l

/-- `native_process`, NativeChang2004.cpp:36-73.  `storagePoints` is `queue`; the Java object `packedPoints` has blocks of
`blockLength` ints and its `blocks.resize(n)` gives the arrays `blocks n`.  `fuel` bounds the contours. -/
def nativeChang (fuel : Nat) (l : Labeller) (jbinary jlabel : JImage) (queue : JQueue) (blockLength : Nat)
    (blocks : Nat → List (List Int)) (copyIn copyOut : Bool) (copyQueue : Nat → Bool) : J Int (Labeller × ChangResult) := do
  let l ← nativeChangImages fuel l jbinary jlabel copyIn copyOut
  let w ← WrapQueue.new queue
  let (cs, queue) ← sendContours copyQueue l.contours w queue
  fun s =>
    match copyIntoJava l.packedPoints blockLength (blocks l.packedPoints.blocks.length) with
    | .ok packed _ => .ok (l, ⟨cs, packed, queue⟩) s
    | .throw _ => .throw s
    | .ub => .ub
    | .timeout => .timeout

/-- `native_init`, NativeChang2004.cpp:12-22 -/
def nativeChangInit (junk : Tracer) : J Int Labeller := do
  let l ← J.lift (Labeller.new .four junk)
  pure { l with maxContourSize := 2147483647 }

namespace Labeller

/-- `setSaveInnerContour`, NativeChang2004.cpp:75-83 -/
def nativeSetSave (l : Labeller) (enabled : Bool) : Labeller := { l with saveInternalContours := enabled }
/-- `isSaveInternalContours`, NativeChang2004.cpp:85-93 -/
def nativeGetSave (l : Labeller) : Bool := l.saveInternalContours
/-- `setMinContour`, NativeChang2004.cpp:95-103 -/
def nativeSetMin (l : Labeller) (size : Int) : Labeller := { l with minContourSize := toU32 size }
/-- `getMinContour`, NativeChang2004.cpp:105-113 -/
def nativeGetMin (l : Labeller) : Int := toS32 l.minContourSize
/-- `setMaxContour`, NativeChang2004.cpp:115-123 -/
def nativeSetMax (l : Labeller) (size : Int) : Labeller := { l with maxContourSize := toU32 size }
/-- `getMaxContour`, NativeChang2004.cpp:125-133 -/
def nativeGetMax (l : Labeller) : Int := toS32 l.maxContourSize
/-- `setConnectRule`, NativeChang2004.cpp:135-159, given the ordinal of the enum constant; `none` is the exception. -/
def nativeSetRule (l : Labeller) (ordinal : Int) : Option Labeller :=
  if ordinal = 0 then some (l.setConnectRule .four)
  else if ordinal = 1 then some (l.setConnectRule .eight)
  else none
/-- `getConnectRule`, NativeChang2004.cpp:161-189: the ordinal of the constant which is returned. -/
def nativeGetRule (l : Labeller) : Int := if l.rule = .four then 0 else 1

end Labeller

end Boof
