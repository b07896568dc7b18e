import Verif.Model.Otsu
import Verif.Model.Blocks
import Verif.Model.Blur
import Verif.Model.Contour
import Verif.Model.Jni
/-
The functions Java calls, boofcpp-jni/src/main/cpp.

The state is the heap together with the arrays which are pinned at the moment.  Java arrays are arrays of the heap: their
elements are kept as the C++ code sees them (a Java `byte` is reinterpreted as `uint8_t`).  The virtual machine may hand out
the Java array itself or a copy of it when an array is pinned; which of the two happens is a parameter of each call.

Not modelled: look-up of classes, fields and methods; out of memory in the virtual machine; `printf`.  As in the algorithms,
the input and output images of one call have cells of one type `V`.
-/
namespace Boof
variable {V α β : Type}

/-- A pinned array: the Java array and the pointer which was handed out for it. -/
structure Pin where
  array : Nat
  ptr : Nat
deriving DecidableEq, Repr

/-- The state native code runs in. -/
structure Jvm (V : Type) where
  heap : Heap V
  pins : List Pin
deriving DecidableEq, Repr

/-- A Java `GrayU8`, `GrayS16`, `GrayS32` or `GrayF32`: the fields read in JNIBoofCPP.cpp:236-261. -/
structure JImage where
  /-- reference to the Java array; `none` is `null` -/
  data : Option Nat
  width : Int
  height : Int
  stride : Int
  startIndex : Int
deriving DecidableEq, Repr

/-- Native code. -/
def J (V : Type) (α : Type) : Type := Jvm V → Res (Jvm V) α

namespace J

instance : Monad (J V) where
  pure a := fun s => .ok a s
  bind m f := fun s =>
    match m s with
    | .ok a s' => f a s'
    | .throw s' => .throw s'
    | .ub => .ub
    | .timeout => .timeout

/-- C++ code which does not use the Java environment. -/
def lift (m : M V α) : J V α := fun s =>
  match m s.heap with
  | .ok a h => .ok a { s with heap := h }
  | .throw h => .throw { s with heap := h }
  | .ub => .ub
  | .timeout => .timeout

/-- `throw` -/
protected def throw : J V α := fun s => .throw s

/-- `GetArrayLength` of a live array. -/
def arrayLength (a : Nat) : J V Nat := fun s =>
  match s.heap.get a with
  | some l => .ok l.length s
  | none => .ub

/-- `GetPrimitiveArrayCritical`; the virtual machine hands out a copy of the array when `copy` is set. -/
def pin (copy : Bool) (a : Nat) : J V Nat := fun s =>
  match s.heap.get a with
  | none => .ub
  | some l =>
    if copy then .ok s.heap.next { heap := s.heap.alloc l, pins := ⟨a, s.heap.next⟩ :: s.pins }
    else .ok a { s with pins := ⟨a, a⟩ :: s.pins }

/-- Last argument of `ReleasePrimitiveArrayCritical`: `0` or `JNI_ABORT`. -/
inductive Mode
  | commit
  | abort
deriving DecidableEq, Repr

/-- `ReleasePrimitiveArrayCritical(array, ptr, mode)`.  When `ptr` is a copy it is released, after having been copied back
unless `mode` is `JNI_ABORT`.  Giving back something which is not pinned (such as `nullptr`, here `none`) is undefined. -/
def release (a : Nat) (ptr : Option Nat) (mode : Mode) : J V Unit := fun s =>
  match ptr with
  | none => .ub
  | some p =>
    if (⟨a, p⟩ : Pin) ∈ s.pins then
      if p = a then .ok () { s with pins := s.pins.erase ⟨a, p⟩ }
      else match s.heap.get p with
        | none => .ub
        | some l =>
          let h := s.heap.free p
          .ok () { heap := if mode = .commit then ⟨h.bufs.set a (some l)⟩ else h, pins := s.pins.erase ⟨a, p⟩ }
    else .ub

end J

/-- `wrapCriticalGrayU8`, `S16`, `S32` and `F32`, JNIBoofCPP.cpp:304-354, with `extractInfoCritical`, 236-261.  The image in
the result is default constructed first; its `data` is `nullptr` (here 0) until the array is pinned. -/
def wrapCritical (z : V) (j : JImage) : J V Gray := do
  let image ← J.lift (Gray.new z 0 0)
  match j.data with
  | none => do
    J.lift image.destroy
    J.throw
  | some a => do
    let length ← J.arrayLength a
    J.lift (image.assign z (Gray.wrap 0 (toU32 length) (toU32 j.width) (toU32 j.height) (toU32 j.startIndex) (toU32 j.stride)) false)

/-- The end of every `nativeprocess` of the threshold filters: `output` is given back with mode `0`. -/
def releaseOutput (j : JImage) (ptr : Option Nat) : J V Unit :=
  match j.data with
  | some a => J.release a ptr .commit
  | none => fun _ => .ub

/-- `nativeprocess` of the threshold filters: NativeGlobalFixed.cpp:42-80, NativeGlobalOtsu.cpp:39-77, NativeLocalMean.cpp:43-81,
NativeBlockMean.cpp:43-81, NativeBlockMinMax.cpp:44-82, NativeBlockOtsu.cpp:44-81 (both branches of `isInteger` do the same).
`process` is the filter's method; it returns whatever is kept in the filter, and the output image.  Any exception is swallowed:
then the result is `none`. -/
def nativeThreshold (z : V) (process : Gray → Gray → M V (α × Gray)) (jinput joutput : JImage) (copyIn copyOut : Bool) :
    J V (Option α) := do
  let output ← wrapCritical z joutput
  fun s =>
    match wrapCritical z jinput s with
    | .ub => .ub
    | .timeout => .timeout
    | .throw s => (do
        releaseOutput joutput none
        pure none : J V (Option α)) s
    | .ok input s => (do
        let pi ← J.pin copyIn (jinput.data.getD 0)
        let po ← J.pin copyOut (joutput.data.getD 0)
        fun s =>
          match J.lift (process { input with buf := pi } { output with buf := po }) s with
          | .ub => .ub
          | .timeout => .timeout
          | .throw s => (do
              releaseOutput joutput (some po)
              pure none : J V (Option α)) s
          | .ok (a, output) s => (do
              J.release (jinput.data.getD 0) (some pi) .abort
              releaseOutput joutput (some output.buf)
              pure (some a) : J V (Option α)) s : J V (Option α)) s

/-- `nativeMean` and `nativeGaussian`, NativeImageBlurOps.cpp:8-44 and 46-84: three images, nothing is caught. -/
def nativeBlur (z : V) (process : Gray → Gray → Gray → M V (Gray × Gray)) (jinput joutput jstorage : JImage)
    (copyIn copyOut copyStorage : Bool) : J V Unit := do
  let input ← wrapCritical z jinput
  let output ← wrapCritical z joutput
  let storage ← wrapCritical z jstorage
  let pi ← J.pin copyIn (jinput.data.getD 0)
  let po ← J.pin copyOut (joutput.data.getD 0)
  let ps ← J.pin copyStorage (jstorage.data.getD 0)
  let (output, storage) ← J.lift (process { input with buf := pi } { output with buf := po } { storage with buf := ps })
  J.release (jinput.data.getD 0) (some pi) .abort
  J.release (joutput.data.getD 0) (some output.buf) .commit
  J.release (jstorage.data.getD 0) (some storage.buf) .abort

/-- The kernel width `nativeGaussian` passes on, NativeImageBlurOps.cpp:53. -/
def nativeGaussianWidth (radius : Int) : M V Int :=
  if radius > 0 then do
    let w ← S32.arith (2 * radius)
    S32.arith (w + 1)
  else pure (-1)

/-- Image convolutions, NativeImageConvolve.cpp:30-223 and NativeImageConvolveNormalized.cpp:10-80: `process` is the call with
the extracted kernel, `outputFirst` the order in which the arrays are given back. -/
def nativeConvolve (z : V) (process : Gray → Gray → M V Gray) (outputFirst : Bool) (jinput joutput : JImage)
    (copyIn copyOut : Bool) : J V Unit := do
  let input ← wrapCritical z jinput
  let output ← wrapCritical z joutput
  let pi ← J.pin copyIn (jinput.data.getD 0)
  let po ← J.pin copyOut (joutput.data.getD 0)
  let output ← J.lift (process { input with buf := pi } { output with buf := po })
  if outputFirst then do
    J.release (joutput.data.getD 0) (some output.buf) .commit
    J.release (jinput.data.getD 0) (some pi) .abort
  else do
    J.release (jinput.data.getD 0) (some pi) .abort
    J.release (joutput.data.getD 0) (some output.buf) .commit

end Boof
