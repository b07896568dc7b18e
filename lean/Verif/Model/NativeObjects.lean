import Mathlib.Data.List.Basic
/-
Native objects held by Java objects: the fields `nativePtr` and `isInteger`, boofcpp-jni/src/main/java/org/boofcpp/NativeBase.java,
the six classes in org.boofcpp.threshold, contour/NativeChang2004.java, and what the native functions do with these fields.

What an object computes is modelled elsewhere (`NativeFilter`, `NativeContour`); here only which C++ objects exist and how they are
reached.  An address is never used for a second object: using a pointer to a deleted object is undefined in any case.
-/
namespace Boof

/-- The Java classes which hold a native object. -/
inductive NClass
  | globalFixed | globalOtsu | localMean | blockMean | blockMinMax | blockOtsu
  | chang
deriving DecidableEq, Repr

/-- A C++ object: the filter it is, and whether it is the one for `U8` or the one for `F32` (Native*.cpp, `nativeinit`).
`LinearContourLabelChang2004` has no such variants; for it the second field means nothing. -/
structure CppObject where
  cls : NClass
  integer : Bool
deriving DecidableEq, Repr

/-- A Java object, NativeBase.java:12-13 and NativeChang2004.java:31; `none` is the pointer 0.  `NativeChang2004` has no
`isInteger`. -/
structure JavaObject where
  cls : NClass
  isInteger : Bool
  nativePtr : Option Nat
deriving DecidableEq, Repr

/-- The Java objects, in the order in which they were constructed, and the C++ objects by address; `none` has been deleted. -/
structure NWorld where
  java : List JavaObject
  cpp : List (Option CppObject)
deriving DecidableEq, Repr

/-- What a Java program can do: the constructors, the public native functions, the public method `setImageType`; and what the virtual
machine does, `finalize`.  `use` is `process` or any of the functions which read or change a setting. -/
inductive NCall
  | construct (cls : NClass) (isInteger : Bool)
  | init (o : Nat)
  | use (o : Nat)
  | destroy (o : Nat)
  | setImageType (o : Nat) (isInteger : Bool)
  | finalize (o : Nat)
deriving DecidableEq, Repr

namespace NWorld

/-- The object which `(T*)nativePtr` points to, where `T` is chosen by `isInteger` (e.g. NativeBlockOtsu.cpp:37-41; `NativeChang2004.cpp`
has one type only): `none` when there is no such object of this type, and using it is undefined. -/
def pointee (w : NWorld) (j : JavaObject) : Option Nat :=
  match j.nativePtr with
  | none => none
  | some a =>
    match w.cpp[a]? with
    | some (some c) => if c.cls = j.cls ∧ (j.cls = .chang ∨ c.integer = j.isInteger) then some a else none
    | _ => none

/-- `nativeinit` (e.g. NativeBlockOtsu.cpp:9-27) and `native_init` (NativeChang2004.cpp:12-22): makes an object and writes its address to
the field. -/
def nativeinit (w : NWorld) (o : Nat) (j : JavaObject) : NWorld :=
  ⟨w.java.set o { j with nativePtr := some w.cpp.length }, w.cpp ++ [some ⟨j.cls, j.isInteger⟩]⟩

/-- `nativedestroy` (e.g. NativeBlockOtsu.cpp:29-42) deletes the object and leaves the field; `native_destroy`
(NativeChang2004.cpp:24-34) also sets it to 0.  `delete` of the pointer 0 does nothing; of any other pointer to no object of the type it
is undefined. -/
def nativedestroy (w : NWorld) (o : Nat) (j : JavaObject) : Option NWorld :=
  match j.nativePtr with
  | none => some w
  | some _ =>
    match w.pointee j with
    | none => none
    | some a =>
      if j.cls = .chang then some ⟨w.java.set o { j with nativePtr := none }, w.cpp.set a none⟩
      else some { w with cpp := w.cpp.set a none }

/-- One step; `none` is undefined behaviour.
* the constructors (NativeBlockOtsu.java:10-14 and its like; NativeBase.java:17-19; NativeChang2004.java:33-35),
* `nativeprocess` and the settings follow the pointer (e.g. NativeBlockOtsu.cpp:44-56; NativeChang2004.cpp:36-41, 75-190),
* `setImageType` (NativeBase.java:23-36),
* `finalize` calls the destroying function (e.g. NativeBlockOtsu.java:22-25; NativeChang2004.java:97-100).
A call for an object that does not exist cannot be written in Java; it changes nothing here. -/
def step (w : NWorld) : NCall → Option NWorld
  | .construct cls isInteger =>
    let j : JavaObject := ⟨cls, isInteger, none⟩
    some (nativeinit ⟨w.java ++ [j], w.cpp⟩ w.java.length j)
  | .init o => match w.java[o]? with
    | none => some w
    | some j => some (w.nativeinit o j)
  | .use o => match w.java[o]? with
    | none => some w
    | some j => (w.pointee j).map (fun _ => w)
  | .destroy o => match w.java[o]? with
    | none => some w
    | some j => w.nativedestroy o j
  | .setImageType o isInteger => match w.java[o]? with
    | none => some w
    | some j => some { w with java := w.java.set o { j with isInteger := isInteger } }
  | .finalize o => match w.java[o]? with
    | none => some w
    | some j => w.nativedestroy o j

/-- A history of calls, the last one first, from the start of the program. -/
def run : List NCall → Option NWorld
  | [] => some ⟨[], []⟩
  | c :: past => (run past).bind (fun w => w.step c)

end NWorld
end Boof
