import Verif.Model.NativeObjects
/-
What can be said about native objects by looking at the history of calls alone.  Histories have the last call first.
-/
namespace Boof

/-- How many Java objects a history has constructed; they are numbered in the order of construction. -/
def NCall.objects : List NCall → Nat
  | [] => 0
  | .construct _ _ :: past => NCall.objects past + 1
  | _ :: past => NCall.objects past

/-- The class of Java object `o`. -/
def NCall.classOf (o : Nat) : List NCall → Option NClass
  | [] => none
  | .construct cls _ :: past => if NCall.objects past = o then some cls else NCall.classOf o past
  | _ :: past => NCall.classOf o past

/-- The image type object `o` is set to. -/
def NCall.typeOf (o : Nat) : List NCall → Option Bool
  | [] => none
  | .construct _ i :: past => if NCall.objects past = o then some i else NCall.typeOf o past
  | .setImageType o' i :: past => if o' = o then some i else NCall.typeOf o past
  | _ :: past => NCall.typeOf o past

/-- The object a call is about. -/
def NCall.target : NCall → Option Nat
  | .construct _ _ => none
  | .init o => some o
  | .use o => some o
  | .destroy o => some o
  | .setImageType o _ => some o
  | .finalize o => some o

/-- Histories of Java programs: calls are about objects which have been constructed and have not been finalized, and the contour finder
has no image type. -/
def NCall.Legal : List NCall → Prop
  | [] => True
  | c :: past => NCall.Legal past ∧ (∀ o, c.target = some o → o < NCall.objects past ∧ NCall.finalize o ∉ past) ∧
      ∀ o i, c = .setImageType o i → NCall.classOf o past ≠ some .chang

/-- The call `c`, made after the history `earlier`, gives the Java object `o` a native object. -/
def NCall.Makes (o : Nat) (c : NCall) (earlier : List NCall) : Prop :=
  c = .init o ∨ ∃ cls i, c = .construct cls i ∧ NCall.objects earlier = o

/-- Object `o` has a native object for images of type `i`: the last call that made one was made when the type was `i`, and there has been
no `destroy` or `finalize` since. -/
def NCall.OwnsAs (o : Nat) (past : List NCall) (i : Bool) : Prop :=
  ∃ later c earlier, past = later ++ c :: earlier ∧ NCall.Makes o c earlier ∧ NCall.typeOf o (c :: earlier) = some i ∧
    ∀ r ∈ later, r ≠ .init o ∧ r ≠ .destroy o ∧ r ≠ .finalize o

/-- Object `o` has a native object for the type it is set to. -/
def NCall.Owns (o : Nat) (past : List NCall) : Prop := ∃ i, NCall.OwnsAs o past i ∧ NCall.typeOf o past = some i

/-- Every use and every release finds the native object; the contour finder may also be released when it has none. -/
def NCall.Careful : List NCall → Prop
  | [] => True
  | c :: past => NCall.Careful past ∧ match c with
    | .use o => NCall.Owns o past
    | .destroy o => NCall.Owns o past ∨ NCall.classOf o past = some .chang
    | .finalize o => NCall.Owns o past ∨ NCall.classOf o past = some .chang
    | _ => True

/-- Histories without explicit calls of `nativeinit`, `nativedestroy` and `setImageType`: the objects are constructed, used and dropped. -/
def NCall.Plain (past : List NCall) : Prop :=
  ∀ c ∈ past, (∃ cls i, c = .construct cls i) ∨ (∃ o, c = .use o) ∨ ∃ o, c = .finalize o

/-- `nativeinit` is called only for objects without a native object. -/
def NCall.Tidy : List NCall → Prop
  | [] => True
  | c :: past => NCall.Tidy past ∧ ∀ o, c = .init o → ∀ i, ¬NCall.OwnsAs o past i

/-- The C++ object at address `a` exists. -/
def NWorld.Lives (w : NWorld) (a : Nat) : Prop := ∃ c, w.cpp[a]? = some (some c)

/-- A Java object holds the address `a`. -/
def NWorld.Held (w : NWorld) (a : Nat) : Prop := ∃ (o : Nat) (j : JavaObject), w.java[o]? = some j ∧ j.nativePtr = some a

/-- Every C++ object which exists can be reached from a Java object. -/
def NWorld.NoLeak (w : NWorld) : Prop := ∀ a, w.Lives a → w.Held a

end Boof
