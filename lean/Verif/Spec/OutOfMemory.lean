import Verif.Model.OutOfMemory
import Verif.Spec.ArrayMemory
import Verif.Spec.PackedMemory
/-
What objects should do when memory runs out: an operation which fails for lack of memory has no effect, and the object can
be used and destroyed as before.
-/
namespace Boof
variable {V : Type}

/-! ### Growable arrays -/

/-- The operation must make an array which is larger than any the variable has. -/
def AOp.needs (vs : Arrays V) : AOp V → Bool
  | .make _ => true
  | .list _ => true
  | .resize i n => ((vs[i]?).join.map (fun a => decide (n > a.data.length))).getD false
  | .grow i n => ((vs[i]?).join.map (fun a => decide (n > a.data.length))).getD false
  | .setTo i l => ((vs[i]?).join.map (fun a => decide (l.length > a.data.length))).getD false
  | .assign i j =>
    decide (i ≠ j) && ((vs[i]?).join.bind (fun a => (vs[j]?).join.map (fun b => decide (b.size > a.data.length)))).getD false
  | .setFrom i j _ n =>
    ((vs[j]?).join.bind (fun _ => (vs[i]?).join.map (fun a => decide (n > a.data.length)))).getD false
  | .fill _ _ => false
  | .put _ _ _ => false
  | .drop _ => false

/-- An operation on the values when there may be no memory: if it needs some, it is refused and nothing changes. -/
def AOp.specOom (E : GrowArray.Elem V) (vs : Arrays V) (mem : Bool) (op : AOp V) : Res (Arrays V) Unit :=
  if mem = false ∧ op.needs vs = true then .throw vs else op.spec E vs

/-- A history on the values. -/
def arraysRunOom (E : GrowArray.Elem V) : List (AOp V × Bool) → Arrays V → Option (Arrays V)
  | [], vs => some vs
  | op :: ops, vs =>
    match op.1.specOom E vs op.2 with
    | .ok _ vs' => arraysRunOom E ops vs'
    | .throw vs' => arraysRunOom E ops vs'
    | _ => none

namespace ArrWorld

/-- Call a function which may fail on one object. -/
def onOom (w : ArrWorld V) (i : Nat) (f : ArrObj V → M V (Left (ArrObj V))) : Res (ArrWorld V) Unit :=
  match w.var i with
  | none => .ok () w
  | some a =>
    match f a w.heap with
    | .ok (.done a') h => .ok () ⟨w.objs.set i (some a'), h⟩
    | .ok (.failed a') h => .throw ⟨w.objs.set i (some a'), h⟩
    | .throw h => .throw ⟨w.objs, h⟩
    | .ub => .ub
    | .timeout => .timeout

/-- The library function for each operation. -/
def stepOom (E : GrowArray.Elem V) (w : ArrWorld V) (mem : Bool) : AOp V → Res (ArrWorld V) Unit
  | .make n =>
    match ArrObj.newOom mem E n w.heap with
    | .ok (some a) h => .ok () ⟨w.objs ++ [some a], h⟩
    | .ok none h => .throw ⟨w.objs, h⟩
    | .throw h => .throw ⟨w.objs, h⟩
    | .ub => .ub
    | .timeout => .timeout
  | .list l =>
    match ArrObj.ofListOom mem E l w.heap with
    | .ok (some a) h => .ok () ⟨w.objs ++ [some a], h⟩
    | .ok none h => .throw ⟨w.objs, h⟩
    | .throw h => .throw ⟨w.objs, h⟩
    | .ub => .ub
    | .timeout => .timeout
  | .resize i n => w.onOom i (ArrObj.resizeOom mem E n)
  | .grow i n => w.onOom i (ArrObj.growArrayOom mem E n)
  | .setTo i l => w.onOom i (ArrObj.setToOom mem E l)
  | .assign i j =>
    if i = j then .ok () w
    else match w.var j with
      | none => .ok () w
      | some b => w.onOom i (fun a => ArrObj.assignOom mem E a b)
  | .setFrom i j start n =>
    match w.var j with
    | none => .ok () w
    | some b => w.onOom i (ArrObj.setOom mem E b.data start n)
  | op => w.step E op

/-- A history in which memory may run out at any operation; `none` when an operation is undefined behaviour. -/
def runOom (E : GrowArray.Elem V) : List (AOp V × Bool) → ArrWorld V → Option (ArrWorld V)
  | [], w => some w
  | op :: ops, w =>
    match w.stepOom E op.2 op.1 with
    | .ok _ w' => runOom E ops w'
    | .throw w' => runOom E ops w'
    | _ => none

end ArrWorld

/-- The operations which release the old array before they have the new one. -/
def AOp.releasesFirst : AOp V → Bool
  | .grow _ _ => true
  | .assign _ _ => true
  | .setFrom _ _ _ _ => true
  | _ => false

/-! ### Packed sets -/

/-- How an operation ended, as its caller sees it. -/
inductive Outcome where
  | done
  | refused
  | outOfMemory
deriving DecidableEq, Repr

/-- The library function for each operation. -/
def MOp.runOom (s : Supply) (junk : V) : MOp V → PackedObj → M (Slot V) (Left PackedObj)
  | .op .start, o => o.startNewSetOom s
  | .op (.push e), o => o.pushTailOom s junk (.value e)
  | .pushOwn set element, o => do
    let r ← o.at' set element
    o.pushTailOom s junk (.place r.1 r.2)
  | other, o => do
    let o ← other.run junk o
    pure (.done o)

/-- A history in which memory may run out at any operation: how each operation ended, and the final state; `none` if an
operation is undefined behaviour. -/
def memRunOom (junk : V) : List (MOp V × Supply) → PackedObj × Heap (Slot V) →
    Option (List Outcome × PackedObj × Heap (Slot V))
  | [], st => some ([], st)
  | op :: ops, st =>
    match op.1.runOom op.2 junk st.1 st.2 with
    | .ok (.done o') h' => (memRunOom junk ops (o', h')).map (fun r => (.done :: r.1, r.2))
    | .ok (.failed o') h' => (memRunOom junk ops (o', h')).map (fun r => (.outOfMemory :: r.1, r.2))
    | .throw h' => (memRunOom junk ops (st.1, h')).map (fun r => (.refused :: r.1, r.2))
    | _ => none

/-- The operation may need memory: it starts a set or appends an element. -/
def MOp.grows : MOp V → Bool
  | .op .start => true
  | .op (.push _) => true
  | .pushOwn _ _ => true
  | _ => false

/-- What a history does to a list of lists, given how each operation ended: one which was done has its effect, one which was
refused has none, and one which ran out of memory has none, except that appending to an empty collection may leave the first
set, still empty.  Only operations which need memory run out of it, and only when it is short. -/
inductive Explains : List (MOp V × Supply) → List Outcome → List (List V) → List (List V) → Prop
  | nil (L) : Explains [] [] L L
  | done {op s ops rs L L' L''} : op.spec L = some L' → Explains ops rs L' L'' → Explains ((op, s) :: ops) (.done :: rs) L L''
  | refused {op s ops rs L L'} : op.spec L = none → Explains ops rs L L' → Explains ((op, s) :: ops) (.refused :: rs) L L'
  | outOfMemory {op s ops rs L L' L''} : op.grows = true → s ≠ Supply.full → (L' = L ∨ L = [] ∧ L' = [[]]) →
      Explains ops rs L' L'' → Explains ((op, s) :: ops) (.outOfMemory :: rs) L L''

end Boof
