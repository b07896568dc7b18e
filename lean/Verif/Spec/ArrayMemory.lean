import Verif.Model.ArrayMemory
/-
What a program which uses several growable arrays should do: each array is a value of its own.
-/
namespace Boof
variable {V : Type}

/-- What a program can do to its arrays; the variables are numbered in the order in which they are made. -/
inductive AOp (V : Type) where
  | make (n : Nat)                       -- `GrowArray a(n);`
  | list (l : List V)                    -- `GrowArray a({...});`
  | resize (i n : Nat)
  | grow (i n : Nat)
  | fill (i : Nat) (v : V)
  | put (i k : Nat) (v : V)              -- `a.at(k) = v;`
  | setTo (i : Nat) (l : List V)
  | assign (i j : Nat)                   -- `a = b;`
  | setFrom (i j start n : Nat)          -- `a.set(&b.data[start],n);`, where `b` may be `a`
  | drop (i : Nat)                       -- the end of the variable's life

/-- The arrays as values (`none` after the end of life). -/
abbrev Arrays (V : Type) := List (Option (GrowArray V))

/-- Do something to one variable. -/
def Arrays.on (vs : Arrays V) (i : Nat) (f : GrowArray V → Res (GrowArray V) Unit) : Res (Arrays V) Unit :=
  match (vs[i]?).join with
  | none => .ok () vs
  | some a =>
    match f a with
    | .ok _ a' => .ok () (vs.set i (some a'))
    | .throw a' => .throw (vs.set i (some a'))
    | .ub => .ub
    | .timeout => .timeout

/-- An operation on the values. -/
def AOp.spec (E : GrowArray.Elem V) (vs : Arrays V) : AOp V → Res (Arrays V) Unit
  | .make n =>
    match GrowArray.new E n with
    | .ok _ a => .ok () (vs ++ [some a])
    | _ => .ub
  | .list l => .ok () (vs ++ [some (GrowArray.ofList E l)])
  | .resize i n => vs.on i (GrowArray.resize E n)
  | .grow i n => vs.on i (GrowArray.growArray E n)
  | .fill i v => vs.on i (GrowArray.fill E v)
  | .put i k v => vs.on i (GrowArray.setAt k v)
  | .setTo i l => vs.on i (GrowArray.setTo E l)
  | .assign i j =>
    if i = j then .ok () vs
    else match (vs[j]?).join with
      | none => .ok () vs
      | some b => vs.on i (fun a => GrowArray.assign E a b)
  | .setFrom i j start n =>
    match (vs[j]?).join with
    | none => .ok () vs
    | some b => vs.on i (GrowArray.set E (b.data.drop start) n)
  | .drop i => .ok () (vs.set i none)

/-- A history on the values; `none` when an operation is undefined behaviour. -/
def arraysRun (E : GrowArray.Elem V) : List (AOp V) → Arrays V → Option (Arrays V)
  | [], vs => some vs
  | op :: ops, vs =>
    match op.spec E vs with
    | .ok _ vs' => arraysRun E ops vs'
    | .throw vs' => arraysRun E ops vs'
    | _ => none

/-- The program's state: its objects and the memory. -/
structure ArrWorld (V : Type) where
  objs : List (Option (ArrObj V))
  heap : Heap V

namespace ArrWorld

/-- The variable `i`. -/
def var (w : ArrWorld V) (i : Nat) : Option (ArrObj V) := (w.objs[i]?).join

/-- Call a function on one object; when it throws the members stay (for an array which owns its memory, no function
changes members before it throws). -/
def on (w : ArrWorld V) (i : Nat) (f : ArrObj V → M V (ArrObj V)) : Res (ArrWorld V) Unit :=
  match w.var i with
  | none => .ok () w
  | some a =>
    match f a w.heap with
    | .ok a' h => .ok () ⟨w.objs.set i (some a'), h⟩
    | .throw h => .throw ⟨w.objs, h⟩
    | .ub => .ub
    | .timeout => .timeout

/-- The library function for each operation. -/
def step (E : GrowArray.Elem V) (w : ArrWorld V) : AOp V → Res (ArrWorld V) Unit
  | .make n =>
    match ArrObj.new E n w.heap with
    | .ok a h => .ok () ⟨w.objs ++ [some a], h⟩
    | .throw h => .throw ⟨w.objs, h⟩
    | .ub => .ub
    | .timeout => .timeout
  | .list l =>
    match ArrObj.ofList E l w.heap with
    | .ok a h => .ok () ⟨w.objs ++ [some a], h⟩
    | .throw h => .throw ⟨w.objs, h⟩
    | .ub => .ub
    | .timeout => .timeout
  | .resize i n => w.on i (ArrObj.resize E n)
  | .grow i n => w.on i (ArrObj.growArray E n)
  | .fill i v => w.on i (fun a => do a.fill E v; pure a)
  | .put i k v => w.on i (fun a => do a.setAt k v; pure a)
  | .setTo i l => w.on i (ArrObj.setTo E l)
  | .assign i j =>
    if i = j then .ok () w
    else match w.var j with
      | none => .ok () w
      | some b => w.on i (fun a => ArrObj.assign E a b)
  | .setFrom i j start n =>
    match w.var j with
    | none => .ok () w
    | some b => w.on i (ArrObj.set E b.data start n)
  | .drop i =>
    match w.var i with
    | none => .ok () ⟨w.objs.set i none, w.heap⟩
    | some a =>
      match a.destroy w.heap with
      | .ok _ h => .ok () ⟨w.objs.set i none, h⟩
      | .throw h => .throw ⟨w.objs, h⟩
      | .ub => .ub
      | .timeout => .timeout

/-- A history; `none` when an operation is undefined behaviour. -/
def run (E : GrowArray.Elem V) : List (AOp V) → ArrWorld V → Option (ArrWorld V)
  | [], w => some w
  | op :: ops, w =>
    match w.step E op with
    | .ok _ w' => run E ops w'
    | .throw w' => run E ops w'
    | _ => none

end ArrWorld

/-- The object `o` in the memory `h` is the value `a`. -/
structure ArrObj.Is (h : Heap V) (o : ArrObj V) (a : GrowArray V) : Prop where
  data : h.get o.data = some a.data
  size : o.size = a.size
  length : o.arrayLength = a.data.length
  default : o.default = a.default
  canResize : o.canResize = a.canResize

end Boof
