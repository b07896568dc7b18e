import Verif.Model.PackedSet
/-
What a packed set should do: the operations on a plain list of lists.
-/
namespace Boof
variable {V : Type}

/-- The modifying operations. -/
inductive POp (V : Type) where
  | clear
  | start
  | push (e : V)
  | remove
  | write (set : Nat) (v : List V)

/-- Append `e` to the last list; an empty collection gets a first list. -/
def pushLast (e : V) : List (List V) → List (List V)
  | [] => [[e]]
  | [l] => [l ++ [e]]
  | l :: L => l :: pushLast e L

/-- Effect on the list of lists; `none` when the operation must be refused. -/
def POp.spec : POp V → List (List V) → Option (List (List V))
  | .clear, _ => some []
  | .start, L => some (L ++ [[]])
  | .push e, L => some (pushLast e L)
  | .remove, L => some L.dropLast
  | .write i v, L => if L[i]?.map List.length = some v.length then some (L.set i v) else none

/-- Effect of a whole history, refused operations changing nothing. -/
def specRun (ops : List (POp V)) (L : List (List V)) : List (List V) :=
  ops.foldl (fun L op => (op.spec L).getD L) L

/-- The library function for each operation. -/
def POp.run (junk : V) : POp V → PackedSet V → Res (PackedSet V) Unit
  | .clear => PackedSet.clear
  | .start => PackedSet.startNewSet
  | .push e => PackedSet.pushTail junk e
  | .remove => PackedSet.removeTail
  | .write i v => PackedSet.writeSet i v

/-- Run a history on the library's object; `none` if an operation is undefined behaviour. -/
def packedRun (junk : V) : List (POp V) → PackedSet V → Option (PackedSet V)
  | [], p => some p
  | op :: ops, p =>
    match op.run junk p with
    | .ok _ p' => packedRun junk ops p'
    | .throw p' => packedRun junk ops p'
    | _ => none

/-- The object's observable state: every query of the API answers as the list of lists `L` would. -/
structure Observes (p : PackedSet V) (L : List (List V)) : Prop where
  number : p.setInfo.length = L.length
  number32 : L.length < P32 → p.numberOfSets = L.length
  tail : p.sizeOfTail = (L.getLast?.map List.length).getD 0
  size : ∀ (k : Nat) (s : PackedSetInfo), p.setInfo[k]? = some s → (L[k]?).map List.length = some s.size
  at_ok : ∀ k e v, (L[k]?).bind (fun l => l[e]?) = some v → p.at' k e = .ok v p
  at_throw : ∀ k e, (L[k]?).bind (fun l => l[e]?) = none → p.at' k e = .throw p
  load_ok : ∀ k l out, L[k]? = some l → p.loadSet k out = .ok (out ++ l) p
  load_throw : ∀ k out, L[k]? = none → p.loadSet k out = .throw p

/-- The total number of elements stays a 32-bit number throughout the history. -/
def Bounded (ops : List (POp V)) (L : List (List V)) : Prop :=
  ∀ n, (specRun (ops.take n) L).flatten.length < P32

end Boof
