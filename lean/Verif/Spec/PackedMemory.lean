import Verif.Spec.PackedSet
import Verif.Model.PackedMemory
/-
What the memory of a packed set should do.
-/
namespace Boof
variable {V : Type}

/-- The modifying operations, where an element to append is given as a value or is an element of the collection itself:
`p.push_tail(p.at(set,element))`. -/
inductive MOp (V : Type) where
  | op (o : POp V)
  | pushOwn (set element : Nat)

/-- Effect on a list of lists; `none` when the operation must be refused. -/
def MOp.spec : MOp V → List (List V) → Option (List (List V))
  | .op o, L => o.spec L
  | .pushOwn set element, L => ((L[set]?).bind (fun l => l[element]?)).map (fun v => pushLast v L)

/-- Effect of a whole history, refused operations changing nothing. -/
def memSpec (ops : List (MOp V)) (L : List (List V)) : List (List V) :=
  ops.foldl (fun L op => (op.spec L).getD L) L

/-- The total number of elements stays a 32-bit number throughout the history. -/
def MemBounded (ops : List (MOp V)) (L : List (List V)) : Prop :=
  ∀ n, (memSpec (ops.take n) L).flatten.length < P32

/-- The library function for each operation. -/
def MOp.run (junk : V) : MOp V → PackedObj → M (Slot V) PackedObj
  | .op .clear, o => o.clear
  | .op .start, o => o.startNewSet
  | .op (.push e), o => o.pushTail junk (.value e)
  | .op .remove, o => o.removeTail
  | .op (.write i v), o => o.writeSet i v
  | .pushOwn set element, o => do
    let r ← o.at' set element
    o.pushTail junk (.place r.1 r.2)

/-- Run a history on an object in memory; `none` if an operation is undefined behaviour.  An operation which throws leaves
the members as they are. -/
def memRun (junk : V) : List (MOp V) → PackedObj × Heap (Slot V) → Option (PackedObj × Heap (Slot V))
  | [], s => some s
  | op :: ops, s =>
    match op.run junk s.1 s.2 with
    | .ok o' h' => memRun junk ops (o', h')
    | .throw h' => memRun junk ops (s.1, h')
    | _ => none

/-- Every query of the API answers as the list of lists `L` would; a reference returned by `at` stands for a place which
holds the element. -/
structure MemObserves (o : PackedObj) (h : Heap (Slot V)) (L : List (List V)) : Prop where
  number : o.setInfo.length = L.length
  tail : o.sizeOfTail = (L.getLast?.map List.length).getD 0
  at_ok : ∀ k e v, (L[k]?).bind (fun l => l[e]?) = some v →
    ∃ b i, o.at' k e h = .ok (b, i) h ∧ h.cell b i = some (.elem v)
  at_throw : ∀ k e, (L[k]?).bind (fun l => l[e]?) = none → o.at' k e h = .throw h
  load_ok : ∀ k l out, L[k]? = some l → o.loadSet k out h = .ok (out ++ l) h
  load_throw : ∀ k out, L[k]? = none → o.loadSet k out h = .throw h

/-- Destroying the object succeeds, releases everything made since `h0`, and leaves what was there before as it was. -/
def Releases (o : PackedObj) (h0 h : Heap (Slot V)) : Prop :=
  ∃ h', o.destroy h = .ok () h' ∧ (∀ b, b < h0.next → h'.get b = h0.get b) ∧ ∀ b, h0.next ≤ b → h'.get b = none

end Boof
