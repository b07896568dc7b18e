import Verif.Spec.Image
/-
Histories of a program's image variables.
-/
namespace Boof
variable {V : Type}

/-- A program's image variables (`none`: out of scope, or a view whose array is gone) and the heap. -/
structure World (V : Type) where
  heap : Heap V
  vars : List (Option Gray)

/-- Operations a client can perform on its image variables. -/
inductive IOp (V : Type) where
  | mk (w h : Nat)
  | reshape (i w h : Nat)
  | copy (dst src : Nat)
  | view (i x0 y0 x1 y1 : Nat)
  | put (i x y : Nat) (v : V)
  | get (i x y : Nat)
  | drop (i : Nat)
  | assign (dst src : Nat)
  | clone (i : Nat)
  | rows (rows : List (List V))

namespace World

/-- The image in variable `i`. -/
def var (w : World V) (i : Nat) : Option Gray := (w.vars[i]?).join

/-- Variables after image `i` changed from `g` to `g'`: when its array was replaced, other images on the old
array dangle and are not used any more. -/
def updated (vars : List (Option Gray)) (i : Nat) (g g' : Gray) : List (Option Gray) :=
  (if g'.buf = g.buf then vars
   else vars.map (fun o => o.bind (fun a => if a.buf = g.buf then none else some a))).set i (some g')

/-- One client operation; operations on unused variables do nothing. -/
def step (z : V) (w : World V) : IOp V → Res (World V) Unit
  | .mk wd ht => match Gray.new z wd ht w.heap with
    | .ok g h => .ok () ⟨h, w.vars ++ [some g]⟩
    | .throw h => .throw ⟨h, w.vars⟩ | .ub => .ub | .timeout => .timeout
  | .reshape i wd ht => match w.var i with
    | none => .ok () w
    | some g => match g.reshape z wd ht w.heap with
      | .ok g' h => .ok () ⟨h, updated w.vars i g g'⟩
      | .throw h => .throw ⟨h, w.vars⟩ | .ub => .ub | .timeout => .timeout
  | .copy d s => match w.var d, w.var s with
    | some g, some src => match g.copy z src w.heap with
      | .ok g' h => .ok () ⟨h, updated w.vars d g g'⟩
      | .throw h => .throw ⟨h, w.vars⟩ | .ub => .ub | .timeout => .timeout
    | _, _ => .ok () w
  | .view i x0 y0 x1 y1 => match w.var i with
    | none => .ok () w
    | some g => match g.makeSubimage x0 y0 x1 y1 w.heap with
      | .ok g' h => .ok () ⟨h, w.vars ++ [some g']⟩
      | .throw h => .throw ⟨h, w.vars⟩ | .ub => .ub | .timeout => .timeout
  | .put i x y v => match w.var i with
    | none => .ok () w
    | some g => match g.setAt x y v w.heap with
      | .ok _ h => .ok () ⟨h, w.vars⟩
      | .throw h => .throw ⟨h, w.vars⟩ | .ub => .ub | .timeout => .timeout
  | .get i x y => match w.var i with
    | none => .ok () w
    | some g => match g.at' x y w.heap with
      | .ok _ h => .ok () ⟨h, w.vars⟩
      | .throw h => .throw ⟨h, w.vars⟩ | .ub => .ub | .timeout => .timeout
  | .drop i => match w.var i with
    | none => .ok () w
    | some g => match g.destroy w.heap with
      | .ok _ h => .ok () ⟨h, if g.subimage then w.vars.set i none
          else w.vars.map (fun o => o.bind (fun a => if a.buf = g.buf then none else some a))⟩
      | .throw h => .throw ⟨h, w.vars⟩ | .ub => .ub | .timeout => .timeout

  | .assign d s => match w.var d, w.var s with
    | some g, some src => match g.assign z src (decide (d = s)) w.heap with
      | .ok g' h => .ok () ⟨h, if src.subimage then w.vars.set d (some g') else updated w.vars d g g'⟩
      | .throw h => .throw ⟨h, w.vars⟩ | .ub => .ub | .timeout => .timeout
    | _, _ => .ok () w
  | .clone i => match w.var i with
    | none => .ok () w
    | some g => .ok () ⟨w.heap, w.vars ++ [some g.clone]⟩
  | .rows rows => match Gray.ofRows z rows w.heap with
    | .ok g h => .ok () ⟨h, w.vars ++ [some g]⟩
    | .throw h => .throw ⟨h, w.vars⟩ | .ub => .ub | .timeout => .timeout

/-- Every variable in use is a valid image, and no two of them own the same array. -/
structure Inv (w : World V) : Prop where
  valid : ∀ i g, w.var i = some g → g.Valid w.heap
  owners : ∀ i j a b, i ≠ j → w.var i = some a → w.var j = some b → a.subimage = false →
    b.subimage = false → a.buf ≠ b.buf

/-- What the client must respect: sizes below 2^32 pixels, no copying between overlapping images, and no copy-construction
of an image which owns its pixels. -/
def Allowed (w : World V) : IOp V → Prop
  | .mk wd ht => wd < P32 ∧ ht < P32 ∧ wd * ht < P32
  | .reshape _ wd ht => wd < P32 ∧ ht < P32 ∧ wd * ht < P32
  | .copy d s => ∀ g src, w.var d = some g → w.var s = some src → src.Sep g src.width src.height
  | .assign d s => d ≠ s → ∀ g src, w.var d = some g → w.var s = some src → src.subimage = false →
      src.Sep g src.width src.height
  | .clone i => ∀ g, w.var i = some g → g.subimage = true
  | .rows rows => rows.length < P32 ∧ (rows.headD []).length < P32 ∧ (rows.headD []).length * rows.length < P32
  | _ => True

/-- Run a history; an exception is caught by the client, which goes on with the world as the throw left it. -/
def run (z : V) : World V → List (IOp V) → Option (World V)
  | w, [] => some w
  | w, op :: ops => match w.step z op with
    | .ok _ w' => run z w' ops
    | .throw w' => run z w' ops
    | .ub => none
    | .timeout => none

/-- Each operation of the history is allowed at the moment it is performed. -/
def AllowedAll (z : V) : World V → List (IOp V) → Prop
  | _, [] => True
  | w, op :: ops => w.Allowed op ∧ ∀ w', (w.step z op = .ok () w' ∨ w.step z op = .throw w') → AllowedAll z w' ops


/-- What a client must respect in addition for memory to be released: no sub-image is assigned to an image which owns its
pixels, and all rows of a picture given by rows have the same length. -/
def Tidy (w : World V) : IOp V → Prop
  | .assign d s => d ≠ s → ∀ g src, w.var d = some g → w.var s = some src → src.subimage = true → g.subimage = true
  | .rows rows => ∀ row ∈ rows, row.length = (rows.headD []).length
  | _ => True

/-- The same for each operation of a history. -/
def TidyAll (z : V) : World V → List (IOp V) → Prop
  | _, [] => True
  | w, op :: ops => w.Tidy op ∧ ∀ w', (w.step z op = .ok () w' ∨ w.step z op = .throw w') → TidyAll z w' ops

/-- Every live array, except those that existed before array number `base` was made, belongs to a variable. -/
def Owned (base : Nat) (w : World V) : Prop :=
  ∀ b, base ≤ b → (w.heap.get b).isSome → ∃ i g, w.var i = some g ∧ g.subimage = false ∧ g.buf = b

end World
end Boof
