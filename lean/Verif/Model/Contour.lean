import Verif.Model.Image
import Verif.Model.ImageOps
import Verif.Model.PackedSet
import Verif.Model.Config
/-
`ContourTracer` and `LinearContourLabelChang2004`, boofcv/contour.h and contour.cpp.

Objects are records of their data members.  The `storagePoints` pointer of a tracer always points to the `packedPoints`
member of the labeller; that collection is passed to the tracer's functions explicitly.  Heap cells hold integers; all
images (`U8` and `S32`) live in one heap.
-/
namespace Boof
open M

/-- contour.h:16-18 -/
inductive ConnectRule where
  | four
  | eight
deriving DecidableEq, Repr

/-- Dereferencing a pointer to an object. -/
def deref {α : Type} : Option α → M Int α
  | some a => pure a
  | none => ub

/-- `table[i]` for a table allocated with `new`; outside of it is undefined behaviour. -/
def index {α : Type} (table : List α) (i : Nat) : M Int α := deref table[i]?

/-- Outcome of an operation on a collection of points. -/
def liftPoints {σ : Type} : Res σ Unit → M Int σ
  | .ok _ s => pure s
  | .throw _ => M.throw
  | .ub => ub
  | .timeout => timeout

/-- contour.h:28-58.  The three tables are lists; those of the offsets are indeterminate before `set_inputs`. -/
structure Tracer where
  maxContourSize : Nat
  rule : ConnectRule
  ruleN : Nat
  binary : Option Gray
  labeled : Option Gray
  x : Nat
  y : Nat
  label : Int
  dir : Nat
  indexBinary : Nat
  indexLabel : Nat
  offsetsBinary : List Int
  offsetsLabeled : List Int
  nextDirection : List Nat
deriving DecidableEq, Repr

namespace Tracer

/-- contour.cpp:12-34 (the branch which throws is not reachable with the two rules there are).  Members which the
constructor leaves indeterminate are taken from `junk`. -/
def new (rule : ConnectRule) (junk : Tracer) : Tracer :=
  let n := match rule with | .eight => 8 | .four => 4
  { junk with
    maxContourSize := 4294967295
    rule := rule
    ruleN := n
    binary := none
    labeled := none
    offsetsBinary := List.replicate n 0
    offsetsLabeled := List.replicate n 0
    nextDirection := match rule with
      | .eight => (List.range 8).map (fun i => ((i + 4) % 8 + 2) % 8)
      | .four => (List.range 4).map (fun i => ((i + 2) % 4 + 1) % 4) }

/-- contour.cpp:66-76; `1 + s` may overflow. -/
def setOffsets8 (stride : Nat) : M Int (List Int) := do
  let s := toS32 stride
  let o1 ← S32.arith (1 + s)
  let o3 ← S32.arith (-1 + s)
  let o5 ← S32.arith (-1 - s)
  let o6 ← S32.arith (-s)
  let o7 ← S32.arith (1 - s)
  pure [1, o1, s, o3, -1, o5, o6, o7]

/-- contour.cpp:78-84 -/
def setOffsets4 (stride : Nat) : M Int (List Int) := do
  let s := toS32 stride
  let o3 ← S32.arith (-s)
  pure [1, s, -1, o3]

/-- contour.cpp:52-64 -/
def setInputs (t : Tracer) (binary labeled : Gray) : M Int Tracer := do
  let ob ← (match t.rule with | .eight => setOffsets8 binary.stride | .four => setOffsets4 binary.stride)
  let ol ← (match t.rule with | .eight => setOffsets8 labeled.stride | .four => setOffsets4 labeled.stride)
  pure { t with binary := some binary, labeled := some labeled, offsetsBinary := ob, offsetsLabeled := ol }

/-- contour.cpp:204-212, on the pixel in cell `i` of array `b`. -/
def checkBlack (b i : Nat) : M Int Bool := do
  let v ← rd b i
  if v = 1 then pure true
  else do
    wr b i 255
    pure false

/-- `binary_ptr[off]` where `binary_ptr` points to cell `i`: the cell, which must not be before the array. -/
def ptrOff (i : Nat) (off : Int) : M Int Nat := if (i : Int) + off < 0 then ub else pure ((i : Int) + off).toNat

/-- `k` of the tests of `searchBlack4` (contour.cpp:152-168) or `searchBlack8` (170-198), for `n` = 4 or 8. -/
def searchGo (n : Nat) (binary : Gray) : Nat → Tracer → M Int (Bool × Tracer)
  | 0, t => pure (false, t)
  | k + 1, t => do
    let off ← index t.offsetsBinary t.dir
    let i ← ptrOff t.indexBinary off
    let black ← checkBlack binary.buf i
    if black then pure (true, t) else searchGo n binary k { t with dir := (t.dir + 1) % n }

/-- contour.cpp:137-150 -/
def searchBlack (t : Tracer) : M Int (Bool × Tracer) := do
  let binary ← deref t.binary
  if t.ruleN = 4 then searchGo 4 binary 4 t else searchGo 8 binary 8 t

/-- contour.cpp:214-222 -/
def moveToNext (t : Tracer) : M Int Tracer := do
  let binary ← deref t.binary
  let ob ← index t.offsetsBinary t.dir
  let ol ← index t.offsetsLabeled t.dir
  let indexBinary := wrap32 (t.indexBinary + toU32 ob)
  let indexLabel := wrap32 (t.indexLabel + toU32 ol)
  let a := sub32 indexBinary binary.offset
  if binary.stride = 0 then ub
  else pure { t with indexBinary := indexBinary, indexLabel := indexLabel, x := a % binary.stride, y := a / binary.stride }

/-- contour.cpp:227-232; the parameters are `int`. -/
def add (t : Tracer) (points : PackedSet Point2D) (x y : Int) : M Int (PackedSet Point2D) := do
  let labeled ← deref t.labeled
  wr labeled.buf t.indexLabel t.label
  if points.sizeOfTail < t.maxContourSize then do
    let px ← S32.arith (x - 1)
    let py ← S32.arith (y - 1)
    liftPoints (points.pushTail ⟨0, 0⟩ ⟨px, py⟩)
  else pure points

/-- The loop of `trace`, contour.cpp:119-131; at most `fuel` iterations. -/
def traceLoop (initialX initialY initialDir : Nat) : (fuel : Nat) → Tracer → PackedSet Point2D →
    M Int (Tracer × PackedSet Point2D)
  | 0, _, _ => timeout
  | fuel + 1, t, points => do
    let (_, t) ← searchBlack t
    if t.x = initialX ∧ t.y = initialY ∧ t.dir = initialDir then pure (t, points)
    else do
      let points ← t.add points (toS32 t.x) (toS32 t.y)
      let t ← t.moveToNext
      let d ← index t.nextDirection t.dir
      traceLoop initialX initialY initialDir fuel { t with dir := d } points

/-- contour.cpp:93-132 -/
def trace (fuel : Nat) (t : Tracer) (points : PackedSet Point2D) (label : Int) (initialX initialY : Nat)
    (external : Bool) : M Int (Tracer × PackedSet Point2D) := do
  let initialDir := match t.rule with
    | .eight => if external then 7 else 3
    | .four => if external then 0 else 2
  let binary ← deref t.binary
  let labeled ← deref t.labeled
  let t := { t with label := label, dir := initialDir, x := initialX, y := initialY,
                    indexBinary := binary.indexOf initialX initialY,
                    indexLabel := labeled.indexOf (sub32 initialX 1) (sub32 initialY 1) }
  let points ← t.add points (toS32 t.x) (toS32 t.y)
  let (found, t) ← searchBlack t
  if found then do
    let initialDir := t.dir
    let t ← t.moveToNext
    let d ← index t.nextDirection t.dir
    traceLoop initialX initialY initialDir fuel { t with dir := d } points
  else pure (t, points)

end Tracer

/-- contour.h:121-142 and contour.cpp:242-253 -/
structure ContourPacked where
  id : Nat
  externalIndex : Nat
  internalIndexes : List Nat
deriving DecidableEq, Repr

/-- contour.h:178-206.  `x`, `y`, `indexIn` and `indexOut` are only used during `process` and are parameters of the
functions below; the pointer `tracer` is determined by `rule`. -/
structure Labeller where
  minContourSize : Nat
  maxContourSize : Nat
  saveInternalContours : Bool
  tracer4 : Tracer
  tracer8 : Tracer
  rule : ConnectRule
  border : Gray
  packedPoints : PackedSet Point2D
  contours : List ContourPacked
deriving DecidableEq

namespace Labeller

/-- contour.cpp:255-261 and the member initialisers in contour.h:180-184; `border` is default constructed. -/
def new (rule : ConnectRule) (junk : Tracer) : M Int Labeller := do
  let border ← Gray.new 0 0 0
  pure { minContourSize := 0, maxContourSize := 4294967295, saveInternalContours := true,
         tracer4 := Tracer.new .four junk, tracer8 := Tracer.new .eight junk, rule := rule, border := border,
         packedPoints := PackedSet.new ⟨0, 0⟩ 2000, contours := [] }

/-- `setConnectRule`, contour.cpp:376-378 -/
def setConnectRule (l : Labeller) (rule : ConnectRule) : Labeller := { l with rule := rule }

/-- `*tracer`, contour.cpp:288 -/
def tracer (l : Labeller) : Tracer := match l.rule with | .four => l.tracer4 | .eight => l.tracer8

/-- Assignment to `*tracer`. -/
def setTracer (l : Labeller) (t : Tracer) : Labeller :=
  match l.rule with | .four => { l with tracer4 := t } | .eight => { l with tracer8 := t }

/-- The end of both steps: drop the points of a contour which is too long or too short, contour.cpp:339-342 and 361-364. -/
def limitTail (l : Labeller) : M Int Labeller :=
  if l.packedPoints.sizeOfTail ≥ l.maxContourSize ∨ l.packedPoints.sizeOfTail < l.minContourSize then do
    let p ← liftPoints l.packedPoints.removeTail
    let p ← liftPoints p.startNewSet
    pure { l with packedPoints := p }
  else pure l

/-- contour.cpp:326-343 -/
def handleStep1 (fuel : Nat) (l : Labeller) (x y : Nat) : M Int Labeller := do
  let id := wrap32 (l.contours.length + 1)
  let c : ContourPacked := { id := id, externalIndex := l.packedPoints.numberOfSets, internalIndexes := [] }
  let t := { l.tracer with maxContourSize := l.maxContourSize }
  let p ← liftPoints l.packedPoints.startNewSet
  let (t, p) ← t.trace fuel p (toS32 id) x y true
  limitTail ({ l with contours := l.contours ++ [c], packedPoints := p }.setTracer t)

/-- contour.cpp:349-365; `contours.at` throws when the index is out of range. -/
def handleStep2 (fuel : Nat) (l : Labeller) (labeled : Gray) (x y indexOut label : Nat) : M Int Labeller := do
  let label ← (if label = 0 then do
      let v ← rd labeled.buf (sub32 indexOut 1)
      pure (toU32 v)
    else pure label)
  match l.contours[sub32 label 1]? with
  | none => M.throw
  | some c =>
    let c := { c with internalIndexes := c.internalIndexes ++ [wrap32 l.packedPoints.setInfo.length] }
    let p ← liftPoints l.packedPoints.startNewSet
    let t := { l.tracer with maxContourSize := if l.saveInternalContours then l.maxContourSize else 0 }
    let (t, p) ← t.trace fuel p (toS32 label) x y false
    limitTail ({ l with contours := l.contours.set (sub32 label 1) c, packedPoints := p }.setTracer t)

/-- contour.cpp:371-374 -/
def handleStep3 (labeled : Gray) (indexOut : Nat) : M Int Unit := do
  let v ← rd labeled.buf indexOut
  if v = 0 then do
    let u ← rd labeled.buf (sub32 indexOut 1)
    wr labeled.buf indexOut u
  else pure ()

/-- Body of the inner loop of `process`, contour.cpp:299-319. -/
def scanPixel (fuel : Nat) (labeled : Gray) (x y indexIn indexOut : Nat) (l : Labeller) : M Int Labeller := do
  let bit ← rd l.border.buf indexIn
  if bit ≠ 1 then pure l
  else do
    let label ← rd labeled.buf indexOut
    let label := toU32 label
    let above ← (if label = 0 then rd l.border.buf (sub32 indexIn l.border.stride) else pure 1)
    let first : Bool := decide (label = 0 ∧ above ≠ 1)
    let l ← (if first then handleStep1 fuel l x y else pure l)
    let label := if first then wrap32 l.contours.length else label
    let below ← rd l.border.buf (wrap32 (indexIn + l.border.stride))
    let l ← (if below = 0 then handleStep2 fuel l labeled x y indexOut label else pure l)
    if first = false ∧ below ≠ 0 then do
      handleStep3 labeled indexOut
      pure l
    else pure l

/-- `process`, contour.cpp:269-320.  `fuel` bounds the iterations of the loop in each `trace`.  The values are the labeller
and the label image afterwards. -/
def process (fuel : Nat) (l : Labeller) (binary labeled : Gray) : M Int (Labeller × Gray) := do
  let labeled ← labeled.reshape 0 binary.width binary.height
  let border ← (if l.border.width ≠ wrap32 (binary.width + 2) ∨ l.border.height ≠ wrap32 (binary.height + 2) then do
      let b ← l.border.reshape 0 (wrap32 (binary.width + 2)) (wrap32 (binary.height + 2))
      ImageMiscOps.fillBorder b 0 1
      pure b
    else pure l.border)
  let inner ← border.makeSubimage 1 1 (sub32 border.width 1) (sub32 border.height 1)
  let _ ← inner.copy 0 binary
  ImageMiscOps.fill labeled 0
  let p ← liftPoints l.packedPoints.clear
  let l := { l with border := border, packedPoints := p, contours := [] }
  let t ← l.tracer.setInputs border labeled
  let l := l.setTracer t
  let l ← loopS (sub32 border.height 1 - 1) l (fun k l =>
    let y := k + 1
    let indexIn := wrap32 (border.offset + y * border.stride + 1)
    let indexOut := wrap32 (labeled.offset + (y - 1) * labeled.stride)
    loopS (sub32 border.width 1 - 1) l (fun j l =>
      scanPixel fuel labeled (j + 1) y (wrap32 (indexIn + j)) (wrap32 (indexOut + j)) l))
  pure (l, labeled)

end Labeller
end Boof
