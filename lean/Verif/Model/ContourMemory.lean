import Verif.Model.Contour
/-
`ContourTracer` and `LinearContourLabelChang2004`, boofcv/contour.h and contour.cpp, with the tables of the tracers in
memory: each of the two tracers owns three arrays, which its constructor allocates and its destructor releases.
(`Model/Contour` models the same functions with the tables as values; `Props/ContourMemory` relates the two.)  The collection
of points stays a value, its memory is that of `Model/PackedMemory`.
-/
namespace Boof
open M

/-- contour.h:28-58, with the addresses of the three tables. -/
structure TracerObj where
  maxContourSize : Nat
  rule : ConnectRule
  ruleN : Nat
  binary : Option Gray
  labeled : Option Gray
  x : Nat
  y : Nat
  label : Int
  dir : Nat
  indexBinary : Nat
  indexLabel : Nat
  offsetsBinary : Nat
  offsetsLabeled : Nat
  nextDirection : Nat
deriving DecidableEq, Repr

namespace TracerObj

/-- contour.cpp:12-34; members which the constructor leaves indeterminate are taken from `junk`.  Fresh arrays hold zeros;
they are written before they are read. -/
def new (rule : ConnectRule) (junk : TracerObj) : M Int TracerObj := do
  let n := match rule with | .eight => 8 | .four => 4
  let nd ← newArr n 0
  loop n (fun i => wr nd i (match rule with
    | .eight => (((i + 4) % 8 + 2) % 8 : Nat)
    | .four => (((i + 2) % 4 + 1) % 4 : Nat)))
  let ob ← newArr n 0
  let ol ← newArr n 0
  pure { junk with maxContourSize := 4294967295, rule := rule, ruleN := n, binary := none, labeled := none,
                   offsetsBinary := ob, offsetsLabeled := ol, nextDirection := nd }

/-- contour.cpp:12-34 when memory may run out at line 19 or 24, at 32 or at 33: `std::bad_alloc` leaves the constructor, there
is no object, and its destructor does not run. -/
def newOom (directions binary labeled : Bool) (rule : ConnectRule) (junk : TracerObj) : M Int (Option TracerObj) := do
  let n := match rule with | .eight => 8 | .four => 4
  if directions then do
    let nd ← newArr n 0
    loop n (fun i => wr nd i (match rule with
      | .eight => (((i + 4) % 8 + 2) % 8 : Nat)
      | .four => (((i + 2) % 4 + 1) % 4 : Nat)))
    if binary then do
      let ob ← newArr n 0
      if labeled then do
        let ol ← newArr n 0
        pure (some { junk with maxContourSize := 4294967295, rule := rule, ruleN := n, binary := none, labeled := none,
                               offsetsBinary := ob, offsetsLabeled := ol, nextDirection := nd })
      else pure none
    else pure none
  else pure none

/-- contour.cpp:36-44 (the members' last values are not kept: the object is gone). -/
def destroy (t : TracerObj) : M Int Unit := do
  delArr t.offsetsBinary
  delArr t.offsetsLabeled
  delArr t.nextDirection

/-- The implicit copy constructor: member by member. -/
def copyConstruct (t : TracerObj) : TracerObj := t

/-- `offsets[i] = ...; offsets[i+1] = ...` for the given expressions. -/
def store (b : Nat) : Nat → List (M Int Int) → M Int Unit
  | _, [] => pure ()
  | i, m :: ms => do
    let v ← m
    wr b i v
    store b (i + 1) ms

/-- contour.cpp:66-76 -/
def setOffsets8 (offsets stride : Nat) : M Int Unit :=
  let s := toS32 stride
  store offsets 0 [pure 1, S32.arith (1 + s), pure s, S32.arith (-1 + s), pure (-1), S32.arith (-1 - s), S32.arith (-s), S32.arith (1 - s)]

/-- contour.cpp:78-84 -/
def setOffsets4 (offsets stride : Nat) : M Int Unit :=
  let s := toS32 stride
  store offsets 0 [pure 1, pure s, pure (-1), S32.arith (-s)]

/-- contour.cpp:52-64 -/
def setInputs (t : TracerObj) (binary labeled : Gray) : M Int TracerObj := do
  (match t.rule with | .eight => setOffsets8 t.offsetsBinary binary.stride | .four => setOffsets4 t.offsetsBinary binary.stride)
  (match t.rule with | .eight => setOffsets8 t.offsetsLabeled labeled.stride | .four => setOffsets4 t.offsetsLabeled labeled.stride)
  pure { t with binary := some binary, labeled := some labeled }

/-- `k` of the tests of `searchBlack4` (contour.cpp:152-168) or `searchBlack8` (170-198), for `n` = 4 or 8. -/
def searchGo (n : Nat) (binary : Gray) : Nat → TracerObj → M Int (Bool × TracerObj)
  | 0, t => pure (false, t)
  | k + 1, t => do
    let off ← rd t.offsetsBinary t.dir
    let i ← Tracer.ptrOff t.indexBinary off
    let black ← Tracer.checkBlack binary.buf i
    if black then pure (true, t) else searchGo n binary k { t with dir := (t.dir + 1) % n }

/-- contour.cpp:137-150 -/
def searchBlack (t : TracerObj) : M Int (Bool × TracerObj) := do
  let binary ← deref t.binary
  if t.ruleN = 4 then searchGo 4 binary 4 t else searchGo 8 binary 8 t

/-- contour.cpp:214-222 -/
def moveToNext (t : TracerObj) : M Int TracerObj := do
  let binary ← deref t.binary
  let ob ← rd t.offsetsBinary t.dir
  let ol ← rd t.offsetsLabeled t.dir
  let indexBinary := wrap32 (t.indexBinary + toU32 ob)
  let indexLabel := wrap32 (t.indexLabel + toU32 ol)
  let a := sub32 indexBinary binary.offset
  if binary.stride = 0 then ub
  else pure { t with indexBinary := indexBinary, indexLabel := indexLabel, x := a % binary.stride, y := a / binary.stride }

/-- contour.cpp:227-232 -/
def add (t : TracerObj) (points : PackedSet Point2D) (x y : Int) : M Int (PackedSet Point2D) := do
  let labeled ← deref t.labeled
  wr labeled.buf t.indexLabel t.label
  if points.sizeOfTail < t.maxContourSize then do
    let px ← S32.arith (x - 1)
    let py ← S32.arith (y - 1)
    liftPoints (points.pushTail ⟨0, 0⟩ ⟨px, py⟩)
  else pure points

/-- The loop of `trace`, contour.cpp:119-131; at most `fuel` iterations. -/
def traceLoop (initialX initialY initialDir : Nat) : (fuel : Nat) → TracerObj → PackedSet Point2D →
    M Int (TracerObj × PackedSet Point2D)
  | 0, _, _ => timeout
  | fuel + 1, t, points => do
    let (_, t) ← searchBlack t
    if t.x = initialX ∧ t.y = initialY ∧ t.dir = initialDir then pure (t, points)
    else do
      let points ← t.add points (toS32 t.x) (toS32 t.y)
      let t ← t.moveToNext
      let d ← rd t.nextDirection t.dir
      traceLoop initialX initialY initialDir fuel { t with dir := d.toNat } points

/-- contour.cpp:93-132 -/
def trace (fuel : Nat) (t : TracerObj) (points : PackedSet Point2D) (label : Int) (initialX initialY : Nat)
    (external : Bool) : M Int (TracerObj × PackedSet Point2D) := do
  let initialDir := match t.rule with
    | .eight => if external then 7 else 3
    | .four => if external then 0 else 2
  let binary ← deref t.binary
  let labeled ← deref t.labeled
  let t := { t with label := label, dir := initialDir, x := initialX, y := initialY,
                    indexBinary := binary.indexOf initialX initialY,
                    indexLabel := labeled.indexOf (sub32 initialX 1) (sub32 initialY 1) }
  let points ← t.add points (toS32 t.x) (toS32 t.y)
  let (found, t) ← searchBlack t
  if found then do
    let initialDir := t.dir
    let t ← t.moveToNext
    let d ← rd t.nextDirection t.dir
    traceLoop initialX initialY initialDir fuel { t with dir := d.toNat } points
  else pure (t, points)

end TracerObj

/-- contour.h:178-206, as `Labeller` but with the tables of the tracers in memory. -/
structure LabellerObj where
  minContourSize : Nat
  maxContourSize : Nat
  saveInternalContours : Bool
  tracer4 : TracerObj
  tracer8 : TracerObj
  rule : ConnectRule
  border : Gray
  packedPoints : PackedSet Point2D
  contours : List ContourPacked
deriving DecidableEq

namespace LabellerObj

/-- contour.cpp:255-261 and the member initialisers in contour.h:180-184; members are made in the order of their
declaration. -/
def new (rule : ConnectRule) (junk : TracerObj) : M Int LabellerObj := do
  let t4 ← TracerObj.new .four junk
  let t8 ← TracerObj.new .eight junk
  let border ← Gray.new 0 0 0
  pure { minContourSize := 0, maxContourSize := 4294967295, saveInternalContours := true,
         tracer4 := t4, tracer8 := t8, rule := rule, border := border,
         packedPoints := PackedSet.new ⟨0, 0⟩ 2000, contours := [] }

/-- The implicit destructor: members are destroyed in the reverse order of their declaration (contour.h:187-198). -/
def destroy (l : LabellerObj) : M Int Unit := do
  l.border.destroy
  l.tracer8.destroy
  l.tracer4.destroy

/-- The implicit copy constructor: member by member. -/
def copyConstruct (l : LabellerObj) : LabellerObj :=
  { l with tracer4 := l.tracer4.copyConstruct, tracer8 := l.tracer8.copyConstruct, border := l.border.clone }

/-- `setConnectRule`, contour.cpp:376-378 -/
def setConnectRule (l : LabellerObj) (rule : ConnectRule) : LabellerObj := { l with rule := rule }

/-- `*tracer`, contour.cpp:288 -/
def tracer (l : LabellerObj) : TracerObj := match l.rule with | .four => l.tracer4 | .eight => l.tracer8

/-- Assignment to `*tracer`. -/
def setTracer (l : LabellerObj) (t : TracerObj) : LabellerObj :=
  match l.rule with | .four => { l with tracer4 := t } | .eight => { l with tracer8 := t }

/-- The end of both steps, contour.cpp:339-342 and 361-364. -/
def limitTail (l : LabellerObj) : M Int LabellerObj :=
  if l.packedPoints.sizeOfTail ≥ l.maxContourSize ∨ l.packedPoints.sizeOfTail < l.minContourSize then do
    let p ← liftPoints l.packedPoints.removeTail
    let p ← liftPoints p.startNewSet
    pure { l with packedPoints := p }
  else pure l

/-- contour.cpp:326-343 -/
def handleStep1 (fuel : Nat) (l : LabellerObj) (x y : Nat) : M Int LabellerObj := do
  let id := wrap32 (l.contours.length + 1)
  let c : ContourPacked := { id := id, externalIndex := l.packedPoints.numberOfSets, internalIndexes := [] }
  let t := { l.tracer with maxContourSize := l.maxContourSize }
  let p ← liftPoints l.packedPoints.startNewSet
  let (t, p) ← t.trace fuel p (toS32 id) x y true
  limitTail ({ l with contours := l.contours ++ [c], packedPoints := p }.setTracer t)

/-- contour.cpp:349-365 -/
def handleStep2 (fuel : Nat) (l : LabellerObj) (labeled : Gray) (x y indexOut label : Nat) : M Int LabellerObj := do
  let label ← (if label = 0 then do
      let v ← rd labeled.buf (sub32 indexOut 1)
      pure (toU32 v)
    else pure label)
  match l.contours[sub32 label 1]? with
  | none => M.throw
  | some c =>
    let c := { c with internalIndexes := c.internalIndexes ++ [wrap32 l.packedPoints.setInfo.length] }
    let p ← liftPoints l.packedPoints.startNewSet
    let t := { l.tracer with maxContourSize := if l.saveInternalContours then l.maxContourSize else 0 }
    let (t, p) ← t.trace fuel p (toS32 label) x y false
    limitTail ({ l with contours := l.contours.set (sub32 label 1) c, packedPoints := p }.setTracer t)

/-- Body of the inner loop of `process`, contour.cpp:299-319. -/
def scanPixel (fuel : Nat) (labeled : Gray) (x y indexIn indexOut : Nat) (l : LabellerObj) : M Int LabellerObj := do
  let bit ← rd l.border.buf indexIn
  if bit ≠ 1 then pure l
  else do
    let label ← rd labeled.buf indexOut
    let label := toU32 label
    let above ← (if label = 0 then rd l.border.buf (sub32 indexIn l.border.stride) else pure 1)
    let first : Bool := decide (label = 0 ∧ above ≠ 1)
    let l ← (if first then handleStep1 fuel l x y else pure l)
    let label := if first then wrap32 l.contours.length else label
    let below ← rd l.border.buf (wrap32 (indexIn + l.border.stride))
    let l ← (if below = 0 then handleStep2 fuel l labeled x y indexOut label else pure l)
    if first = false ∧ below ≠ 0 then do
      Labeller.handleStep3 labeled indexOut
      pure l
    else pure l

/-- `process`, contour.cpp:269-320; `fuel` bounds the iterations of the loop in each `trace`. -/
def process (fuel : Nat) (l : LabellerObj) (binary labeled : Gray) : M Int (LabellerObj × Gray) := do
  let labeled ← labeled.reshape 0 binary.width binary.height
  let border ← (if l.border.width ≠ wrap32 (binary.width + 2) ∨ l.border.height ≠ wrap32 (binary.height + 2) then do
      let b ← l.border.reshape 0 (wrap32 (binary.width + 2)) (wrap32 (binary.height + 2))
      ImageMiscOps.fillBorder b 0 1
      pure b
    else pure l.border)
  let inner ← border.makeSubimage 1 1 (sub32 border.width 1) (sub32 border.height 1)
  let _ ← inner.copy 0 binary
  ImageMiscOps.fill labeled 0
  let p ← liftPoints l.packedPoints.clear
  let l := { l with border := border, packedPoints := p, contours := [] }
  let t ← l.tracer.setInputs border labeled
  let l := l.setTracer t
  let l ← loopS (sub32 border.height 1 - 1) l (fun k l =>
    let y := k + 1
    let indexIn := wrap32 (border.offset + y * border.stride + 1)
    let indexOut := wrap32 (labeled.offset + (y - 1) * labeled.stride)
    loopS (sub32 border.width 1 - 1) l (fun j l =>
      scanPixel fuel labeled (j + 1) y (wrap32 (indexIn + j)) (wrap32 (indexOut + j)) l))
  pure (l, labeled)

end LabellerObj
end Boof
