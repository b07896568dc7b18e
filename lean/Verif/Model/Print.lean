import Verif.Model.Blur
/-
boofcv/print_structures.h and boofcv/testing_utils.h.

Functions which print return what they print.  `printf` is modelled by the text of its conversions; of a `printf` whose
argument does not have the type of its conversion (a 64-bit number for `%x` or `%d`) the behaviour is undefined.  Unsigned
sizes printed by `%d` are taken to be converted to `int`.
-/
namespace Boof
open M
variable {V S : Type}

/-- Characters sent to the standard output. -/
abbrev Text := List Char

/-- `%d` -/
def fmtDec (v : Int) : Text :=
  if v < 0 then '-' :: Nat.toDigits 10 (-v).toNat else Nat.toDigits 10 v.toNat

/-- `%02x` of an `unsigned int` -/
def fmtHex (n : Nat) : Text :=
  List.replicate (2 - (Nat.toDigits 16 n).length) '0' ++ Nat.toDigits 16 n

/-- `%02x` of a pixel of type `t` (print_structures.h:32), which is promoted to `int` and read as `unsigned int`. -/
def pixelHex (t : IntTy) (v : Int) : Option Text :=
  if t.bits ≤ 32 then some (fmtHex (toU32 v)) else none

/-- `%d` of a coefficient of type `t` (print_structures.h:58 and 80). -/
def coefDec (t : IntTy) (v : Int) : Option Text :=
  if t.bits ≤ 32 then some (fmtDec v) else none

/-- `std::abs(a - b)` for integral pixels (print_structures.h:15, testing_utils.h:34, 50, 75); overflow, and the magnitude of the
most negative number, are undefined.  For `U32` the call does not compile (`std::abs(unsigned)` is ambiguous). -/
def absDiffInt (t : IntTy) (a b : Int) : Option Int :=
  (t.promote.arithO (a - b)).bind (fun d => if d = t.promote.lo then none else some |d|)

/-- `print_difference`, print_structures.h:9-23; `dist` is `std::abs(a - b)`. -/
def printDifference [LinearOrder V] (dist : V → V → Option V) (a b : Gray) (tol : V) : M V Text := do
  checkSameShape2 a.width a.height b.width b.height
  loopS a.height [] (fun y out => do
    let out ← loopS a.width out (fun x out => do
      let va ← a.at' x y
      let vb ← b.at' x y
      let d ← opt (dist va vb)
      pure (out ++ (if d > tol then "X" else "-").toList))
    pure (out ++ "\n".toList))

/-- `print` of an image, print_structures.h:25-37 (integral pixels) and 39-51 (floating point pixels); `fmt` is the
conversion of a pixel, `%02x` or `%.4e`. -/
def printImage (fmt : V → Option Text) (a : Gray) : M V Text := do
  let out := "image ".toList ++ fmtDec (toS32 a.width) ++ " x ".toList ++ fmtDec (toS32 a.height) ++ "\n".toList
  let out ← loopS a.height out (fun y out => do
    let out ← loopS a.width (out ++ "[ ".toList) (fun x out => do
      let v ← a.at' x y
      let t ← opt (fmt v)
      pure (out ++ t ++ " ".toList))
    pure (out ++ "]\n".toList))
  pure (out ++ "\n".toList)

/-- `print_kernel` of a `Kernel1D`, print_structures.h:53-61 (integral) and 63-71 (floating point). -/
def printKernel1D (fmt : S → Option Text) (k : Kernel S) : M V Text := do
  let out ← loopS k.width "Kernel1D[".toList (fun y out => do
    let v ← k.get y
    let t ← opt (fmt v)
    pure (out ++ " ".toList ++ t))
  pure (out ++ " ]\n".toList)

/-- `print_kernel` of a `Kernel2D`, print_structures.h:73-84 (integral) and 86-97 (floating point). -/
def printKernel2D (fmt : S → Option Text) (k : Kernel S) : M V Text := do
  let out := "Kernel2D{ offset=".toList ++ fmtDec (toS32 k.offset) ++ ", width=".toList ++ fmtDec (toS32 k.width) ++ " }\n".toList
  loopS k.width out (fun y out => do
    let out ← loopS k.width (out ++ " ".toList) (fun x out => do
      let v ← k.get (wrap32 (y * k.width + x))
      let t ← opt (fmt v)
      pure (out ++ " ".toList ++ t))
    pure (out ++ "\n".toList))

/-! ### testing_utils.h

A check returns whether it passes.  `ASSERT_...` leaves the function when it fails. -/

/-- The pixels `(x,y)` chosen by `sel` are compared in the order of the loops until one fails. -/
def checkPixels [LinearOrder V] (dist : V → V → Option V) (sel : Nat → Nat → Bool) (a b : Gray) (tol : V) : M V Bool :=
  if a.width ≠ b.width then pure false
  else if a.height ≠ b.height then pure false
  else loopS a.height true (fun y ok => loopS a.width ok (fun x ok =>
    if ok = false then pure false
    else if sel x y then do
      let va ← a.at' x y
      let vb ← b.at' x y
      let d ← opt (dist va vb)
      pure (decide (d ≤ tol))
    else pure ok))

/-- `check_equals`, testing_utils.h:26-37 -/
def checkEquals [LinearOrder V] (dist : V → V → Option V) (a b : Gray) (tol : V) : M V Bool :=
  checkPixels dist (fun _ _ => true) a b tol

/-- The condition of `check_equals_border`, testing_utils.h:48.  The coordinates are `int32_t` and converted to `uint32_t`. -/
def onBorder (a : Gray) (bx0 bx1 by0 by1 x y : Nat) : Bool :=
  x < bx0 || y < by0 || x ≥ sub32 a.width bx1 || y ≥ sub32 a.height by1

/-- The condition of `check_equals_inner`, testing_utils.h:73. -/
def onInner (a : Gray) (bx0 bx1 by0 by1 x y : Nat) : Bool :=
  x ≥ bx0 && y ≥ by0 && x < sub32 a.width bx1 && y < sub32 a.height by1

/-- `check_equals_border`, testing_utils.h:39-61 (what it prints about a failure is left out; sizes are below 2^31). -/
def checkEqualsBorder [LinearOrder V] (dist : V → V → Option V) (a b : Gray) (bx0 bx1 by0 by1 : Nat) (tol : V) : M V Bool :=
  checkPixels dist (onBorder a bx0 bx1 by0 by1) a b tol

/-- `check_equals_inner`, testing_utils.h:63-85 (what it prints about a failure is left out; sizes are below 2^31). -/
def checkEqualsInner [LinearOrder V] (dist : V → V → Option V) (a b : Gray) (bx0 bx1 by0 by1 : Nat) (tol : V) : M V Bool :=
  checkPixels dist (onInner a bx0 bx1 by0 by1) a b tol

/-- `create_subimage`, testing_utils.h:14-24.  (The result is taken to be constructed in place.) -/
def createSubimage (z : V) (input : Gray) : M V Gray := do
  let larger ← Gray.new z (wrap32 (input.width + 4)) (wrap32 (input.height + 6))
  let sub ← larger.makeSubimage 2 3 (wrap32 (2 + input.width)) (wrap32 (3 + input.height))
  let sub ← sub.copy z input
  let larger := { larger with subimage := true }
  larger.destroy
  pure sub

end Boof
