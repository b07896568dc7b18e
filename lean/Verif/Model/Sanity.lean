import Verif.Model.Image
/-
boofcv/sanity_checks.cpp.  Only the shapes of the images matter, so they are passed as width/height.
-/
namespace Boof
open M
variable {V : Type}

/-- `checkSameShape(a,b)`, sanity_checks.cpp:9-12 -/
def checkSameShape2 (aw ah bw bh : Nat) : M V Unit :=
  if aw ≠ bw ∨ ah ≠ bh then M.throw else pure ()

/-- `checkSameShape(a,b,c)`, sanity_checks.cpp:14-19 -/
def checkSameShape3 (aw ah bw bh cw ch : Nat) : M V Unit :=
  if aw ≠ bw ∨ ah ≠ bh then M.throw
  else if aw ≠ cw ∨ ah ≠ ch then M.throw
  else pure ()

end Boof
