import Verif.Model.Jni
/-
How Java reads packed contours.
-/
namespace Boof

/-- How the Java side (`PackedSetsPoint2D_I32`) finds point `i` of a set described by `(start, length, block)`:
ints are numbered on from `start` in block `block`, two per point, continuing in the next block. -/
def JavaPacked.point (j : JavaPacked) (start block i : Nat) : Option Point2D :=
  match j.blocks[block + (start + 2 * i) / j.blockLength]? with
  | none => none
  | some row =>
    match row[(start + 2 * i) % j.blockLength]?, row[(start + 2 * i) % j.blockLength + 1]? with
    | some x, some y => some ⟨x, y⟩
    | _, _ => none

/-- The points of a set as Java reads them. -/
def JavaPacked.decode (j : JavaPacked) (k : Nat) : Option (List (Option Point2D)) :=
  (j.sets[k]?).map (fun s => (List.range s.2.1).map (fun i => j.point s.1 s.2.2 i))

end Boof
