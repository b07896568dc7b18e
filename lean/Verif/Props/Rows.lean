import Verif.Proofs.Rows
/-
C70: images given by their rows.
-/
namespace Boof
variable {V : Type}

/-- Rows of equal length give the image with exactly these rows, in an array of its own; nothing else changes. -/
theorem C70_rows (z : V) (h : Heap V) {rows : List (List V)} {w : Nat} (hw : w < P32) (hh : rows.length < P32)
    (ha : w * rows.length < P32) (he : ∀ row ∈ rows, row.length = w) (h0 : rows = [] → w = 0) :
    ∃ g h', Gray.ofRows z rows h = .ok g h' ∧ g.width = w ∧ g.height = rows.length ∧ g.subimage = false ∧
      g.buf = h.next ∧ g.Valid h' ∧ (∀ x y, x < w → y < rows.length → h'.px g x y = (rows[y]?).bind (·[x]?)) ∧
      OneMore h h' :=
  ofRows_run z h hw hh ha he h0

/-- Rows of different length are refused with an exception.  Existing arrays are as they were, but the array made for the
picture stays allocated. -/
theorem C70_rows_throw (z : V) (h : Heap V) {first : List V} {rest : List (List V)} (hw : first.length < P32)
    (hh : rest.length + 1 < P32) (ha : first.length * (rest.length + 1) < P32)
    (hne : ∃ row ∈ rest, row.length ≠ first.length) :
    ∃ h', Gray.ofRows z (first :: rest) h = .throw h' ∧ OneMore h h' :=
  ofRows_throws z h hw hh ha hne

/-- A 2x2 picture, and three rows of which the last is too long. -/
example : ∃ g h', Gray.ofRows (0:Int) [[1,2],[3,4]] ⟨[some [9]]⟩ = .ok g h' ∧ h'.px g 1 0 = some 2 ∧ h'.px g 0 1 = some 3 :=
  ⟨_, _, rfl, by decide, by decide⟩
example : ∀ row ∈ [[1,2],[3,4]], row.length = 2 := by decide
example : ∃ row ∈ [[3,4],[5,6,7]], row.length ≠ [1,2].length := by decide

end Boof
