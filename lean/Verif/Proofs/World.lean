import Verif.Proofs.ImageOps
import Verif.Proofs.Rows
import Verif.Spec.World
/-
Lemmas about histories of image variables.
-/
namespace Boof
variable {V : Type}
namespace World

theorem var_set {vars : List (Option Gray)} {i j : Nat} {o : Option Gray} {h : Heap V}
    (hi : i < vars.length) :
    (World.mk h (vars.set i o)).var j = if j = i then o else (World.mk h vars).var j := by
  simp only [var, List.getElem?_set]
  by_cases e : i = j
  · subst e; simp [hi]
  · have : ¬ j = i := fun e' => e e'.symm
    simp [e, this]

theorem var_append {vars : List (Option Gray)} {j : Nat} {g : Gray} {h h' : Heap V} :
    (World.mk h (vars ++ [some g])).var j = if j = vars.length then some g else (World.mk h' vars).var j := by
  simp only [var]
  by_cases e : j = vars.length
  · subst e; simp
  · simp only [e, if_false]
    rcases Nat.lt_or_ge j vars.length with hlt | hge
    · rw [List.getElem?_append_left hlt]
    · rw [List.getElem?_eq_none (by simp; omega), List.getElem?_eq_none hge]

theorem var_heap {vars : List (Option Gray)} {h h' : Heap V} (j : Nat) :
    (World.mk h vars).var j = (World.mk h' vars).var j := rfl

theorem var_map {vars : List (Option Gray)} {f : Gray → Option Gray} {h : Heap V} {j : Nat} :
    (World.mk h (vars.map (fun o => o.bind f))).var j = ((World.mk h vars).var j).bind f := by
  simp only [var, List.getElem?_map]
  cases vars[j]? with
  | none => rfl
  | some o => cases o <;> rfl

theorem lt_of_var {w : World V} {i : Nat} {g : Gray} (e : w.var i = some g) : i < w.vars.length := by
  rcases Nat.lt_or_ge i w.vars.length with hlt | hge
  · exact hlt
  · unfold var at e; rw [List.getElem?_eq_none hge] at e; cases e

/-- After replacing variable `i`. -/
theorem var_updated {w : World V} {i : Nat} {g g' : Gray} {h' : Heap V} (ei : w.var i = some g) (j : Nat) :
    (World.mk h' (updated w.vars i g g')).var j =
      if j = i then some g'
      else if g'.buf = g.buf then w.var j
      else (w.var j).bind (fun a => if a.buf = g.buf then none else some a) := by
  unfold updated
  have hi := lt_of_var ei
  by_cases e : g'.buf = g.buf
  · rw [if_pos e, var_set hi, if_pos e]; rfl
  · rw [if_neg e, var_set (by simpa using hi), if_neg e]
    by_cases e2 : j = i
    · rw [if_pos e2, if_pos e2]
    · rw [if_neg e2, if_neg e2, var_map]; rfl

/-- The invariant survives replacing image `i` by `g'` when other arrays are untouched. -/
theorem inv_updated {w : World V} (hI : w.Inv) {i : Nat} {g g' : Gray} {h' : Heap V}
    (ei : w.var i = some g) (hv : g'.Valid h') (hsub : g'.subimage = g.subimage)
    (hframe : ∀ b i, b ≠ g.buf → b < w.heap.next → h'.cell b i = w.heap.cell b i)
    (halive : ∀ b, b ≠ g.buf → b < w.heap.next → (h'.get b).isSome = (w.heap.get b).isSome)
    (hbuf : (g'.buf = g.buf ∧ ∀ a : Gray, a.Valid w.heap → a.Valid h') ∨ w.heap.next ≤ g'.buf) :
    (World.mk h' (updated w.vars i g g')).Inv := by
  have hgl := (hI.valid i g ei).lt_next
  -- every other variable that is still in use was in use before and is still valid
  have old : ∀ j a, j ≠ i → (World.mk h' (updated w.vars i g g')).var j = some a →
      w.var j = some a ∧ a.Valid h' ∧ (g'.buf ≠ g.buf → a.buf ≠ g.buf) := by
    intro j a hj ea
    rw [var_updated ei, if_neg hj] at ea
    by_cases e : g'.buf = g.buf
    · rw [if_pos e] at ea
      rcases hbuf with ⟨_, hk⟩ | hk
      · exact ⟨ea, hk a (hI.valid j a ea), fun hn => absurd e hn⟩
      · omega
    · rw [if_neg e] at ea
      rcases ha : w.var j with _ | a'
      · rw [ha] at ea; cases ea
      · rw [ha] at ea
        simp only [Option.bind_some] at ea
        by_cases eb : a'.buf = g.buf
        · rw [if_pos eb] at ea; cases ea
        · rw [if_neg eb] at ea
          cases ea
          have hva := hI.valid j a ha
          refine ⟨rfl, hva.transfer ?_ ?_, fun _ => eb⟩
          · rw [halive _ eb hva.lt_next]; exact hva.live
          · intro k hk; rw [hframe _ _ eb hva.lt_next]; exact hva.cells k hk
  refine ⟨?_, ?_⟩
  · intro j a ea
    by_cases hj : j = i
    · rw [var_updated ei, if_pos hj] at ea; cases ea; exact hv
    · exact (old j a hj ea).2.1
  · intro j k a b hjk ea eb sa sb
    by_cases hj : j = i
    · have hk : k ≠ i := fun e => hjk (hj.trans e.symm)
      obtain ⟨ob, _, _⟩ := old k b hk eb
      rw [var_updated ei, if_pos hj] at ea; cases ea
      have := hI.owners i k g b (by omega) ei ob (by rw [← hsub]; exact sa) sb
      rcases hbuf with ⟨e, _⟩ | e
      · rw [e]; exact this
      · have := (hI.valid k b ob).lt_next; omega
    · obtain ⟨oa, _, _⟩ := old j a hj ea
      by_cases hk : k = i
      · rw [var_updated ei, if_pos hk] at eb; cases eb
        have := hI.owners j i a g (by omega) oa ei sa (by rw [← hsub]; exact sb)
        rcases hbuf with ⟨e, _⟩ | e
        · rw [e]; exact this
        · have := (hI.valid j a oa).lt_next; omega
      · obtain ⟨ob, _, _⟩ := old k b hk eb
        exact hI.owners j k a b hjk oa ob sa sb

/-- Only the values of the variables matter. -/
theorem inv_congr {w : World V} (hI : w.Inv) {vars : List (Option Gray)}
    (he : ∀ j, (World.mk w.heap vars).var j = w.var j) : (World.mk w.heap vars).Inv :=
  ⟨fun i g e => hI.valid i g (by rw [← he]; exact e),
   fun i j a b hij ea eb => hI.owners i j a b hij (by rw [← he]; exact ea) (by rw [← he]; exact eb)⟩

/-- The invariant survives replacing an image by a sub-image. -/
theorem inv_set_view {w : World V} (hI : w.Inv) {i : Nat} {g g' : Gray} (ei : w.var i = some g) (hv : g'.Valid w.heap)
    (hs : g'.subimage = true) : (World.mk w.heap (w.vars.set i (some g'))).Inv := by
  refine ⟨?_, ?_⟩
  · intro j a ea
    rw [var_set (lt_of_var ei)] at ea
    split at ea
    · cases ea; exact hv
    · exact hI.valid j a ea
  · intro j k a b hjk ea eb sa sb
    rw [var_set (lt_of_var ei)] at ea eb
    split at ea
    · cases ea; rw [hs] at sa; cases sa
    · split at eb
      · cases eb; rw [hs] at sb; cases sb
      · exact hI.owners j k a b hjk ea eb sa sb

/-- The invariant survives a new sub-image. -/
theorem inv_append_view {w : World V} (hI : w.Inv) {g' : Gray} (hv : g'.Valid w.heap) (hs : g'.subimage = true) :
    (World.mk w.heap (w.vars ++ [some g'])).Inv := by
  refine ⟨?_, ?_⟩
  · intro j a ea
    rw [var_append (h' := w.heap)] at ea
    split at ea
    · cases ea; exact hv
    · exact hI.valid j a ea
  · intro j k a b hjk ea eb sa sb
    rw [var_append (h' := w.heap)] at ea eb
    split at ea
    · cases ea; rw [hs] at sa; cases sa
    · split at eb
      · cases eb; rw [hs] at sb; cases sb
      · exact hI.owners j k a b hjk ea eb sa sb

/-- A valid image stays valid when an array is made. -/
theorem valid_oneMore {h h' : Heap V} {a : Gray} (hm : OneMore h h') (hv : a.Valid h) : a.Valid h' := by
  refine hv.transfer ?_ ?_
  · rw [hm.alive _ hv.lt_next]; exact hv.live
  · intro k hk; rw [hm.frame _ _ hv.lt_next]; exact hv.cells k hk

/-- The invariant survives making an array, -/
theorem inv_oneMore {w : World V} (hI : w.Inv) {h' : Heap V} (hm : OneMore w.heap h') : (World.mk h' w.vars).Inv :=
  ⟨fun j a ea => valid_oneMore hm (hI.valid j a ea), hI.owners⟩

/-- and giving it to a new image. -/
theorem inv_append_new {w : World V} (hI : w.Inv) {h' : Heap V} (hm : OneMore w.heap h') {g : Gray} (hv : g.Valid h')
    (eb : g.buf = w.heap.next) : (World.mk h' (w.vars ++ [some g])).Inv := by
  refine ⟨?_, ?_⟩
  · intro i a ea
    rw [var_append (h' := w.heap)] at ea
    split at ea
    · cases ea; exact hv
    · exact valid_oneMore hm (hI.valid i a ea)
  · intro i j a b hij ea eb' sa sb
    rw [var_append (h' := w.heap)] at ea eb'
    split at ea
    · cases ea
      rw [if_neg (by omega)] at eb'
      have := (hI.valid j b eb').lt_next; omega
    · split at eb'
      · cases eb'
        have := (hI.valid i a ea).lt_next; omega
      · exact hI.owners i j a b hij ea eb' sa sb

/-- `updated` with the same image changes nothing. -/
theorem var_updated_same {w : World V} {i : Nat} {g : Gray} (ei : w.var i = some g) (j : Nat) :
    (World.mk w.heap (updated w.vars i g g)).var j = w.var j := by
  rw [var_updated ei, if_pos rfl]
  split
  · next e => subst e; exact ei.symm
  · rfl

theorem var_set_same {w : World V} {i : Nat} {g : Gray} (ei : w.var i = some g) (j : Nat) :
    (World.mk w.heap (w.vars.set i (some g))).var j = w.var j := by
  rw [var_set (lt_of_var ei)]
  split
  · next e => subst e; exact ei.symm
  · rfl

/-- Constructing an image makes one array. -/
theorem new_oneMore (z : V) (h : Heap V) (w ht : Nat) : OneMore h (h.alloc (List.replicate (w * ht) z)) := by
  refine ⟨by rw [Heap.next_alloc], by simp [Heap.get_alloc], ?_, ?_⟩
  · intro b i hb; rw [Heap.cell_alloc, if_neg (by omega)]
  · intro b hb; rw [Heap.get_alloc, if_neg (by omega)]

/-- Assigning from a sub-image makes another view of the same pixels. -/
theorem assign_view (h : Heap V) (z : V) {g src : Gray} (hs : src.subimage = true) :
    g.assign z src false h = .ok src h := by
  unfold Gray.assign
  simp only [hs, Bool.false_eq_true, if_false, if_true]
  cases src; simp only at hs; subst hs; rfl

theorem allowedAll_ok {z : V} {w w1 : World V} {op : IOp V} {ops : List (IOp V)} (e : w.step z op = .ok () w1)
    (ha : w.Allowed op) (h : w1.AllowedAll z ops) : w.AllowedAll z (op :: ops) := by
  refine ⟨ha, fun w' e' => ?_⟩
  rw [e] at e'
  rcases e' with e' | e'
  · cases e'; exact h
  · cases e'

theorem allowedAll_throw {z : V} {w w1 : World V} {op : IOp V} {ops : List (IOp V)} (e : w.step z op = .throw w1)
    (ha : w.Allowed op) (h : w1.AllowedAll z ops) : w.AllowedAll z (op :: ops) := by
  refine ⟨ha, fun w' e' => ?_⟩
  rw [e] at e'
  rcases e' with e' | e'
  · cases e'
  · cases e'; exact h

theorem tidyAll_ok {z : V} {w w1 : World V} {op : IOp V} {ops : List (IOp V)} (e : w.step z op = .ok () w1)
    (ha : w.Tidy op) (h : w1.TidyAll z ops) : w.TidyAll z (op :: ops) := by
  refine ⟨ha, fun w' e' => ?_⟩
  rw [e] at e'
  rcases e' with e' | e'
  · cases e'; exact h
  · cases e'

theorem tidyAll_throw {z : V} {w w1 : World V} {op : IOp V} {ops : List (IOp V)} (e : w.step z op = .throw w1)
    (ha : w.Tidy op) (h : w1.TidyAll z ops) : w.TidyAll z (op :: ops) := by
  refine ⟨ha, fun w' e' => ?_⟩
  rw [e] at e'
  rcases e' with e' | e'
  · cases e'
  · cases e'; exact h

/-- Rows of unequal length. -/
theorem rows_cases (rows : List (List V)) : (∀ row ∈ rows, row.length = (rows.headD []).length) ∨
    ∃ first rest, rows = first :: rest ∧ ∃ row ∈ rest, row.length ≠ first.length := by
  cases rows with
  | nil => left; intro row hr; cases hr
  | cons first rest =>
    rcases Classical.em (∃ row ∈ rest, row.length ≠ first.length) with c | c
    · exact Or.inr ⟨first, rest, rfl, c⟩
    · left
      intro row hr
      rcases List.mem_cons.mp hr with rfl | hr
      · rfl
      · rcases Nat.decEq row.length first.length with e | e
        · exact absurd ⟨row, hr, e⟩ c
        · exact e

end World


end Boof
