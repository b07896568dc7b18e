import Verif.Props.Images
/-
C72: every pixel array is released exactly once.
-/
namespace Boof
variable {V : Type}
namespace World

/-- A live array has been made. -/
theorem lt_of_live {h : Heap V} {b : Nat} (e : (h.get b).isSome) : b < h.next := by
  rcases Nat.lt_or_ge b h.next with c | c
  · exact c
  · unfold Heap.get Heap.next at *
    rw [List.getElem?_eq_none c] at e; cases e

theorem owned_updated {base : Nat} {w : World V} (hO : w.Owned base) {i : Nat} {g g' : Gray} {h' : Heap V}
    (ei : w.var i = some g) (hsub : g'.subimage = g.subimage) (hm : Accounted w.heap h' g g')
    (hne : g.buf < w.heap.next) (hown : g'.buf ≠ g.buf → g.subimage = false)
    (halive : ∀ b, b ≠ g.buf → b < w.heap.next → (h'.get b).isSome = (w.heap.get b).isSome) :
    (World.mk h' (updated w.vars i g g')).Owned base := by
  intro b hb hl
  rcases hm with ⟨e, _, ha⟩ | ⟨e, en, hd⟩
  · obtain ⟨j, a, ej, es, ea⟩ := hO b hb (by rw [← ha]; exact hl)
    by_cases c : j = i
    · subst c
      rw [ei] at ej; cases ej
      exact ⟨j, g', by rw [var_updated ei, if_pos rfl], by rw [hsub]; exact es, by omega⟩
    · exact ⟨j, a, by rw [var_updated ei, if_neg c, if_pos e]; exact ej, es, ea⟩
  · have hbg : b ≠ g.buf := by rintro rfl; change (h'.get g.buf).isSome at hl; rw [hd] at hl; cases hl
    have hlt := lt_of_live hl
    change b < h'.next at hlt
    by_cases c : b = w.heap.next
    · exact ⟨i, g', by rw [var_updated ei, if_pos rfl], by rw [hsub]; exact hown (by omega), by omega⟩
    · obtain ⟨j, a, ej, es, ea⟩ := hO b hb (by rw [← halive b hbg (by omega)]; exact hl)
      have hj : j ≠ i := by rintro rfl; rw [ei] at ej; cases ej; exact hbg ea.symm
      refine ⟨j, a, ?_, es, ea⟩
      rw [var_updated ei, if_neg hj, if_neg (by omega), ej]
      show (if a.buf = g.buf then none else some a) = _
      rw [if_neg (by omega)]

/-- New variables do not take anything away. -/
theorem owned_append {base : Nat} {w : World V} (hO : w.Owned base) (g : Gray) :
    (World.mk w.heap (w.vars ++ [some g])).Owned base := by
  intro b hb hl
  obtain ⟨j, a, ej, es, ea⟩ := hO b hb hl
  refine ⟨j, a, ?_, es, ea⟩
  rw [var_append (h' := w.heap), if_neg (by have := lt_of_var ej; omega)]
  exact ej

theorem owned_new {base : Nat} {w : World V} (hO : w.Owned base) {h' : Heap V} (hm : OneMore w.heap h') {g : Gray}
    (eb : g.buf = w.heap.next) (es : g.subimage = false) : (World.mk h' (w.vars ++ [some g])).Owned base := by
  intro b hb hl
  have hlt : b < h'.next := lt_of_live hl
  rw [hm.next] at hlt
  by_cases c : b = w.heap.next
  · exact ⟨w.vars.length, g, by rw [var_append (h' := w.heap), if_pos rfl], es, by omega⟩
  · obtain ⟨j, a, ej, es, ea⟩ := hO b hb (by rw [← hm.alive b (by omega)]; exact hl)
    refine ⟨j, a, ?_, es, ea⟩
    rw [var_append (h' := w.heap), if_neg (by have := lt_of_var ej; omega)]
    exact ej

end World

open World in
/-- One operation of a client which assigns no sub-image to an owner and gives pictures by rows of equal length: if every
live array belonged to an image before, then it does afterwards, whether the operation completes or throws. -/
theorem C72_step (z : V) {base : Nat} {w : World V} (hI : w.Inv) (hO : w.Owned base) (op : IOp V) (ha : w.Allowed op)
    (ht : w.Tidy op) : ∃ w', (w.step z op = .ok () w' ∨ w.step z op = .throw w') ∧ w'.Inv ∧ w'.Owned base := by
  suffices hs : ∀ w', (w.step z op = .ok () w' ∨ w.step z op = .throw w') → w'.Owned base by
    rcases C03_step z hI op ha with ⟨w', e, hI'⟩ | ⟨w', e, hI', _⟩
    · exact ⟨w', Or.inl e, hI', hs w' (Or.inl e)⟩
    · exact ⟨w', Or.inr e, hI', hs w' (Or.inr e)⟩
  -- an operation known to complete, or to throw without any effect
  have done : ∀ w1 : World V, w.step z op = .ok () w1 → w1.Owned base →
      ∀ w', (w.step z op = .ok () w' ∨ w.step z op = .throw w') → w'.Owned base := by
    intro w1 e1 h1 w' e
    rw [e1] at e
    rcases e with e | e
    · cases e; exact h1
    · cases e
  have nothing : w.step z op = .throw w → ∀ w', (w.step z op = .ok () w' ∨ w.step z op = .throw w') → w'.Owned base := by
    intro e1 w' e
    rw [e1] at e
    rcases e with e | e
    · cases e
    · cases e; exact hO
  cases op with
  | mk wd hgt =>
    obtain ⟨h1, h2, h3⟩ := ha
    obtain ⟨g, e, eb, _, _, es, _, _⟩ := new_spec z w.heap h1 h2 h3
    exact done _ (by simp only [step, e]) (owned_new hO (new_oneMore z w.heap wd hgt) eb es)
  | rows rows =>
    obtain ⟨h1, h2, h3⟩ := ha
    obtain ⟨g, h', e, _, _, es, eb, _, _, hm⟩ := ofRows_run z w.heap h2 h1 h3 ht (by rintro rfl; rfl)
    exact done _ (by simp only [step, e]) (owned_new hO hm eb es)
  | reshape i wd ht' =>
    obtain ⟨h1, h2, h3⟩ := ha
    rcases ei : w.var i with _ | g
    · exact done w (by simp only [step, ei]) hO
    have hv := hI.valid i g ei
    by_cases hc : g.CanBe wd ht'
    · obtain ⟨g', h', e, r⟩ := reshape_spec z hv h1 h2 h3 hc
      refine done ⟨h', updated w.vars i g g'⟩ (by simp only [step, ei, e]) ?_
      refine owned_updated hO ei r.sub r.memory hv.lt_next ?_ r.alive
      intro hn
      rcases hc with hc | hc
      · exact hc
      · exact absurd (by rw [(r.same hc.1 hc.2).1]) hn
    · have hs : g.subimage = true := by
        rcases hb : g.subimage with _ | _
        · exact absurd (Or.inl hb) hc
        · rfl
      have := reshape_throws (h := w.heap) z hs (fun e => hc (Or.inr e))
      exact nothing (by simp only [step, ei, this])
  | copy d s =>
    rcases ed : w.var d with _ | g
    · exact done w (by simp only [step, ed]) hO
    rcases es : w.var s with _ | src
    · exact done w (by simp only [step, ed, es]) hO
    have hv := hI.valid d g ed
    have hs := hI.valid s src es
    by_cases hc : g.CanBe src.width src.height
    · obtain ⟨g', h', e, r⟩ := copy_spec z hv hs hc (ha g src ed es) (hs.shows z)
      refine done ⟨h', updated w.vars d g g'⟩ (by simp only [step, ed, es, e]) ?_
      refine owned_updated hO ed r.sub r.memory hv.lt_next ?_ r.alive
      intro hn
      rcases hc with hc | hc
      · exact hc
      · exact absurd (by rw [(r.inPlace hc.1 hc.2).1]) hn
    · have hsb : g.subimage = true := by
        rcases hb : g.subimage with _ | _
        · exact absurd (Or.inl hb) hc
        · rfl
      have := copy_throws (h := w.heap) z hsb (src := src) (fun e => hc (Or.inr e))
      exact nothing (by simp only [step, ed, es, this])
  | assign d s =>
    rcases ed : w.var d with _ | g
    · exact done w (by simp only [step, ed]) hO
    rcases es : w.var s with _ | src
    · exact done w (by simp only [step, ed, es]) hO
    have hv := hI.valid d g ed
    have hs := hI.valid s src es
    -- the variables keep their values
    have same : ∀ vars : List (Option Gray), (∀ j, (World.mk w.heap vars).var j = w.var j) →
        (World.mk w.heap vars).Owned base := by
      intro vars hvar b hb hl
      obtain ⟨j, a, ej, h1, h2⟩ := hO b hb hl
      exact ⟨j, a, by rw [hvar]; exact ej, h1, h2⟩
    by_cases hds : d = s
    · subst hds
      rw [es] at ed; cases ed
      refine done _ (by simp only [step, es, decide_true, Gray.assign, if_true]; rfl) (same _ ?_)
      intro j
      split
      · exact var_set_same es j
      · exact var_updated_same es j
    · rcases hsb : src.subimage with _ | _
      · by_cases hc : g.CanBe src.width src.height
        · obtain ⟨g', h', e, r⟩ := copy_spec z hv hs hc (ha hds g src ed es hsb) (hs.shows z)
          refine done ⟨h', updated w.vars d g g'⟩ ?_ ?_
          · simp only [step, ed, es, hds, decide_false, Gray.assign, Bool.false_eq_true, if_false, hsb, e]
          refine owned_updated hO ed r.sub r.memory hv.lt_next ?_ r.alive
          intro hn
          rcases hc with hc | hc
          · exact hc
          · exact absurd (by rw [(r.inPlace hc.1 hc.2).1]) hn
        · have hg : g.subimage = true := by
            rcases hb : g.subimage with _ | _
            · exact absurd (Or.inl hb) hc
            · rfl
          have e := copy_throws (h := w.heap) z hg (src := src) (fun e => hc (Or.inr e))
          exact nothing (by
            simp only [step, ed, es, hds, decide_false, Gray.assign, Bool.false_eq_true, if_false, hsb, e])
      · have hg := ht hds g src ed es hsb
        refine done _ (by simp only [step, ed, es, hds, decide_false, assign_view w.heap z hsb]; rfl) ?_
        simp only [hsb, if_true]
        intro b hb hl
        obtain ⟨j, a, ej, h1, h2⟩ := hO b hb hl
        refine ⟨j, a, ?_, h1, h2⟩
        rw [var_set (lt_of_var ed), if_neg (by rintro rfl; rw [ed] at ej; cases ej; rw [hg] at h1; cases h1)]
        exact ej
  | clone i =>
    rcases ei : w.var i with _ | g
    · exact done w (by simp only [step, ei]) hO
    · exact done _ (by simp only [step, ei]; rfl) (owned_append hO _)
  | view i x0 y0 x1 y1 =>
    rcases ei : w.var i with _ | g
    · exact done w (by simp only [step, ei]) hO
    by_cases hb : x1 > g.width ∨ y1 > g.height ∨ x1 < x0 ∨ y1 < y0
    · have : (g.makeSubimage x0 y0 x1 y1 : M V Gray) w.heap = .throw w.heap := by
        unfold Gray.makeSubimage; rw [if_pos hb]; rfl
      exact nothing (by simp only [step, ei, this])
    · have e : (g.makeSubimage x0 y0 x1 y1 : M V Gray) w.heap = .ok (Gray.wrap g.buf g.dataLength (x1 - x0) (y1 - y0)
          (wrap32 (g.offset + y0 * g.stride + x0)) g.stride) w.heap := by
        unfold Gray.makeSubimage; rw [if_neg hb]; rfl
      exact done ⟨w.heap, w.vars ++ [some (Gray.wrap g.buf g.dataLength (x1 - x0) (y1 - y0)
          (wrap32 (g.offset + y0 * g.stride + x0)) g.stride)]⟩ (by simp only [step, ei, e]) (owned_append hO _)
  | put i x y v =>
    rcases ei : w.var i with _ | g
    · exact done w (by simp only [step, ei]) hO
    by_cases hb : x < g.width ∧ y < g.height
    · obtain ⟨h', e, p, _⟩ := C01_at_writes (hI.valid i g ei) hb.1 hb.2 v
      refine done ⟨h', w.vars⟩ (by simp only [step, ei, e]) ?_
      intro b hb hl
      exact hO b hb (by rw [← p.alive]; exact hl)
    · have := (C01_at_throws w.heap g hb v).2.1
      exact nothing (by simp only [step, ei, this])
  | get i x y =>
    rcases ei : w.var i with _ | g
    · exact done w (by simp only [step, ei]) hO
    by_cases hb : x < g.width ∧ y < g.height
    · obtain ⟨v, e, _⟩ := C01_at_reads (hI.valid i g ei) hb.1 hb.2
      exact done w (by simp only [step, ei, e]) hO
    · have := (C01_at_throws w.heap g hb z).1
      exact nothing (by simp only [step, ei, this])
  | drop i =>
    rcases ei : w.var i with _ | g
    · exact done w (by simp only [step, ei]) hO
    have hv := hI.valid i g ei
    rcases hs : g.subimage with _ | _
    · obtain ⟨l, el⟩ := Option.isSome_iff_exists.mp hv.live
      have e : (g.destroy : M V Unit) w.heap = .ok () (w.heap.free g.buf) := by
        unfold Gray.destroy; rw [hs]; simp [M.delArr, el]
      refine done ⟨w.heap.free g.buf, w.vars.map (fun o => o.bind (fun a => if a.buf = g.buf then none else some a))⟩
        (by simp only [step, ei, e, hs]; rfl) ?_
      intro b hb hl
      change ((w.heap.free g.buf).get b).isSome at hl
      rw [Heap.get_free] at hl
      by_cases c : b = g.buf
      · rw [if_pos c] at hl; cases hl
      · rw [if_neg c] at hl
        obtain ⟨j, a, ej, h1, h2⟩ := hO b hb hl
        refine ⟨j, a, ?_, h1, h2⟩
        rw [var_map, var_heap (h' := w.heap)]
        change (w.var j).bind _ = _
        rw [ej]
        show (if a.buf = g.buf then none else some a) = _
        rw [if_neg (by omega)]
    · have e : (g.destroy : M V Unit) w.heap = .ok () w.heap := by
        unfold Gray.destroy; rw [hs]; rfl
      refine done ⟨w.heap, w.vars.set i none⟩ (by simp only [step, ei, e, hs]; rfl) ?_
      intro b hb hl
      obtain ⟨j, a, ej, h1, h2⟩ := hO b hb hl
      refine ⟨j, a, ?_, h1, h2⟩
      rw [var_set (lt_of_var ei), if_neg (by rintro rfl; rw [ei] at ej; cases ej; rw [hs] at h1; cases h1)]
      exact ej

open World in
/-- A whole history of such operations, of any length. -/
theorem C72_history (z : V) {base : Nat} {w : World V} (hI : w.Inv) (hO : w.Owned base) (ops : List (IOp V))
    (ha : w.AllowedAll z ops) (ht : w.TidyAll z ops) : ∃ w', w.run z ops = some w' ∧ w'.Inv ∧ w'.Owned base := by
  induction ops generalizing w with
  | nil => exact ⟨w, rfl, hI, hO⟩
  | cons op ops ih =>
    obtain ⟨w', e, hI', hO'⟩ := C72_step z hI hO op ha.1 ht.1
    obtain ⟨w'', e', h⟩ := ih hI' hO' (ha.2 w' e) (ht.2 w' e)
    refine ⟨w'', ?_, h⟩
    rcases e with e | e <;> simp only [run, e, e']

/-- A program which starts without images and ends with all of them out of scope has released every array it made, and (as
releasing an array twice is undefined behaviour in the model) each of them once; arrays made before it started are left
alone. -/
theorem C72_all_released (z : V) (h : Heap V) (ops : List (IOp V)) (ha : (World.mk h []).AllowedAll z ops)
    (ht : (World.mk h []).TidyAll z ops) :
    ∃ w', (World.mk h []).run z ops = some w' ∧
      ((∀ i, w'.var i = none) → ∀ b, h.next ≤ b → w'.heap.get b = none) := by
  have hO : (World.mk h []).Owned h.next := by
    intro b hb hl
    have := World.lt_of_live hl
    change b < h.next at this
    omega
  obtain ⟨w', e, _, hO'⟩ := C72_history z (C03_init h) hO ops ha ht
  refine ⟨w', e, fun hn b hb => ?_⟩
  rcases c : w'.heap.get b with _ | l
  · rfl
  · obtain ⟨i, g, ei, _⟩ := hO' b hb (by rw [c]; rfl)
    rw [hn i] at ei; cases ei

/-- A history which makes two arrays, replaces one, and releases everything. -/
example : ∃ w', (World.mk (⟨[]⟩ : Heap Int) []).AllowedAll 0
      [.rows [[1,2],[3,4]], .view 0 0 0 1 1, .mk 1 1, .copy 2 0, .drop 1, .drop 0, .drop 2] ∧
    (World.mk (⟨[]⟩ : Heap Int) []).TidyAll 0
      [.rows [[1,2],[3,4]], .view 0 0 0 1 1, .mk 1 1, .copy 2 0, .drop 1, .drop 0, .drop 2] ∧
    (World.mk (⟨[]⟩ : Heap Int) []).run 0
      [.rows [[1,2],[3,4]], .view 0 0 0 1 1, .mk 1 1, .copy 2 0, .drop 1, .drop 0, .drop 2] = some w' ∧
    w'.heap.bufs = [none, none, none] ∧ (∀ i, w'.var i = none) := by
  refine ⟨⟨⟨[none, none, none]⟩, [none, none, none]⟩, ?_, ?_, rfl, rfl, ?_⟩
  · refine World.allowedAll_ok rfl (show _ ∧ _ ∧ _ by decide) ?_
    refine World.allowedAll_ok rfl trivial ?_
    refine World.allowedAll_ok rfl (show _ ∧ _ ∧ _ by decide) ?_
    refine World.allowedAll_ok rfl (fun g s e1 e2 => by cases e1; cases e2; exact Or.inl (by decide)) ?_
    refine World.allowedAll_ok rfl trivial ?_
    refine World.allowedAll_ok rfl trivial ?_
    exact World.allowedAll_ok rfl trivial trivial
  · refine World.tidyAll_ok rfl (show ∀ row ∈ [[(1:Int),2],[3,4]], row.length = 2 by decide) ?_
    refine World.tidyAll_ok rfl trivial ?_
    refine World.tidyAll_ok rfl trivial ?_
    refine World.tidyAll_ok rfl trivial ?_
    refine World.tidyAll_ok rfl trivial ?_
    refine World.tidyAll_ok rfl trivial ?_
    exact World.tidyAll_ok rfl trivial trivial
  · intro i
    rcases i with _ | _ | _ | i <;> rfl

/-- An image which owns its pixels must not be copy-constructed, although the class lets a client do it: both images then
release the same array. -/
theorem C72_copy_constructor_refuted :
    (do let g ← Gray.new (0:Int) 2 2
        let c := g.clone
        c.destroy
        g.destroy) ⟨[]⟩ = Res.ub := by decide

/-- Assigning a sub-image to an image which owns its pixels leaks them: afterwards no image is left, but the array is. -/
theorem C72_assign_view_leaks_refuted :
    ∃ w', (World.mk (⟨[]⟩ : Heap Int) []).run 0 [.mk 1 1, .mk 2 2, .view 1 0 0 1 1, .assign 0 2, .drop 0, .drop 1, .drop 2]
      = some w' ∧ (∀ i, w'.var i = none) ∧ (w'.heap.get 0).isSome := by
  refine ⟨⟨⟨[some [0], none]⟩, [none, none, none]⟩, rfl, ?_, rfl⟩
  intro i
  rcases i with _ | _ | _ | i <;> rfl

/-- So does a picture with rows of different length: the constructor throws and the array it made stays. -/
theorem C72_rows_leak_refuted :
    ∃ w', (World.mk (⟨[]⟩ : Heap Int) []).run 0 [.rows [[1,2],[3]]] = some w' ∧ (∀ i, w'.var i = none) ∧
      (w'.heap.get 0).isSome := by
  refine ⟨⟨⟨[some [1,2,0,0]]⟩, []⟩, rfl, ?_, rfl⟩
  intro i
  rcases i with _ | i <;> rfl
end Boof
