import Verif.Proofs.ArrayMemory
import Verif.Props.GrowArray
/-
C112: the memory of growable arrays.
-/
namespace Boof
variable {V : Type}

theorem M.bind_timeout {α β : Type} {m : M V α} {f : α → M V β} {h : Heap V} (hm : m h = .timeout) : (m >>= f) h = .timeout := by
  rw [M.bind_run, hm]

theorem join_set (vs : Arrays V) {i : Nat} (hi : i < vs.length) (x : Option (GrowArray V)) (j : Nat) :
    ((vs.set i x)[j]?).join = if j = i then x else (vs[j]?).join := by
  rw [List.getElem?_set]
  by_cases h : j = i
  · subst h; simp [hi]
  · rw [if_neg (fun e => h e.symm), if_neg h]

theorem join_append (vs : Arrays V) (x : Option (GrowArray V)) (j : Nat) :
    ((vs ++ [x])[j]?).join = if j = vs.length then x else (vs[j]?).join := by
  rcases Nat.lt_trichotomy j vs.length with h | h | h
  · rw [List.getElem?_append_left h, if_neg (by omega)]
  · subst h; simp
  · rw [List.getElem?_append_right (by omega), if_neg (by omega), List.getElem?_eq_none (l := vs) (by omega)]
    rw [List.getElem?_eq_none (by simp; omega)]

namespace ArrWorld

theorem var_set {w : ArrWorld V} {i : Nat} (hi : i < w.objs.length) (x : Option (ArrObj V)) (h : Heap V) (j : Nat) :
    (ArrWorld.mk (w.objs.set i x) h).var j = if j = i then x else w.var j := by
  unfold var
  rw [List.getElem?_set]
  by_cases h : j = i
  · subst h; simp [hi]
  · rw [if_neg (fun e => h e.symm), if_neg h]

theorem var_append (w : ArrWorld V) (x : Option (ArrObj V)) (h : Heap V) (j : Nat) :
    (ArrWorld.mk (w.objs ++ [x]) h).var j = if j = w.objs.length then x else w.var j := by
  unfold var
  rcases Nat.lt_trichotomy j w.objs.length with h | h | h
  · rw [List.getElem?_append_left h, if_neg (by omega)]
  · subst h; simp
  · rw [List.getElem?_append_right (by omega), if_neg (by omega), List.getElem?_eq_none (l := w.objs) (by omega)]
    rw [List.getElem?_eq_none (by simp; omega)]

theorem lt_of_var {w : ArrWorld V} {i : Nat} {o : ArrObj V} (e : w.var i = some o) : i < w.objs.length := by
  rcases Nat.lt_or_ge i w.objs.length with h | h
  · exact h
  · unfold var at e; rw [List.getElem?_eq_none h] at e; cases e

/-- The objects are the values, each with an array of its own; the program has made exactly these arrays since `h0`. -/
structure Holds (h0 : Heap V) (w : ArrWorld V) (vs : Arrays V) : Prop where
  len : w.objs.length = vs.length
  held : ∀ i o, w.var i = some o → ∃ a, (vs[i]?).join = some a ∧ ArrObj.Is w.heap o a ∧ a.canResize = true
  gone : ∀ i, w.var i = none → (vs[i]?).join = none
  apart : ∀ i j o o', i ≠ j → w.var i = some o → w.var j = some o' → o.data ≠ o'.data
  old : ∀ b, b < h0.next → w.heap.get b = h0.get b
  mine : ∀ i o, w.var i = some o → h0.next ≤ o.data
  all : ∀ b, h0.next ≤ b → (w.heap.get b).isSome → ∃ i o, w.var i = some o ∧ o.data = b
  next : h0.next ≤ w.heap.next

theorem Holds.update {h0 : Heap V} {w : ArrWorld V} {vs : Arrays V} (hd : Holds h0 w vs) {i : Nat} {o o' : ArrObj V} {a' : GrowArray V}
    {h' : Heap V} (ei : w.var i = some o) (is : ArrObj.Is h' o' a') (hr : a'.canResize = true) (c : Changed w.heap h' o.data o'.data) :
    Holds h0 ⟨w.objs.set i (some o'), h'⟩ (vs.set i (some a')) := by
  have hi := lt_of_var ei
  have hiv : i < vs.length := by rw [← hd.len]; exact hi
  have hn := c.next
  have hn0 := hd.next
  have hlt : ∀ j oj, w.var j = some oj → oj.data < w.heap.next := by
    intro j oj ej
    obtain ⟨a, -, isj, -⟩ := hd.held j oj ej
    exact isj.lt
  have hsep : ∀ j oj, j ≠ i → w.var j = some oj → oj.data ≠ o.data ∧ oj.data ≠ o'.data := by
    intro j oj hj ej
    have h1 := hd.apart j i oj o hj ej ei
    refine ⟨h1, ?_⟩
    rcases c.moved with e | ⟨e, -⟩
    · rw [e]; exact h1
    · have := hlt j oj ej; omega
  refine ⟨by simp [hd.len], ?_, ?_, ?_, ?_, ?_, ?_, by show h0.next ≤ h'.next; omega⟩
  · intro j oj ej
    rw [var_set hi] at ej
    rw [join_set vs hiv]
    by_cases hj : j = i
    · rw [if_pos hj] at ej ⊢
      cases ej
      exact ⟨a', rfl, is, hr⟩
    · rw [if_neg hj] at ej ⊢
      obtain ⟨a, ea, isj, hrj⟩ := hd.held j oj ej
      exact ⟨a, ea, isj.mono (c.other _ (hsep j oj hj ej).1 (hlt j oj ej)), hrj⟩
  · intro j ej
    rw [var_set hi] at ej
    rw [join_set vs hiv]
    by_cases hj : j = i
    · rw [if_pos hj] at ej; cases ej
    · rw [if_neg hj] at ej ⊢; exact hd.gone j ej
  · intro j k oj ok hjk ej ek
    rw [var_set hi] at ej ek
    by_cases hj : j = i
    · rw [if_pos hj] at ej
      cases ej
      rw [if_neg (by omega)] at ek
      exact fun e => (hsep k ok (by omega) ek).2 e.symm
    · rw [if_neg hj] at ej
      by_cases hk : k = i
      · rw [if_pos hk] at ek
        cases ek
        exact (hsep j oj hj ej).2
      · rw [if_neg hk] at ek
        exact hd.apart j k oj ok hjk ej ek
  · intro b hb
    have := hd.mine i o ei
    show h'.get b = _
    rw [c.other b (by omega) (by omega)]
    exact hd.old b hb
  · intro j oj ej
    rw [var_set hi] at ej
    by_cases hj : j = i
    · rw [if_pos hj] at ej
      cases ej
      have := hd.mine i o ei
      rcases c.moved with e | ⟨e, -⟩ <;> omega
    · rw [if_neg hj] at ej; exact hd.mine j oj ej
  · intro b hb hs
    change (h'.get b).isSome at hs
    by_cases hbn : b < w.heap.next
    · by_cases hbo : b = o.data
      · rcases c.moved with e | ⟨-, e⟩
        · exact ⟨i, o', by rw [var_set hi, if_pos rfl], by omega⟩
        · rw [hbo, e] at hs; cases hs
      · rw [c.other b hbo hbn] at hs
        obtain ⟨j, oj, ej, eb⟩ := hd.all b hb hs
        have hj : j ≠ i := by rintro rfl; rw [ei] at ej; cases ej; exact hbo eb.symm
        exact ⟨j, oj, by rw [var_set hi, if_neg hj]; exact ej, eb⟩
    · exact ⟨i, o', by rw [var_set hi, if_pos rfl], (c.live b (by omega) hs).symm⟩

theorem Holds.append {h0 : Heap V} {w : ArrWorld V} {vs : Arrays V} (hd : Holds h0 w vs) {o : ArrObj V} {a : GrowArray V} {h' : Heap V}
    (is : ArrObj.Is h' o a) (hr : a.canResize = true) (ed : o.data = w.heap.next) (ho : ∀ b, b < w.heap.next → h'.get b = w.heap.get b)
    (hn : h'.next = w.heap.next + 1) : Holds h0 ⟨w.objs ++ [some o], h'⟩ (vs ++ [some a]) := by
  have hn0 := hd.next
  have hlt : ∀ j oj, w.var j = some oj → oj.data < w.heap.next := by
    intro j oj ej
    obtain ⟨a, -, isj, -⟩ := hd.held j oj ej
    exact isj.lt
  refine ⟨by simp [hd.len], ?_, ?_, ?_, ?_, ?_, ?_, by show h0.next ≤ h'.next; omega⟩
  · intro j oj ej
    rw [var_append] at ej
    rw [join_append, ← hd.len]
    by_cases hj : j = w.objs.length
    · rw [if_pos hj] at ej ⊢
      cases ej
      exact ⟨a, rfl, is, hr⟩
    · rw [if_neg hj] at ej ⊢
      obtain ⟨b, eb, isj, hrj⟩ := hd.held j oj ej
      exact ⟨b, eb, isj.mono (ho _ (hlt j oj ej)), hrj⟩
  · intro j ej
    rw [var_append] at ej
    rw [join_append, ← hd.len]
    by_cases hj : j = w.objs.length
    · rw [if_pos hj] at ej; cases ej
    · rw [if_neg hj] at ej ⊢; exact hd.gone j ej
  · intro j k oj ok hjk ej ek
    rw [var_append] at ej ek
    by_cases hj : j = w.objs.length
    · rw [if_pos hj] at ej
      cases ej
      rw [if_neg (by omega)] at ek
      have := hlt k ok ek; omega
    · rw [if_neg hj] at ej
      by_cases hk : k = w.objs.length
      · rw [if_pos hk] at ek
        cases ek
        have := hlt j oj ej; omega
      · rw [if_neg hk] at ek
        exact hd.apart j k oj ok hjk ej ek
  · intro b hb
    show h'.get b = _
    rw [ho b (by omega)]; exact hd.old b hb
  · intro j oj ej
    rw [var_append] at ej
    by_cases hj : j = w.objs.length
    · rw [if_pos hj] at ej; cases ej; omega
    · rw [if_neg hj] at ej; exact hd.mine j oj ej
  · intro b hb hs
    change (h'.get b).isSome at hs
    by_cases hbn : b < w.heap.next
    · rw [ho b hbn] at hs
      obtain ⟨j, oj, ej, eb⟩ := hd.all b hb hs
      exact ⟨j, oj, by rw [var_append, if_neg (by have := lt_of_var ej; omega)]; exact ej, eb⟩
    · refine ⟨w.objs.length, o, by rw [var_append, if_pos rfl], ?_⟩
      obtain ⟨l, e⟩ := Option.isSome_iff_exists.mp hs
      have := Heap.lt_next_of_get e
      omega

end ArrWorld

section
variable {E : GrowArray.Elem V} {a a' : GrowArray V}

theorem keep_resize {n : Nat} (hv : a.resize E n = .ok () a') : a'.canResize = a.canResize := by
  unfold GrowArray.resize at hv
  repeat' split at hv
  all_goals cases hv
  all_goals rfl

theorem keep_grow {n : Nat} (hv : a.growArray E n = .ok () a') : a'.canResize = a.canResize := by
  unfold GrowArray.growArray at hv
  repeat' split at hv
  all_goals cases hv
  all_goals rfl

theorem keep_fill {v : V} (hv : a.fill E v = .ok () a') : a'.canResize = a.canResize := by
  unfold GrowArray.fill at hv
  split at hv
  all_goals cases hv
  rfl

theorem keep_blit {l : List V} (hv : a.blit l = .ok () a') : a'.canResize = a.canResize := by
  unfold GrowArray.blit at hv
  split at hv
  all_goals cases hv
  rfl

theorem keep_setAt {k : Nat} {v : V} (hv : a.setAt k v = .ok () a') : a'.canResize = a.canResize := by
  unfold GrowArray.setAt at hv
  repeat' split at hv
  all_goals cases hv
  rfl

theorem keep_setTo {l : List V} (hv : a.setTo E l = .ok () a') : a'.canResize = a.canResize := by
  unfold GrowArray.setTo at hv
  rcases h1 : a.resize E l.length with ⟨_, a1⟩ | _ | _ | _ <;> rw [h1] at hv
  · rw [keep_blit hv, keep_resize h1]
  all_goals cases hv

theorem keep_assign {b : GrowArray V} (hv : GrowArray.assign E a b = .ok () a') : a'.canResize = a.canResize := by
  unfold GrowArray.assign at hv
  rcases h1 : GrowArray.growArray E b.size { a with default := b.default } with ⟨_, a1⟩ | _ | _ | _ <;> rw [h1] at hv
  · simp only at hv
    split at hv
    · exact (keep_blit hv).trans (keep_grow (a := { a with default := b.default }) (a' := a1) h1)
    · cases hv
  all_goals cases hv

theorem keep_set {src : List V} {n : Nat} (hv : GrowArray.set E src n a = .ok () a') : a'.canResize = a.canResize := by
  unfold GrowArray.set at hv
  rcases h1 : GrowArray.growArray E n a with ⟨_, a1⟩ | _ | _ | _ <;> rw [h1] at hv
  · simp only at hv
    split at hv
    · exact (keep_blit hv).trans (keep_grow (a' := a1) h1)
    · cases hv
  all_goals cases hv

/-- The functions which change the size do not throw for an array which owns its memory, and nothing runs forever. -/
theorem no_throw_grow (hr : a.canResize = true) (n : Nat) : ∃ a', a.growArray E n = .ok () a' := by
  unfold GrowArray.growArray
  rw [if_neg (by rw [hr]; exact Bool.noConfusion)]
  split <;> exact ⟨_, rfl⟩

theorem no_throw_resize (hr : a.canResize = true) (n : Nat) : a.resize E n = .ub ∨ ∃ a', a.resize E n = .ok () a' := by
  unfold GrowArray.resize
  rw [if_neg (by rw [hr]; exact Bool.noConfusion)]
  split
  · split
    · exact Or.inr ⟨_, rfl⟩
    · exact Or.inl rfl
  · exact Or.inr ⟨_, rfl⟩

theorem no_throw_setTo (hr : a.canResize = true) (l : List V) : a.setTo E l = .ub ∨ ∃ a', a.setTo E l = .ok () a' := by
  unfold GrowArray.setTo
  rcases no_throw_resize (E := E) hr l.length with e | ⟨a1, e⟩ <;> rw [e]
  · exact Or.inl rfl
  · simp only [GrowArray.blit]
    split
    · exact Or.inr ⟨_, rfl⟩
    · exact Or.inl rfl

theorem no_throw_assign (hr : a.canResize = true) (b : GrowArray V) : GrowArray.assign E a b = .ub ∨ ∃ a', GrowArray.assign E a b = .ok () a' := by
  unfold GrowArray.assign
  obtain ⟨a1, e⟩ := no_throw_grow (E := E) (a := { a with default := b.default }) hr b.size
  rw [e]
  simp only [GrowArray.blit]
  repeat' split
  all_goals first | exact Or.inr ⟨_, rfl⟩ | exact Or.inl rfl

theorem no_throw_set (hr : a.canResize = true) (src : List V) (n : Nat) : GrowArray.set E src n a = .ub ∨ ∃ a', GrowArray.set E src n a = .ok () a' := by
  unfold GrowArray.set
  obtain ⟨a1, e⟩ := no_throw_grow (E := E) hr n
  rw [e]
  simp only [GrowArray.blit]
  repeat' split
  all_goals first | exact Or.inr ⟨_, rfl⟩ | exact Or.inl rfl

theorem no_throw_fill (v : V) : a.fill E v = .ub ∨ ∃ a', a.fill E v = .ok () a' := by
  unfold GrowArray.fill
  split
  · exact Or.inr ⟨_, rfl⟩
  · exact Or.inl rfl

theorem throw_setAt (k : Nat) (v : V) : a.setAt k v = .ub ∨ (a.setAt k v = .throw a ∧ a.size ≤ k) ∨ ∃ a', a.setAt k v = .ok () a' := by
  unfold GrowArray.setAt
  split
  · exact Or.inr (Or.inl ⟨rfl, by assumption⟩)
  · split
    · exact Or.inr (Or.inr ⟨_, rfl⟩)
    · exact Or.inl rfl
end

open ArrWorld in
/-- One operation: where the operation on the values is defined, the one in memory does the same to the objects. -/
theorem C112_step (E : GrowArray.Elem V) {h0 : Heap V} {w : ArrWorld V} {vs : Arrays V} (hd : Holds h0 w vs) (op : AOp V) :
    (∀ vs', op.spec E vs = .ok () vs' → ∃ w', w.step E op = .ok () w' ∧ Holds h0 w' vs') ∧
    (∀ vs', op.spec E vs = .throw vs' → ∃ w', w.step E op = .throw w' ∧ Holds h0 w' vs') := by
  -- an operation on one variable
  have one : ∀ (i : Nat) (f : GrowArray V → Res (GrowArray V) Unit) (g : ArrObj V → M V (ArrObj V)),
      (∀ o a, w.var i = some o → ArrObj.Is w.heap o a → a.canResize = true →
        (f a = .ub) ∨ (f a = .throw a ∧ g o w.heap = .throw w.heap) ∨
        ∃ a' o' h', f a = .ok () a' ∧ a'.canResize = true ∧ g o w.heap = .ok o' h' ∧ ArrObj.Is h' o' a' ∧ Changed w.heap h' o.data o'.data) →
      (∀ vs', vs.on i f = .ok () vs' → ∃ w', w.on i g = .ok () w' ∧ Holds h0 w' vs') ∧
      (∀ vs', vs.on i f = .throw vs' → ∃ w', w.on i g = .throw w' ∧ Holds h0 w' vs') := by
    intro i f g hfg
    unfold Arrays.on ArrWorld.on
    rcases ei : w.var i with _ | o
    · rw [hd.gone i ei]
      refine ⟨fun vs' e => ?_, fun vs' e => ?_⟩
      · cases e; exact ⟨w, rfl, hd⟩
      · cases e
    · obtain ⟨a, ea, is, hr⟩ := hd.held i o ei
      rw [ea]
      simp only
      rcases hfg o a ei is hr with e | ⟨e, eg⟩ | ⟨a', o', h', e, hr', eg, is', c⟩
      · rw [e]
        exact ⟨fun _ e => (by cases e), fun _ e => (by cases e)⟩
      · rw [e, eg]
        refine ⟨fun _ e => (by cases e), fun vs' e => ?_⟩
        cases e
        refine ⟨w, rfl, ?_⟩
        have : vs.set i (some a) = vs := by
          apply List.ext_getElem?
          intro j
          rw [List.getElem?_set]
          split
          · rename_i hj
            subst hj
            rcases hv : vs[i]? with _ | x
            · rw [hv] at ea; cases ea
            · rw [hv] at ea
              simp only [Option.join_some] at ea
              subst ea
              have : i < vs.length := by
                rcases Nat.lt_or_ge i vs.length with c | c
                · exact c
                · rw [List.getElem?_eq_none c] at hv; cases hv
              rw [if_pos this]
          · rfl
        rw [this]; exact hd
      · rw [e, eg]
        refine ⟨fun vs' e => ?_, fun _ e => by cases e⟩
        cases e
        exact ⟨_, rfl, hd.update ei is' hr' c⟩
  cases op with
  | make n =>
    obtain ⟨a, o, h', e1, e2, is, hr, ed, ho, hn⟩ := arr_new_run E n w.heap
    simp only [AOp.spec, ArrWorld.step, e1, e2]
    exact ⟨fun vs' e => by cases e; exact ⟨_, rfl, hd.append is hr ed ho hn⟩, fun _ e => by cases e⟩
  | list l =>
    obtain ⟨o, h', e2, is, ed, ho, hn⟩ := arr_ofList_run E l w.heap
    simp only [AOp.spec, ArrWorld.step, e2]
    exact ⟨fun vs' e => by cases e; exact ⟨_, rfl, hd.append is rfl ed ho hn⟩, fun _ e => by cases e⟩
  | resize i n =>
    refine one i _ _ (fun o a _ is hr => ?_)
    rcases no_throw_resize (E := E) hr n with e | ⟨a', e⟩
    · exact Or.inl e
    · obtain ⟨o', h', f1, f2, f3⟩ := is.resize_run E hr n e
      exact Or.inr (Or.inr ⟨a', o', h', e, by rw [keep_resize e]; exact hr, f1, f2, f3⟩)
  | grow i n =>
    refine one i _ _ (fun o a _ is hr => ?_)
    obtain ⟨a', e⟩ := no_throw_grow (E := E) hr n
    obtain ⟨o', h', f1, f2, f3, -⟩ := is.growArray_run E hr n e
    exact Or.inr (Or.inr ⟨a', o', h', e, by rw [keep_grow e]; exact hr, f1, f2, f3⟩)
  | fill i v =>
    refine one i _ _ (fun o a _ is hr => ?_)
    rcases no_throw_fill (E := E) (a := a) v with e | ⟨a', e⟩
    · exact Or.inl e
    · obtain ⟨h', f1, f2, f3⟩ := is.fill_run E v e
      exact Or.inr (Or.inr ⟨a', o, h', e, by rw [keep_fill e]; exact hr, by rw [M.bind_ok f1]; rfl, f2, f3.changed⟩)
  | put i k v =>
    refine one i _ _ (fun o a _ is hr => ?_)
    rcases throw_setAt (a := a) k v with e | ⟨e, hk⟩ | ⟨a', e⟩
    · exact Or.inl e
    · exact Or.inr (Or.inl ⟨e, by rw [M.bind_throw (is.setAt_throw v hk)]⟩)
    · obtain ⟨h', f1, f2, f3⟩ := is.setAt_run k v e
      exact Or.inr (Or.inr ⟨a', o, h', e, by rw [keep_setAt e]; exact hr, by rw [M.bind_ok f1]; rfl, f2, f3⟩)
  | setTo i l =>
    refine one i _ _ (fun o a _ is hr => ?_)
    rcases no_throw_setTo (E := E) hr l with e | ⟨a', e⟩
    · exact Or.inl e
    · obtain ⟨o', h', f1, f2, f3⟩ := is.setTo_run E hr l e
      exact Or.inr (Or.inr ⟨a', o', h', e, by rw [keep_setTo e]; exact hr, f1, f2, f3⟩)
  | assign i j =>
    simp only [AOp.spec, ArrWorld.step]
    by_cases hij : i = j
    · rw [if_pos hij, if_pos hij]
      exact ⟨fun vs' e => by cases e; exact ⟨w, rfl, hd⟩, fun _ e => by cases e⟩
    rw [if_neg hij, if_neg hij]
    rcases ej : w.var j with _ | ob
    · rw [hd.gone j ej]
      exact ⟨fun vs' e => by cases e; exact ⟨w, rfl, hd⟩, fun _ e => by cases e⟩
    obtain ⟨b, eb, isb, -⟩ := hd.held j ob ej
    rw [eb]
    refine one i _ _ (fun o a ei is hr => ?_)
    rcases no_throw_assign (E := E) hr b with e | ⟨a', e⟩
    · exact Or.inl e
    · obtain ⟨o', h', f1, f2, f3⟩ := is.assign_run E hr isb (hd.apart j i ob o (fun c => hij c.symm) ej ei) e
      exact Or.inr (Or.inr ⟨a', o', h', e, by rw [keep_assign e]; exact hr, f1, f2, f3⟩)
  | setFrom i j start n =>
    simp only [AOp.spec, ArrWorld.step]
    rcases ej : w.var j with _ | ob
    · rw [hd.gone j ej]
      exact ⟨fun vs' e => by cases e; exact ⟨w, rfl, hd⟩, fun _ e => by cases e⟩
    obtain ⟨b, eb, isb, -⟩ := hd.held j ob ej
    rw [eb]
    refine one i _ _ (fun o a ei is hr => ?_)
    rcases no_throw_set (E := E) hr (b.data.drop start) n with e | ⟨a', e⟩
    · exact Or.inl e
    · obtain ⟨o', h', f1, f2, f3⟩ := is.set_run E hr isb start n e
      exact Or.inr (Or.inr ⟨a', o', h', e, by rw [keep_set e]; exact hr, f1, f2, f3⟩)
  | drop i =>
    simp only [AOp.spec, ArrWorld.step]
    refine ⟨fun vs' e => ?_, fun _ e => by cases e⟩
    cases e
    rcases ei : w.var i with _ | o
    · refine ⟨⟨w.objs.set i none, w.heap⟩, rfl, ?_⟩
      have hv : ∀ j, (ArrWorld.mk (w.objs.set i none) w.heap).var j = w.var j := by
        intro j
        by_cases hi : i < w.objs.length
        · rw [var_set hi]
          split
          · rename_i hj; subst hj; exact ei.symm
          · rfl
        · rw [List.set_eq_of_length_le (by omega)]
      have hjv : ∀ j : Nat, ((vs.set i none)[j]?).join = (vs[j]?).join := by
        intro j
        by_cases hi : i < vs.length
        · rw [join_set vs hi]
          split
          · rename_i hj; subst hj; exact (hd.gone j ei).symm
          · rfl
        · rw [List.set_eq_of_length_le (by omega)]
      refine ⟨by simp [hd.len], ?_, ?_, ?_, hd.old, ?_, ?_, hd.next⟩
      · intro j oj ej; rw [hv] at ej; rw [hjv]; exact hd.held j oj ej
      · intro j ej; rw [hv] at ej; rw [hjv]; exact hd.gone j ej
      · intro j k oj ok hjk ej ek; rw [hv] at ej ek; exact hd.apart j k oj ok hjk ej ek
      · intro j oj ej; rw [hv] at ej; exact hd.mine j oj ej
      · intro b hb hs
        obtain ⟨j, oj, ej, eb⟩ := hd.all b hb hs
        exact ⟨j, oj, by rw [hv]; exact ej, eb⟩
    · obtain ⟨a, ea, is, hr⟩ := hd.held i o ei
      have hi := lt_of_var ei
      have hiv : i < vs.length := by rw [← hd.len]; exact hi
      have hdel : o.destroy w.heap = .ok () (w.heap.free o.data) := by
        unfold ArrObj.destroy
        rw [if_neg (by rw [is.canResize, hr]; exact Bool.noConfusion)]
        unfold M.delArr; rw [is.data]
      refine ⟨⟨w.objs.set i none, w.heap.free o.data⟩, by simp only [hdel], ?_⟩
      refine ⟨by simp [hd.len], ?_, ?_, ?_, ?_, ?_, ?_, by show _ ≤ (Heap.free _ _).next; rw [Heap.next_free]; exact hd.next⟩
      · intro j oj ej
        rw [var_set hi] at ej
        rw [join_set vs hiv]
        by_cases hj : j = i
        · rw [if_pos hj] at ej; cases ej
        · rw [if_neg hj] at ej ⊢
          obtain ⟨b, eb, isj, hrj⟩ := hd.held j oj ej
          refine ⟨b, eb, isj.mono ?_, hrj⟩
          show (Heap.free _ _).get _ = _
          rw [Heap.get_free, if_neg (hd.apart j i oj o hj ej ei)]
      · intro j ej
        rw [var_set hi] at ej
        rw [join_set vs hiv]
        by_cases hj : j = i
        · rw [if_pos hj]
        · rw [if_neg hj] at ej ⊢; exact hd.gone j ej
      · intro j k oj ok hjk ej ek
        rw [var_set hi] at ej ek
        split at ej
        · cases ej
        · split at ek
          · cases ek
          · exact hd.apart j k oj ok hjk ej ek
      · intro b hb
        have := hd.mine i o ei
        show (Heap.free _ _).get _ = _
        rw [Heap.get_free, if_neg (by omega)]; exact hd.old b hb
      · intro j oj ej
        rw [var_set hi] at ej
        split at ej
        · cases ej
        · exact hd.mine j oj ej
      · intro b hb hs
        change ((w.heap.free o.data).get b).isSome at hs
        rw [Heap.get_free] at hs
        split at hs
        · cases hs
        · rename_i hbo
          obtain ⟨j, oj, ej, eb⟩ := hd.all b hb hs
          have hj : j ≠ i := by rintro rfl; rw [ei] at ej; cases ej; exact hbo eb.symm
          exact ⟨j, oj, by rw [var_set hi, if_neg hj]; exact ej, eb⟩

/-- Any history of a program with any number of arrays: in memory each array is what it is as a value of its own, whatever
is done to the others and wherever the elements given to `set` lie; memory made by others is as it was. -/
theorem C112_history (E : GrowArray.Elem V) (ops : List (AOp V)) (h0 : Heap V) {vs : Arrays V} (hv : arraysRun E ops [] = some vs) :
    ∃ w, ArrWorld.run E ops ⟨[], h0⟩ = some w ∧
      (∀ i, match w.var i with
        | some o => ∃ a, (vs[i]?).join = some a ∧ ArrObj.Is w.heap o a
        | none => (vs[i]?).join = none) ∧
      (∀ b, b < h0.next → w.heap.get b = h0.get b) ∧
      ((∀ i, w.var i = none) → ∀ b, h0.next ≤ b → w.heap.get b = none) := by
  suffices hs : ∀ (ops : List (AOp V)) (w : ArrWorld V) (us vs : Arrays V), ArrWorld.Holds h0 w us → arraysRun E ops us = some vs →
      ∃ w', ArrWorld.run E ops w = some w' ∧ ArrWorld.Holds h0 w' vs by
    have h00 : ArrWorld.Holds h0 ⟨[], h0⟩ [] := by
      refine ⟨rfl, ?_, ?_, ?_, fun _ _ => rfl, ?_, fun b hb hs => (no_live_beyond hb hs).elim, Nat.le_refl _⟩
      · intro i o e; cases e
      · intro i _; rfl
      · intro i j o o' _ e; cases e
      · intro i o e; cases e
    obtain ⟨w, e, hd⟩ := hs ops _ _ vs h00 hv
    refine ⟨w, e, ?_, hd.old, ?_⟩
    · intro i
      rcases ei : w.var i with _ | o
      · exact hd.gone i ei
      · obtain ⟨a, h1, h2, -⟩ := hd.held i o ei
        exact ⟨a, h1, h2⟩
    · intro hn b hb
      rcases hg : w.heap.get b with _ | l
      · rfl
      · obtain ⟨i, o, ei, -⟩ := hd.all b hb (by rw [hg]; rfl)
        rw [hn i] at ei; cases ei
  intro ops
  induction ops with
  | nil =>
    intro w us vs hd e
    cases e
    exact ⟨w, rfl, hd⟩
  | cons op ops ih =>
    intro w us vs hd e
    unfold arraysRun at e
    obtain ⟨h1, h2⟩ := C112_step E hd op
    rcases ho : op.spec E us with ⟨_, us'⟩ | us' | _ | _
    · rw [ho] at e
      obtain ⟨w1, e1, hd1⟩ := h1 us' ho
      obtain ⟨w2, e2, hd2⟩ := ih w1 us' vs hd1 e
      exact ⟨w2, by unfold ArrWorld.run; rw [e1]; exact e2, hd2⟩
    · rw [ho] at e
      obtain ⟨w1, e1, hd1⟩ := h2 us' ho
      obtain ⟨w2, e2, hd2⟩ := ih w1 us' vs hd1 e
      exact ⟨w2, by unfold ArrWorld.run; rw [e1]; exact e2, hd2⟩
    · rw [ho] at e; cases e
    · rw [ho] at e; cases e

/-- `set` from the array's own elements: any part of it, at any distance. -/
theorem C112_set_own (E : GrowArray.Elem V) {h : Heap V} {o : ArrObj V} {a : GrowArray V} (i : ArrObj.Is h o a) (hr : a.canResize = true)
    {start n : Nat} (hn : start + n ≤ a.data.length) :
    ∃ o' h', o.set E o.data start n h = .ok o' h' ∧ o'.data = o.data ∧ o'.size = n ∧
      h'.get o.data = some ((a.data.drop start).take n ++ a.data.drop n) ∧ (∀ b, b ≠ o.data → b < h.next → h'.get b = h.get b) := by
  have hg : GrowArray.growArray E n a = .ok () { a with size := 0 } := by
    unfold GrowArray.growArray
    rw [if_neg (by rw [hr]; exact Bool.noConfusion), if_neg (by unfold GrowArray.arrayLength; omega)]
  have hlen : ((a.data.drop start).take n).length = n := by simp; omega
  have hv : GrowArray.set E (a.data.drop start) n a =
      .ok () { a with size := n, data := (a.data.drop start).take n ++ a.data.drop n } := by
    unfold GrowArray.set GrowArray.blit
    rw [hg]
    simp only
    rw [if_pos (by simp; omega), hlen, if_pos (by omega)]
  obtain ⟨o', h', e, is', c⟩ := i.set_run E hr i start n hv
  have hlt := i.lt
  obtain ⟨o1, h1, e1, -, -, stay⟩ := i.growArray_run E hr n hg
  have hd : o'.data = o.data := by
    obtain ⟨s1, s2⟩ := stay (by omega)
    unfold ArrObj.set at e
    rw [M.bind_ok e1] at e
    simp only at e
    rcases hm : (memMove o1.data o.data start n : M V Unit) h1 with ⟨_, h2⟩ | _ | _ | _
    · rw [M.bind_ok hm] at e
      cases e
      exact s1
    · rw [M.bind_throw hm] at e; cases e
    · rw [M.bind_ub hm] at e; cases e
    · rw [M.bind_timeout hm] at e; cases e
  have hdat := is'.data
  rw [hd] at hdat
  exact ⟨o', h', e, hd, is'.size, hdat, c.other⟩

/-- Moving the elements of `{1,2,3,4}` down by one, within the array. -/
example : ∃ o h o' h', ArrObj.ofList (intElem U8 (fun _ => 7)) [1,2,3,4] ⟨[]⟩ = .ok o h ∧
    o.set (intElem U8 (fun _ => 7)) o.data 1 3 h = .ok o' h' ∧ h'.get o.data = some [2,3,4,4] := by
  obtain ⟨o, h, e, is, -⟩ := arr_ofList_run (intElem U8 (fun _ => 7)) [1,2,3,4] ⟨[]⟩
  obtain ⟨o', h', e', -, -, hg, -⟩ := C112_set_own (intElem U8 (fun _ => 7)) is rfl (start := 1) (n := 3) (by decide)
  exact ⟨o, h, o', h', e, e', hg⟩

/-- A kernel returned by value, when the compiler elides the copy: all ones, in an array of its own. -/
theorem C112_returned (E : GrowArray.Elem V) (one : V) {width : Nat} (hw : 0 < width) (h : Heap V) :
    ∃ o h', ArrObj.table E one width true h = .ok o h' ∧ o.size = width ∧ h.next ≤ o.data ∧
      (∃ l, h'.get o.data = some l ∧ l.take width = List.replicate width one) ∧ (∀ b, b < h.next → h'.get b = h.get b) ∧
      o.destroy h' = .ok () (h'.free o.data) ∧ (∀ b, h.next ≤ b → (h'.free o.data).get b = none) := by
  obtain ⟨a, o, h1, e1, e2, is, hr, ed, ho, hn⟩ := arr_new_run E 10 h
  have hsz : a.size ≤ a.data.length := by
    unfold GrowArray.new GrowArray.fill at e1
    split at e1
    · cases e1; simp
    · cases e1
  obtain ⟨a', ha'⟩ : ∃ a', a.resize E width = .ok () a' := by
    unfold GrowArray.resize
    rw [if_neg (by rw [hr]; exact Bool.noConfusion)]
    split
    · exact ⟨_, rfl⟩
    · exact ⟨_, rfl⟩
  have hs' : a'.size = width ∧ width ≤ a'.data.length := by
    unfold GrowArray.resize GrowArray.arrayLength at ha'
    rw [if_neg (by rw [hr]; exact Bool.noConfusion)] at ha'
    split at ha'
    · cases ha'
      exact ⟨rfl, by simp; omega⟩
    · cases ha'
      exact ⟨rfl, by simp only; omega⟩
  obtain ⟨o2, h2, e3, is2, c2⟩ := is.resize_run E hr width ha'
  obtain ⟨h3, e4, w⟩ := setLoop_run is2.data 0 one (n := width) (by omega)
  simp only [Nat.zero_add, List.take_zero, List.nil_append] at e4 w
  have hr2 : o2.canResize = true := by rw [is2.canResize, keep_resize ha']; exact hr
  have c3 := c2.wrote is.lt w
  have hd2 : h.next ≤ o2.data := by
    rcases c2.moved with e | ⟨e, -⟩
    · omega
    · omega
  refine ⟨o2, h3, ?_, by rw [is2.size]; exact hs'.1, hd2, ⟨_, w.get, ?_⟩, ?_, ?_, ?_⟩
  · unfold ArrObj.table
    rw [M.bind_ok e2, if_neg (by omega), M.bind_ok e3, M.bind_ok e4]
    rfl
  · rw [List.take_append_of_le_length (by simp), List.take_of_length_le (by simp)]
  · intro b hb
    rw [c3.other b (by omega) (by omega), ho b hb]
  · unfold ArrObj.destroy
    rw [if_neg (by rw [hr2]; exact Bool.noConfusion)]
    unfold M.delArr; rw [w.get]
  · intro b hb
    rw [Heap.get_free]
    split
    · rfl
    · rename_i hbo
      rcases hg : h3.get b with _ | l
      · rfl
      · exfalso
        by_cases hb1 : b < h1.next
        · have : b = o.data := by omega
          subst this
          rcases c3.moved with e | ⟨-, e⟩
          · exact hbo e.symm
          · rw [e] at hg; cases hg
        · exact hbo (c3.live b (by omega) (by rw [hg]; rfl))

/-- The language (C++11) lets the compiler make the copy instead.  Then the kernel's array is gone when the function returns:
reading an element, or destroying the kernel, is undefined behaviour. -/
theorem C112_returned_refuted (E : GrowArray.Elem V) (one : V) {width : Nat} (hw : 0 < width) (h : Heap V) :
    ∃ o h', ArrObj.table E one width false h = .ok o h' ∧ (∀ k, M.rd o.data k h' = .ub) ∧ o.destroy h' = .ub := by
  obtain ⟨o, h1, e, -, -, -, -, hd, -⟩ := C112_returned E one hw h
  have hcr : o.canResize = true := by
    rcases hc : o.canResize with _ | _
    · unfold ArrObj.destroy at hd
      rw [if_pos hc] at hd
      obtain ⟨o', h', e', -, hle, ⟨l, hl, -⟩, -⟩ := C112_returned E one hw h
      rw [e] at e'; cases e'
      have h3 : h1 = h1.free o.data := by
        have : (pure () : M V Unit) h1 = .ok () h1 := rfl
        rw [this] at hd
        injection hd
      rw [h3, Heap.get_free, if_pos rfl] at hl; cases hl
    · rfl
  refine ⟨o, h1.free o.data, ?_, ?_, ?_⟩
  · -- the same function with the copy
    unfold ArrObj.table at e ⊢
    rcases hn : ArrObj.new E 10 h with ⟨a, h2⟩ | _ | _ | _
    · rw [M.bind_ok hn] at e ⊢
      rw [if_neg (by omega)] at e ⊢
      rcases hr : (a.resize E width) h2 with ⟨a2, h3⟩ | _ | _ | _
      · rw [M.bind_ok hr] at e ⊢
        rcases hl : (M.loop width (fun i => M.wr a2.data i one) : M V Unit) h3 with ⟨_, h4⟩ | _ | _ | _
        · rw [M.bind_ok hl] at e ⊢
          have : a2 = o ∧ h4 = h1 := by
            have : (pure a2 : M V (ArrObj V)) h4 = .ok a2 h4 := rfl
            unfold ArrObj.returned at e
            simp only [if_true] at e
            rw [this] at e
            cases e; exact ⟨rfl, rfl⟩
          obtain ⟨rfl, rfl⟩ := this
          unfold ArrObj.returned
          simp only [Bool.false_eq_true, if_false]
          rw [M.bind_ok hd]
          rfl
        · rw [M.bind_throw hl] at e; cases e
        · rw [M.bind_ub hl] at e; cases e
        · rw [M.bind_timeout hl] at e; cases e
      · rw [M.bind_throw hr] at e; cases e
      · rw [M.bind_ub hr] at e; cases e
      · rw [M.bind_timeout hr] at e; cases e
    · rw [M.bind_throw hn] at e; cases e
    · rw [M.bind_ub hn] at e; cases e
    · rw [M.bind_timeout hn] at e; cases e
  · intro k
    apply M.rd_ub
    rw [Heap.cell_free, if_pos rfl]
  · unfold ArrObj.destroy
    rw [if_neg (by rw [hcr]; exact Bool.noConfusion)]
    unfold M.delArr
    rw [Heap.get_free, if_pos rfl]

/-- An empty kernel is refused, and the array made for it released. -/
theorem C112_empty_kernel (E : GrowArray.Elem V) (one : V) (elide : Bool) (h : Heap V) :
    ∃ h', ArrObj.table E one 0 elide h = .throw h' ∧ (∀ b, b < h.next → h'.get b = h.get b) ∧ (∀ b, h.next ≤ b → h'.get b = none) := by
  obtain ⟨a, o, h1, e1, e2, is, hr, ed, ho, hn⟩ := arr_new_run E 10 h
  have hdel : o.destroy h1 = .ok () (h1.free o.data) := by
    unfold ArrObj.destroy
    rw [if_neg (by rw [is.canResize, hr]; exact Bool.noConfusion)]
    unfold M.delArr; rw [is.data]
  refine ⟨h1.free o.data, ?_, ?_, ?_⟩
  · unfold ArrObj.table
    rw [M.bind_ok e2, if_pos (by omega), M.bind_ok hdel]
    rfl
  · intro b hb
    rw [Heap.get_free, if_neg (by omega)]; exact ho b hb
  · intro b hb
    rw [Heap.get_free]
    split
    · rfl
    · rcases hg : h1.get b with _ | l
      · rfl
      · have := Heap.lt_next_of_get hg
        omega

/-- An array which owns its memory must not be copy-constructed, although the class lets a client do it. -/
theorem C112_copy_refuted (E : GrowArray.Elem V) (n : Nat) (h : Heap V) :
    (do let a ← ArrObj.new E n
        let c := a.copyConstruct
        c.destroy
        a.destroy) h = Res.ub := by
  obtain ⟨a, o, h1, e1, e2, is, hr, -⟩ := arr_new_run E n h
  have hcr : ¬ o.canResize = false := by rw [is.canResize, hr]; exact Bool.noConfusion
  rw [M.bind_ok e2]
  show (o.destroy >>= fun _ => o.destroy) h1 = .ub
  have hdel : o.destroy h1 = .ok () (h1.free o.data) := by
    unfold ArrObj.destroy; rw [if_neg hcr]; unfold M.delArr; rw [is.data]
  rw [M.bind_ok hdel]
  unfold ArrObj.destroy
  rw [if_neg hcr]
  unfold M.delArr
  rw [Heap.get_free, if_pos rfl]

/-- A history with an assignment, a `set` from the array's own elements, growth, a refused store and all arrays destroyed. -/
example : arraysRun (intElem U8 (fun _ => 7)) [.list [1,2,3,4], .make 2, .setFrom 0 0 1 3, .assign 1 0, .put 1 9 5, .resize 0 6, .put 0 5 9] []
    = some [some ⟨[2,3,4,0,0,9], 6, 0, true⟩, some ⟨[2,3,4], 3, 0, true⟩] := by decide

end Boof
