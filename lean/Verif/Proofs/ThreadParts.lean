import Verif.Proofs.Threads
/-
Threads which share arrays but not cells: the analogue of Proofs/Threads for single cells.
-/
namespace Boof
open M
variable {V α β ι : Type} {R W : Nat → Nat → Prop}

namespace Accesses

theorem touches_bind {P : α → Prop} {Q : β → Prop} {p : Accesses V α} {f : α → Accesses V β} (hp : p.Touches R W P)
    (hf : ∀ a, P a → (f a).Touches R W Q) : (p.bind f).Touches R W Q := by
  induction p with
  | done a => exact hf a hp
  | throw => trivial
  | ub => trivial
  | timeout => trivial
  | rd b i k ih => exact ⟨hp.1, fun v => ih v (hp.2 v)⟩
  | wr b i v k ih => exact ⟨hp.1, ih hp.2⟩

theorem Touches.on {P : α → Prop} {p : Accesses V α} (hp : p.Touches R W P) : ∀ h : Heap V, p.On R W P h := by
  induction p with
  | rd b i k ih => exact fun h => ⟨hp.1, fun v _ => ih v (hp.2 v) h⟩
  | wr b i v k ih => exact fun h => ⟨hp.1, ih hp.2 _⟩
  | done a => exact fun _ => hp
  | throw => exact fun _ => trivial
  | ub => exact fun _ => trivial
  | timeout => exact fun _ => trivial

end Accesses

/-- `m` is a program of single accesses which reads cells in `R` and writes cells in `W` only, and what it returns is in `P`. -/
def Fine (R W : Nat → Nat → Prop) (P : α → Prop) (m : M V α) : Prop :=
  ∃ p : Accesses V α, (∀ h, p.run h = m h) ∧ p.Touches R W P

namespace Fine

theorem pure {P : α → Prop} {a : α} (ha : P a) : Fine R W P (Pure.pure a : M V α) := ⟨.done a, fun _ => rfl, ha⟩
theorem throw {P : α → Prop} : Fine R W P (M.throw : M V α) := ⟨.throw, fun _ => rfl, trivial⟩
theorem ub {P : α → Prop} : Fine R W P (M.ub : M V α) := ⟨.ub, fun _ => rfl, trivial⟩

theorem rd {b i : Nat} (hr : R b i) : Fine R W (fun _ => True) (M.rd b i : M V V) := ⟨.rd b i .done, fun h => by
  show M.bind (M.rd b i) (fun v => M.pure v) h = _
  unfold M.bind
  split <;> rename_i e <;> rw [e] <;> rfl, hr, fun _ => trivial⟩

theorem wr {b i : Nat} {v : V} (hw : W b i) : Fine R W (fun _ => True) (M.wr b i v) := ⟨.wr b i v (.done ()), fun h => by
  show M.bind (M.wr b i v) (fun _ => M.pure ()) h = _
  unfold M.bind
  split <;> rename_i e <;> rw [e] <;> rfl, hw, trivial⟩

theorem bind {P : α → Prop} {Q : β → Prop} {m : M V α} {f : α → M V β} (hm : Fine R W P m) (hf : ∀ a, P a → Fine R W Q (f a)) :
    Fine R W Q (m >>= f) := by
  classical
  obtain ⟨p, hp, tp⟩ := hm
  refine ⟨p.bind (fun a => if h : P a then (hf a h).choose else .ub), fun h => ?_, Accesses.touches_bind tp (fun a ha => ?_)⟩
  · rw [Accesses.run_bind]
    show M.bind p.run _ h = M.bind m f h
    have key : ∀ (p : Accesses V α) (h : Heap V), p.Touches R W P →
        M.bind p.run (fun a => (if h : P a then (hf a h).choose else .ub : Accesses V β).run) h = M.bind p.run f h := by
      intro p
      induction p with
      | done a =>
        intro h ha
        show (if h : P a then (hf a h).choose else .ub : Accesses V β).run h = f a h
        rw [dif_pos (show P a from ha)]
        exact (hf a ha).choose_spec.1 h
      | throw => intro h _; rfl
      | ub => intro h _; rfl
      | timeout => intro h _; rfl
      | rd b i k ih =>
        intro h ht
        show M.bind (M.bind (M.rd b i) (fun v => (k v).run)) _ h = M.bind (M.bind (M.rd b i) (fun v => (k v).run)) _ h
        cases hc : h.cell b i with
        | none => simp only [M.bind, M.rd_ub hc]
        | some v =>
          simp only [M.bind, M.rd_run hc]
          exact ih v h (ht.2 v)
      | wr b i v k ih =>
        intro h ht
        show M.bind (M.bind (M.wr b i v) (fun _ => k.run)) _ h = M.bind (M.bind (M.wr b i v) (fun _ => k.run)) _ h
        cases hc : h.cell b i with
        | none => simp only [M.bind, M.wr_ub hc]
        | some w =>
          simp only [M.bind, M.wr_run hc]
          exact ih _ ht.2
    rw [key p h tp]
    unfold M.bind
    rw [hp]
  · rw [dif_pos ha]; exact (hf a ha).choose_spec.2

theorem weaken {P Q : α → Prop} {m : M V α} (hm : Fine R W P m) (h : ∀ a, P a → Q a) : Fine R W Q m := by
  obtain ⟨p, hp, tp⟩ := hm
  refine ⟨p, hp, ?_⟩
  clear hp
  induction p with
  | done a => exact h a tp
  | throw => trivial
  | ub => trivial
  | timeout => trivial
  | rd b i k ih => exact ⟨tp.1, fun v => ih v (tp.2 v)⟩
  | wr b i v k ih => exact ⟨tp.1, ih tp.2⟩

/-- for a program which returns nothing of interest -/
theorem any {P : α → Prop} {m : M V α} (hm : Fine R W P m) : Fine R W (fun _ => True) m := hm.weaken (fun _ _ => trivial)

theorem loopS {n : Nat} {init : β} {body : Nat → β → M V β} (hb : ∀ i s, i < n → Fine R W (fun _ => True) (body i s)) :
    Fine R W (fun _ => True) (M.loopS n init body) := by
  induction n with
  | zero => exact pure trivial
  | succ n ih => exact bind (ih (fun i s hi => hb i s (by omega))) (fun s _ => hb n s (by omega))

theorem loop {n : Nat} {body : Nat → M V Unit} (hb : ∀ i, i < n → Fine R W (fun _ => True) (body i)) :
    Fine R W (fun _ => True) (M.loop n body) := loopS (fun i _ hi => hb i hi)

end Fine

/-- The same arrays of the same lengths. -/
def Heap.Alike (h s : Heap V) : Prop := (∀ b, (h.get b).isSome = (s.get b).isSome) ∧ ∀ b i, (h.cell b i).isSome = (s.cell b i).isSome

theorem Heap.Alike.refl (h : Heap V) : h.Alike h := ⟨fun _ => rfl, fun _ _ => rfl⟩
theorem Heap.Alike.symm {h s : Heap V} (a : h.Alike s) : s.Alike h := ⟨fun b => (a.1 b).symm, fun b i => (a.2 b i).symm⟩
theorem Heap.Alike.trans {h s t : Heap V} (a : h.Alike s) (b : s.Alike t) : h.Alike t :=
  ⟨fun n => (a.1 n).trans (b.1 n), fun n i => (a.2 n i).trans (b.2 n i)⟩

theorem Heap.Alike.setCell {h : Heap V} {b i : Nat} {v w : V} (hc : h.cell b i = some w) : (h.setCell b i v).Alike h := by
  refine ⟨fun b' => ?_, fun b' i' => ?_⟩
  · by_cases e : b' = b
    · subst e
      cases hl : h.get b' with
      | none => unfold Heap.cell at hc; rw [hl] at hc; cases hc
      | some l => rw [Heap.get_setCell_same hl]; rfl
    · rw [Heap.get_setCell_ne e]
  · rw [Heap.cell_setCell hc]
    split
    · rename_i e; rw [e.1, e.2, hc]; rfl
    · rfl

/-- What is left to do of a thread which ends with `a` in memory `e` when it is alone: `s` is its own view of the memory `h`, which is right
in the cells `R`. -/
structure Going (R W : Nat → Nat → Prop) (P : α → Prop) (p : Accesses V α) (h s : Heap V) (a : α) (e : Heap V) : Prop where
  same : ∀ b i, R b i → s.cell b i = h.cell b i
  run : p.run s = .ok a e
  touches : p.On R W P s
  alike : h.Alike s
  ends : s.Alike e

theorem Going.step {P : α → Prop} {p : Accesses V α} {h s : Heap V} {a : α} {e : Heap V} (hWR : ∀ b i, W b i → R b i)
    (r : Going R W P p h s a e) :
    ∃ q h' s', p.step h = some (q, h') ∧ Going R W P q h' s' a e ∧ q.length s' = p.length s - 1 ∧
      (∀ b i, ¬W b i → h'.cell b i = h.cell b i) ∧ h'.Alike h := by
  cases p with
  | done x => exact ⟨_, h, s, rfl, r, rfl, fun _ _ _ => rfl, .refl h⟩
  | throw => exact absurd r.run (by intro h; cases h)
  | ub => exact absurd r.run (by intro h; cases h)
  | timeout => exact absurd r.run (by intro h; cases h)
  | rd b i k =>
    have hr := r.run
    change M.bind (M.rd b i) _ s = _ at hr
    cases hc : s.cell b i with
    | none => unfold M.bind at hr; rw [M.rd_ub hc] at hr; cases hr
    | some v =>
      unfold M.bind at hr; rw [M.rd_run hc] at hr
      refine ⟨k v, h, s, ?_, ⟨r.same, hr, r.touches.2 v hc, r.alike, r.ends⟩, ?_, fun _ _ _ => rfl, .refl h⟩
      · show (h.cell b i).map _ = _; rw [← r.same b i r.touches.1, hc]; rfl
      · simp [Accesses.length, hc]
  | wr b i v k =>
    have hr := r.run
    change M.bind (M.wr b i v) _ s = _ at hr
    cases hc : s.cell b i with
    | none => unfold M.bind at hr; rw [M.wr_ub hc] at hr; cases hr
    | some w =>
      unfold M.bind at hr; rw [M.wr_run hc] at hr
      have hWb : W b i := r.touches.1
      have hch : h.cell b i = some w := by rw [← r.same b i (hWR b i hWb), hc]
      have a1 : (h.setCell b i v).Alike h := .setCell hch
      have a2 : (s.setCell b i v).Alike s := .setCell hc
      refine ⟨k, h.setCell b i v, s.setCell b i v, ?_, ⟨fun b' i' hb' => ?_, hr, r.touches.2, a1.trans (r.alike.trans a2.symm), a2.trans r.ends⟩, ?_,
        fun b' i' hb' => ?_, a1⟩
      · show (h.cell b i).map _ = _; rw [hch]; rfl
      · rw [Heap.cell_setCell hc, Heap.cell_setCell hch, r.same b' i' hb']
      · simp [Accesses.length]
      · rw [Heap.cell_setCell hch, if_neg]
        rintro ⟨rfl, rfl⟩; exact hb' hWb

theorem Going.other {W' : Nat → Nat → Prop} {P : α → Prop} {p : Accesses V α} {h h' s : Heap V} {a : α} {e : Heap V} (r : Going R W P p h s a e)
    (hk : ∀ b i, ¬W' b i → h'.cell b i = h.cell b i) (ha : h'.Alike h) (hd : ∀ b i, W' b i → ¬R b i) : Going R W P p h' s a e :=
  ⟨fun b i hb => (r.same b i hb).trans (hk b i (fun hw => hd b i hw hb)).symm, r.run, r.touches, ha.trans r.alike, r.ends⟩

theorem Going.ended {P : α → Prop} {p : Accesses V α} {h s : Heap V} {a : α} {e : Heap V} (r : Going R W P p h s a e)
    (hl : p.length s = 0) : p = .done a ∧ s = e := by
  cases p with
  | done x => have := r.run; cases this; exact ⟨rfl, rfl⟩
  | throw => exact absurd r.run (by intro h; cases h)
  | ub => exact absurd r.run (by intro h; cases h)
  | timeout => exact absurd r.run (by intro h; cases h)
  | rd b i k =>
    have hr := r.run
    change M.bind (M.rd b i) _ s = _ at hr
    cases hc : s.cell b i with
    | none => unfold M.bind at hr; rw [M.rd_ub hc] at hr; cases hr
    | some v => simp [Accesses.length, hc] at hl
  | wr b i v k => simp [Accesses.length] at hl

theorem Going.access {P : α → Prop} {p : Accesses V α} {h s : Heap V} {a : α} {e : Heap V} (hWR : ∀ b i, W b i → R b i)
    (r : Going R W P p h s a e) {b i : Nat} {w : Bool} (hn : p.next = some (b, i, w)) : R b i ∧ (w = true → W b i) := by
  cases p with
  | done x => cases hn
  | throw => cases hn
  | ub => cases hn
  | timeout => cases hn
  | rd b' i' k => cases hn; exact ⟨r.touches.1, by simp⟩
  | wr b' i' v k => cases hn; exact ⟨hWR _ _ r.touches.1, fun _ => r.touches.1⟩

theorem Accesses.run_alike {p : Accesses V α} : ∀ {h e : Heap V} {a : α}, p.run h = .ok a e → h.Alike e := by
  induction p with
  | done x => intro h e a hr; cases hr; exact .refl _
  | throw => intro h e a hr; cases hr
  | ub => intro h e a hr; cases hr
  | timeout => intro h e a hr; cases hr
  | rd b i k ih =>
    intro h e a hr
    change M.bind (M.rd b i) _ h = _ at hr
    cases hc : h.cell b i with
    | none => unfold M.bind at hr; rw [M.rd_ub hc] at hr; cases hr
    | some v => unfold M.bind at hr; rw [M.rd_run hc] at hr; exact ih v hr
  | wr b i v k ih =>
    intro h e a hr
    change M.bind (M.wr b i v) _ h = _ at hr
    cases hc : h.cell b i with
    | none => unfold M.bind at hr; rw [M.wr_ub hc] at hr; cases hr
    | some w => unfold M.bind at hr; rw [M.wr_run hc] at hr; exact (Heap.Alike.setCell hc).symm.trans (ih hr)

theorem schedule_parts [DecidableEq ι] {R W : ι → Nat → Nat → Prop} {P : ι → α → Prop} (hWR : ∀ i b k, W i b k → R i b k)
    (hd : ∀ i j, i ≠ j → ∀ b k, W i b k → ¬R j b k) {a : ι → α} {e : ι → Heap V}
    (l : List ι) : ∀ {p : ι → Accesses V α} {h : Heap V} {s : ι → Heap V}, (∀ i, Going (R i) (W i) (P i) (p i) h (s i) (a i) (e i)) →
    ∃ (q : ι → Accesses V α) (h' : Heap V) (s' : ι → Heap V), schedule l p h = some (q, h') ∧
      (∀ i, Going (R i) (W i) (P i) (q i) h' (s' i) (a i) (e i)) ∧
      (∀ i, (q i).length (s' i) = (p i).length (s i) - l.count i) ∧ (∀ b k, (∀ i, ¬W i b k) → h'.cell b k = h.cell b k) ∧ h'.Alike h := by
  induction l with
  | nil => intro p h s hr; exact ⟨p, h, s, rfl, hr, fun i => by simp, fun _ _ _ => rfl, .refl h⟩
  | cons j l ih =>
    intro p h s hr
    obtain ⟨q, h1, s1, e1, r1, l1, k1, a1⟩ := (hr j).step (hWR j)
    obtain ⟨q', h', s', e2, r2, l2, k2, a2⟩ := ih (p := fun i => if i = j then q else p i) (h := h1)
      (s := fun i => if i = j then s1 else s i) (fun i => by
        by_cases hij : i = j
        · subst hij; simp only [if_true]; exact r1
        · simp only [hij, if_false]
          exact (hr i).other k1 a1 (hd j i (Ne.symm hij)))
    refine ⟨q', h', s', ?_, r2, fun i => ?_, fun b k hb => (k2 b k hb).trans (k1 b k (hb j)), a2.trans a1⟩
    · show (match (p j).step h with | none => none | some (q, h') => _) = _
      rw [e1]; exact e2
    · rw [l2 i]
      by_cases hij : i = j
      · subst hij; simp only [if_true, l1, List.count_cons_self]; omega
      · simp only [hij, if_false]
        rw [List.count_cons_of_ne (Ne.symm hij)]

/-! ### A program which does not read an array writes a cell of it only if the result shows that -/

namespace Accesses

/-- Programs which do not read the cells in `X` do not depend on them. -/
theorem run_apart {X : Nat → Nat → Prop} {p : Accesses V α} {Rb : Nat → Prop} (hr : p.ReadsIn Rb) (hX : ∀ b i, X b i → ¬Rb b) :
    ∀ {h h' e : Heap V} {a : α}, (∀ b i, ¬X b i → h'.cell b i = h.cell b i) → h'.Alike h → p.run h = .ok a e →
    ∃ e', p.run h' = .ok a e' ∧ (∀ b i, ¬X b i → e'.cell b i = e.cell b i) ∧ e'.Alike e := by
  induction p with
  | done x => intro h h' e a hs ha hr; cases hr; exact ⟨h', rfl, hs, ha⟩
  | throw => intro h h' e a hs ha hr; cases hr
  | ub => intro h h' e a hs ha hr; cases hr
  | timeout => intro h h' e a hs ha hr; cases hr
  | rd b i k ih =>
    intro h h' e a hs ha hrun
    change M.bind (M.rd b i) _ h = _ at hrun
    cases hc : h.cell b i with
    | none => unfold M.bind at hrun; rw [M.rd_ub hc] at hrun; cases hrun
    | some v =>
      unfold M.bind at hrun; rw [M.rd_run hc] at hrun
      obtain ⟨e', r1, r2⟩ := ih v (hr.2 v) hs ha hrun
      refine ⟨e', ?_, r2⟩
      show M.bind (M.rd b i) _ h' = _
      unfold M.bind
      rw [M.rd_run (by rw [hs b i (fun hx => hX b i hx hr.1)]; exact hc)]
      exact r1
  | wr b i v k ih =>
    intro h h' e a hs ha hrun
    change M.bind (M.wr b i v) _ h = _ at hrun
    cases hc : h.cell b i with
    | none => unfold M.bind at hrun; rw [M.wr_ub hc] at hrun; cases hrun
    | some w =>
      unfold M.bind at hrun; rw [M.wr_run hc] at hrun
      obtain ⟨w', hc'⟩ : ∃ w', h'.cell b i = some w' := by
        have := ha.2 b i
        rw [hc] at this
        exact Option.isSome_iff_exists.1 this
      obtain ⟨e', r1, r2⟩ := ih hr (h := h.setCell b i v) (h' := h'.setCell b i v) (fun b' i' hx => by
        rw [Heap.cell_setCell hc, Heap.cell_setCell hc', hs b' i' hx]) (((Heap.Alike.setCell hc').trans ha).trans (Heap.Alike.setCell hc).symm) hrun
      refine ⟨e', ?_, r2⟩
      show M.bind (M.wr b i v) _ h' = _
      unfold M.bind
      rw [M.wr_run hc']
      exact r1

/-- A program which does not read cell `c` of array `o`, and which leaves two different values of it as they are, does not write it. -/
theorem not_written {p : Accesses V α} {Rb : Nat → Prop} (hr : p.ReadsIn Rb) {o c : Nat} (ho : ¬Rb o) :
    ∀ {h h' e : Heap V} {a : α}, (∀ b i, ¬(b = o ∧ i = c) → h'.cell b i = h.cell b i) → h'.Alike h → p.run h = .ok a e →
    ∃ e', p.run h' = .ok a e' ∧
      (e'.cell o c = e.cell o c ∨ (e.cell o c = h.cell o c ∧ p.On (fun _ _ => True) (fun b i => ¬(b = o ∧ i = c)) (fun x => x = a) h)) := by
  induction p with
  | done x => intro h h' e a hs ha hrun; cases hrun; exact ⟨h', rfl, Or.inr ⟨rfl, rfl⟩⟩
  | throw => intro h h' e a hs ha hrun; cases hrun
  | ub => intro h h' e a hs ha hrun; cases hrun
  | timeout => intro h h' e a hs ha hrun; cases hrun
  | rd b i k ih =>
    intro h h' e a hs ha hrun
    change M.bind (M.rd b i) _ h = _ at hrun
    cases hc : h.cell b i with
    | none => unfold M.bind at hrun; rw [M.rd_ub hc] at hrun; cases hrun
    | some v =>
      unfold M.bind at hrun; rw [M.rd_run hc] at hrun
      obtain ⟨e', r1, r2⟩ := ih v (hr.2 v) hs ha hrun
      refine ⟨e', ?_, r2.imp id (fun r => ⟨r.1, trivial, fun v' hv' => ?_⟩)⟩
      · show M.bind (M.rd b i) _ h' = _
        unfold M.bind
        rw [M.rd_run (by rw [hs b i (fun hx => ho (hx.1 ▸ hr.1))]; exact hc)]
        exact r1
      · rw [hc] at hv'; cases hv'; exact r.2
  | wr b i v k ih =>
    intro h h' e a hs ha hrun
    change M.bind (M.wr b i v) _ h = _ at hrun
    cases hc : h.cell b i with
    | none => unfold M.bind at hrun; rw [M.wr_ub hc] at hrun; cases hrun
    | some w =>
      unfold M.bind at hrun; rw [M.wr_run hc] at hrun
      obtain ⟨w', hc'⟩ : ∃ w', h'.cell b i = some w' := by
        have := ha.2 b i
        rw [hc] at this
        exact Option.isSome_iff_exists.1 this
      have hal := ((Heap.Alike.setCell (v := v) hc').trans ha).trans (Heap.Alike.setCell (v := v) hc).symm
      have hstep : ∀ e', k.run (h'.setCell b i v) = .ok a e' → (wr b i v k).run h' = .ok a e' := fun e' r1 => by
        show M.bind (M.wr b i v) _ h' = _
        unfold M.bind
        rw [M.wr_run hc']
        exact r1
      by_cases hx : b = o ∧ i = c
      · obtain ⟨rfl, rfl⟩ := hx
        obtain ⟨e', r1, r2, -⟩ := run_apart (X := fun _ _ => False) (p := k) (Rb := Rb) hr (fun _ _ hx => hx.elim)
          (h := h.setCell b i v) (h' := h'.setCell b i v) (fun b' i' _ => by
            rw [Heap.cell_setCell hc, Heap.cell_setCell hc']
            split
            · rfl
            · rename_i hne; exact hs b' i' hne) hal hrun
        exact ⟨e', hstep e' r1, Or.inl (r2 _ _ (fun h => h))⟩
      · obtain ⟨e', r1, r2⟩ := ih hr (h := h.setCell b i v) (h' := h'.setCell b i v) (fun b' i' hx => by
          rw [Heap.cell_setCell hc, Heap.cell_setCell hc', hs b' i' hx]) hal hrun
        refine ⟨e', hstep e' r1, r2.imp id (fun r => ⟨r.1.trans ?_, hx, r.2⟩)⟩
        rw [Heap.cell_setCell hc, if_neg (fun h => hx ⟨h.1.symm, h.2.symm⟩)]

/-- All together. -/
theorem on_of {P : α → Prop} {p : Accesses V α} {Rb Wb : Nat → Prop} {X : Nat → Nat → Prop} (hr : p.ReadsIn Rb) (hw : p.WritesIn Wb) :
    ∀ {h e : Heap V} {a : α}, p.run h = .ok a e → P a →
    (∀ b i, X b i → (h.cell b i).isSome → p.On (fun _ _ => True) (fun b' i' => ¬(b' = b ∧ i' = i)) (fun _ => True) h) →
    p.On (fun b _ => Rb b) (fun b i => Wb b ∧ ¬X b i) P h := by
  induction p with
  | done x => intro h e a hrun ha _; cases hrun; exact ha
  | throw => intros; trivial
  | ub => intros; trivial
  | timeout => intros; trivial
  | rd b i k ih =>
    intro h e a hrun ha hx
    refine ⟨hr.1, fun v hc => ih v (hr.2 v) (hw v) (e := e) ?_ ha (fun b' i' hX hs => (hx b' i' hX hs).2 v hc)⟩
    · change M.bind (M.rd b i) _ h = _ at hrun
      unfold M.bind at hrun; rw [M.rd_run hc] at hrun; exact hrun
  | wr b i v k ih =>
    intro h e a hrun ha hx
    change M.bind (M.wr b i v) _ h = _ at hrun
    cases hc : h.cell b i with
    | none => unfold M.bind at hrun; rw [M.wr_ub hc] at hrun; cases hrun
    | some w =>
      unfold M.bind at hrun; rw [M.wr_run hc] at hrun
      exact ⟨⟨hw.1, fun hX => (hx b i hX (by rw [hc]; rfl)).1 ⟨rfl, rfl⟩⟩, ih hr hw.2 hrun ha (fun b' i' hX hs =>
        (hx b' i' hX (by rw [← (Heap.Alike.setCell (v := v) hc).2]; exact hs)).2)⟩

theorem On.mono {R' W' : Nat → Nat → Prop} {P Q : α → Prop} {p : Accesses V α} (hR : ∀ b i, R b i → R' b i) (hW : ∀ b i, W b i → W' b i)
    (hP : ∀ a, P a → Q a) : ∀ {h : Heap V}, p.On R W P h → p.On R' W' Q h := by
  induction p with
  | done x => exact fun h => hP _ h
  | throw => exact fun _ => trivial
  | ub => exact fun _ => trivial
  | timeout => exact fun _ => trivial
  | rd b i k ih => exact fun h => ⟨hR _ _ h.1, fun v hv => ih v (h.2 v hv)⟩
  | wr b i v k ih => exact fun h => ⟨hW _ _ h.1, ih h.2⟩

end Accesses

end Boof
