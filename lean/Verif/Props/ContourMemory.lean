import Verif.Proofs.ContourObject
import Verif.Proofs.OutOfMemory
/-
C122: the memory of the contour finder.
-/
namespace Boof
open M

variable {h h' : Heap Int} {o o' : LabellerObj} {binary labeled lab : Gray} {f : Nat → Nat → Int} {fuel : Nat}

/-- Constructing a finder succeeds and makes seven new arrays; the arrays there were before are not changed. -/
theorem C122_new (rule : ConnectRule) (junk : TracerObj) (h : Heap Int) : ∃ o h', LabellerObj.new rule junk h = .ok o h' ∧
    o.arrays.Nodup ∧ o.arrays.length = 7 ∧ (∀ b ∈ o.arrays, h.get b = none) ∧
    (∀ b, (h'.get b).isSome = true ↔ b ∈ o.arrays ∨ (h.get b).isSome = true) ∧
    (∀ b, b ∉ o.arrays → h'.get b = h.get b) ∧ o.rule = rule ∧ o.limits = ⟨0, 4294967295, true⟩ := by
  obtain ⟨o, h', TT, e, hi, hn, hold, hnew, hr, hl⟩ := labeller_new rule junk h
  have hsub : ∀ b ∈ o.arrays, h.get b = none := by
    intro b hb
    cases hg : h.get b with
    | none => rfl
    | some l => have := Heap.lt_next_of_get hg; have := hnew b hb; omega
  have hnd := hi.nodup
  have hother : ∀ b, b ∉ o.arrays → h'.get b = h.get b := by
    intro b hb
    rcases Nat.lt_or_ge b h.next with hlt | hge
    · exact hold b hlt
    · have h1 : h.get b = none := by
        cases hg : h.get b with
        | none => rfl
        | some l => have := Heap.lt_next_of_get hg; omega
      rw [h1]
      cases hg : h'.get b with
      | none => rfl
      | some l =>
        exfalso
        have hlt := Heap.lt_next_of_get hg
        have hsp : o.arrays.Perm ((List.range 7).map (h.next + ·)) := by
          apply List.Subperm.perm_of_length_le
          · apply hnd.subperm
            intro c hc
            have h1 := hnew c hc
            have h2 : c < h'.next := by
              cases hg : h'.get c with
              | none => have := hi.alive c hc; rw [hg] at this; cases this
              | some l => exact Heap.lt_next_of_get hg
            exact List.mem_map.2 ⟨c - h.next, List.mem_range.2 (by omega), by omega⟩
          · simp [LabellerObj.arrays, LabellerObj.tables, TracerObj.tables]
        exact hb (hsp.mem_iff.2 (List.mem_map.2 ⟨b - h.next, List.mem_range.2 (by omega), by omega⟩))
  refine ⟨o, h', e, hnd, by simp [LabellerObj.arrays, LabellerObj.tables, TracerObj.tables], hsub, ?_, hother, hr, hl⟩
  intro b
  by_cases hb : b ∈ o.arrays
  · simp [hi.alive b hb, hb]
  · simp [hb, hother b hb]

/-- Whatever has been done with a finder before, its seven arrays are distinct and alive. -/
theorem C122_owns (ho : LabellerObj.Reachable h o) : o.arrays.Nodup ∧ ∀ b ∈ o.arrays, (h.get b).isSome = true := by
  obtain ⟨TT, hi⟩ := ho.inv
  exact ⟨hi.nodup, hi.alive⟩

/-- A finder with its tables in memory does what the finder of C59 to C67, C95, C119 and C121 does, whose tables are
values: same outcome, same contours and points, same arrays except the tables. -/
theorem C122_refines (ho : LabellerObj.Reachable h o) (ha : o.Accepts h binary labeled f fuel) :
    ∃ l, Labeller.Reachable h l ∧ l.rule = o.rule ∧ l.limits = o.limits ∧ l.border = o.border ∧ l.Accepts h binary labeled f fuel ∧
    ∃ o' l' lab h' hv, o.process fuel binary labeled h = .ok (o', lab) h' ∧ l.process fuel binary labeled h = .ok (l', lab) hv ∧
      o'.contours = l'.contours ∧ o'.packedPoints = l'.packedPoints ∧ o'.tables = o.tables ∧
      ∀ b, b ∉ o.tables → h'.get b = hv.get b := by
  obtain ⟨TT, hi⟩ := ho.inv
  obtain ⟨o', l', lab, h', hv, TT', e, ev, hval, hi', ht, hg, -⟩ := hi.process ha
  refine ⟨_, hi.value, rfl, rfl, rfl, hi.accepts ha, o', l', lab, h', hv, e, ev, ?_, ?_, ht, hg⟩
  · rw [hval]; rfl
  · rw [hval]; rfl

theorem outside_tables {ho : LabellerObj.Reachable h o} (ha : o.Accepts h binary labeled f fuel)
    (hr : o.process fuel binary labeled h = .ok (o', lab) h') : lab.buf ∉ o'.arrays ∧ lab.buf ∉ o.tables ∧
    ∀ b, (h'.get b).isSome = true ↔ b ∈ o'.arrays ∨ b = lab.buf ∨ ((h.get b).isSome = true ∧ b ∉ o.arrays ∧ b ≠ labeled.buf) := by
  obtain ⟨TT, hi⟩ := ho.inv
  obtain ⟨o1, l', lab1, h1, hv, TT', e, ev, hval, hi', ht, hg, P, hs1, hs2⟩ := hi.process ha
  rw [hr] at e
  cases e
  have halive := hi.alive
  have halive' := hi'.alive
  have hnd' := hi'.nodup
  have hnd := hi.nodup
  have hf := ha.foreign.1
  have hlab := ha.labelValid.live
  have hbor : o.border.buf ∈ o.arrays := by simp [LabellerObj.arrays]
  have hbor' : o'.border.buf ∈ o'.arrays := by simp [LabellerObj.arrays]
  have hne : labeled.buf ≠ o.border.buf := fun e => hf (e ▸ hbor)
  have hPlab : P lab.buf := by
    rcases hs1 with ⟨e, rfl⟩ | ⟨-, -, rfl⟩
    · rw [e]; exact hlab
    · exact Or.inr rfl
  have hmem : ∀ b, b ∈ o.arrays ↔ b ∈ o.tables ∨ b = o.border.buf := fun b => by simp [LabellerObj.arrays]
  have hmem' : ∀ b, b ∈ o'.arrays ↔ b ∈ o.tables ∨ b = o'.border.buf := fun b => by simp [LabellerObj.arrays, ht]
  have hlabT : lab.buf ∉ o.tables := by
    intro hc
    rcases hs1 with ⟨e, rfl⟩ | ⟨-, e, rfl⟩
    · exact hf ((hmem _).2 (Or.inl (e ▸ hc)))
    · exact e (halive _ ((hmem _).2 (Or.inl hc)))
  have hPbor : P o.border.buf := by
    rcases hs1 with ⟨e, rfl⟩ | ⟨-, -, rfl⟩
    · exact halive _ hbor
    · exact Or.inl ⟨halive _ hbor, fun e => hne e.symm⟩
  have hlabB0 : lab.buf ≠ o.border.buf := by
    rcases hs1 with ⟨e, rfl⟩ | ⟨-, e, rfl⟩
    · rw [e]; exact hne
    · intro e'; exact e (by rw [e']; exact halive _ hbor)
  have hlabB : lab.buf ≠ o'.border.buf := by
    rcases hs2 with ⟨e, -⟩ | ⟨-, e, -⟩
    · rw [e]; exact hlabB0
    · intro e'; exact e (e' ▸ hPlab)
  have hborT' : o'.border.buf ∉ o.tables := by
    rw [← ht]
    intro hc
    unfold LabellerObj.arrays at hnd'
    exact (List.nodup_append.1 hnd').2.2 _ hc _ (by simp) rfl
  have hborT : o.border.buf ∉ o.tables := by
    intro hc
    unfold LabellerObj.arrays at hnd
    exact (List.nodup_append.1 hnd).2.2 _ hc _ (by simp) rfl
  refine ⟨?_, hlabT, ?_⟩
  · rw [hmem']; rintro (e | e)
    · exact hlabT e
    · exact hlabB e
  intro b
  have h2 : (h'.get b).isSome = true ↔ (P b ∧ b ≠ o.border.buf) ∨ b = o'.border.buf := by
    rcases hs2 with ⟨e, e'⟩ | ⟨-, -, e'⟩
    · rw [show (h'.get b).isSome = true ↔ P b from by rw [← e']]
      rw [e]
      by_cases hb : b = o.border.buf
      · subst hb; simp [hPbor]
      · simp [hb]
    · exact iff_of_eq (congrFun e' b)
  have h1 : P b ↔ ((h.get b).isSome = true ∧ b ≠ labeled.buf) ∨ b = lab.buf := by
    rcases hs1 with ⟨e, rfl⟩ | ⟨-, -, rfl⟩
    · rw [e]
      by_cases hb : b = labeled.buf
      · subst hb; simp [hlab]
      · simp [hb]
    · exact Iff.rfl
  rw [h2, h1, hmem', hmem]
  constructor
  · rintro (⟨⟨a, a'⟩ | a, a2⟩ | a)
    · by_cases hT : b ∈ o.tables
      · exact Or.inl (Or.inl hT)
      · exact Or.inr (Or.inr ⟨a, by rintro (x | x); exacts [hT x, a2 x], a'⟩)
    · exact Or.inr (Or.inl a)
    · exact Or.inl (Or.inr a)
  · rintro ((a | a) | a | ⟨a, a', a''⟩)
    · refine Or.inl ⟨Or.inl ⟨halive _ ((hmem _).2 (Or.inl a)), ?_⟩, ?_⟩
      · rintro rfl; exact hf ((hmem _).2 (Or.inl a))
      · rintro rfl; exact hborT a
    · exact Or.inr a
    · exact Or.inl ⟨Or.inr a, a ▸ hlabB0⟩
    · exact Or.inl ⟨Or.inl ⟨a, a''⟩, fun e => a' (Or.inr e)⟩

/-- `process` leaks nothing and releases nothing of others: after it, the arrays alive are those of the finder, the one of
the label image, and those which were alive before and belonged to neither of the two. -/
theorem C122_no_leak (ho : LabellerObj.Reachable h o) (ha : o.Accepts h binary labeled f fuel)
    (hr : o.process fuel binary labeled h = .ok (o', lab) h') (b : Nat) :
    (h'.get b).isSome = true ↔ b ∈ o'.arrays ∨ b = lab.buf ∨ ((h.get b).isSome = true ∧ b ∉ o.arrays ∧ b ≠ labeled.buf) :=
  (outside_tables (ho := ho) ha hr).2.2 b

/-- The label image and the finder do not share an array afterwards. -/
theorem C122_apart (ho : LabellerObj.Reachable h o) (ha : o.Accepts h binary labeled f fuel)
    (hr : o.process fuel binary labeled h = .ok (o', lab) h') : lab.buf ∉ o'.arrays :=
  (outside_tables (ho := ho) ha hr).1

theorem px_eq {h1 h2 : Heap Int} {g : Gray} (e : h1.get g.buf = h2.get g.buf) (x y : Nat) : h1.px g x y = h2.px g x y := by
  unfold Heap.px Heap.cell; rw [e]

/-- The labels of the connected components, as C62, after any history and with the tables in memory; the picture and all
other arrays of the program are not changed. -/
theorem C122_labels (ho : LabellerObj.Reachable h o) (ha : o.Accepts h binary labeled f fuel) :
    ∃ o' lab h', o.process fuel binary labeled h = .ok (o', lab) h' ∧ lab.width = binary.width ∧ lab.height = binary.height ∧
      (∃ g, lab.Shows h' g ∧ Labelling o.rule binary.width binary.height f g o'.contours.length) ∧
      (∀ b i, b ∉ o.arrays → b ≠ labeled.buf → b < h.next → h'.cell b i = h.cell b i) ∧ binary.Shows h' f := by
  obtain ⟨l, hl, e1, e2, e3, hacc, o', l', lab, h', hv, e, ev, ec, ep, et, hg⟩ := C122_refines ho ha
  obtain ⟨h1, h2, -⟩ := outside_tables (ho := ho) ha e
  obtain ⟨l1, lab1, hv1, ev', w1, w2, -, -, w5, w6, -⟩ := C67_process_succeeds hl hacc
  rw [ev] at ev'
  cases ev'
  obtain ⟨g, g1, g2⟩ := C62_labels hl hacc ev
  refine ⟨o', lab, h', e, w1, w2, ⟨g, ?_, ?_⟩, ?_, ?_⟩
  · intro x y hx hy
    rw [px_eq (hg _ h2)]; exact g1 x y hx hy
  · rw [← e1, ec]; exact g2
  · intro b i hb1 hb2 hb3
    have hT : b ∉ o.tables := fun e => hb1 (List.mem_append_left _ e)
    have hB : b ≠ l.border.buf := by rw [e3]; rintro rfl; exact hb1 (by simp [LabellerObj.arrays])
    rw [← w6 b i hb2 hB hb3]
    unfold Heap.cell; rw [hg b hT]
  · intro x y hx hy
    rw [px_eq (hg _ (fun e => ha.foreign.2 (List.mem_append_left _ e)))]; exact w5 x y hx hy

/-- The contours, as C63, after any history and with the tables in memory. -/
theorem C122_boundaries (ho : LabellerObj.Reachable h o) (ha : o.Accepts h binary labeled f fuel)
    (hr : o.process fuel binary labeled h = .ok (o', lab) h') :
    ∃ (sides : List ((Nat × Nat) × (Nat × Nat))) (paths : List (List (Nat × Nat))) (external : Nat → Bool),
      OnePerBoundary o.rule (Black binary.width binary.height f) sides ∧ paths.length = sides.length ∧
      (∀ i s path, sides[i]? = some s → paths[i]? = some path →
        Around o.rule (Black binary.width binary.height f) s path ∧
        (external i = true ↔ Outer o.rule (Black binary.width binary.height f) s.1 s.2)) ∧
      Observes o'.packedPoints (paths.mapIdx (fun i path =>
        if o.limits.Keeps (external i) path.length then path.map pointOf else [])) ∧
      (∀ c ∈ o'.contours,
        (∃ s, sides[c.externalIndex]? = some s ∧ external c.externalIndex = true ∧
          h'.px lab (s.1.1 - 1) (s.1.2 - 1) = some (c.id : Int)) ∧
        (∀ i ∈ c.internalIndexes, ∃ s, sides[i]? = some s ∧ external i = false ∧
          h'.px lab (s.1.1 - 1) (s.1.2 - 1) = some (c.id : Int))) := by
  obtain ⟨l, hl, e1, e2, e3, hacc, o1, l', lab1, h1, hv, e, ev, ec, ep, et, hg⟩ := C122_refines ho ha
  obtain ⟨-, h2, -⟩ := outside_tables (ho := ho) ha hr
  rw [hr] at e
  cases e
  obtain ⟨sides, paths, external, a1, a2, a3, a4, a5⟩ := C63_boundaries hl hacc ev
  rw [e1] at a1 a3
  rw [e2, ← ep] at a4
  rw [← ec] at a5
  have hp : ∀ x y, h'.px lab x y = hv.px lab x y := fun x y => px_eq (hg _ h2) x y
  refine ⟨sides, paths, external, a1, a2, a3, a4, ?_⟩
  intro c hc
  obtain ⟨⟨s, b1, b2, b3⟩, b4⟩ := a5 c hc
  refine ⟨⟨s, b1, b2, by rw [hp]; exact b3⟩, fun i hi => ?_⟩
  obtain ⟨s, c1, c2, c3⟩ := b4 i hi
  exact ⟨s, c1, c2, by rw [hp]; exact c3⟩

theorem release7 {h : Heap Int} {a1 a2 a3 b1 b2 b3 c : Nat} (hnd : [a1, a2, a3, b1, b2, b3, c].Nodup)
    (hal : ∀ b ∈ [a1, a2, a3, b1, b2, b3, c], (h.get b).isSome = true) :
    ∃ h', (do
      delArr c
      (do delArr b1; delArr b2; delArr b3)
      (do delArr a1; delArr a2; delArr a3) : M Int Unit) h = .ok () h' ∧
      ∀ b, h'.get b = if b ∈ [a1, a2, a3, b1, b2, b3, c] then none else h.get b := by
  have del : ∀ (k : Heap Int) b, (k.get b).isSome = true → delArr b k = .ok () (k.free b) := by
    intro k b hb
    unfold delArr
    cases hg : k.get b with
    | none => rw [hg] at hb; cases hb
    | some l => rfl
  simp only [List.nodup_cons, List.mem_cons, List.not_mem_nil, or_false, not_or, not_false_eq_true, List.nodup_nil, and_true] at hnd
  obtain ⟨⟨n1, n2, n3, n4, n5, n6⟩, ⟨n7, n8, n9, n10, n11⟩, ⟨n12, n13, n14, n15⟩, ⟨n16, n17, n18⟩, ⟨n19, n20⟩, n21⟩ := hnd
  have A : ∀ b ∈ [a1, a2, a3, b1, b2, b3, c], (h.get b).isSome = true := hal
  refine ⟨((((((h.free c).free b1).free b2).free b3).free a1).free a2).free a3, ?_, ?_⟩
  · rw [M.bind_ok (del _ _ (A c (by simp)))]
    rw [M.bind_ok (a := ()) (h' := ((((h.free c).free b1).free b2).free b3))]
    · rw [M.bind_ok (del _ a1 ?_), M.bind_ok (del _ a2 ?_), del _ a3 ?_]
      all_goals
        simp only [Heap.get_free]
        simp [*, Ne.symm n1, Ne.symm n2, Ne.symm n7, Ne.symm n16, Ne.symm n17, Ne.symm n19]
    · rw [M.bind_ok (del _ b1 ?_), M.bind_ok (del _ b2 ?_), del _ b3 ?_]
      all_goals
        simp only [Heap.get_free]
        simp [*, Ne.symm n1, Ne.symm n2, Ne.symm n7, Ne.symm n16, Ne.symm n17, Ne.symm n19]
  · intro b
    simp only [Heap.get_free, List.mem_cons, List.not_mem_nil, or_false]
    by_cases e1 : b = a1 <;> by_cases e2 : b = a2 <;> by_cases e3 : b = a3 <;> by_cases e4 : b = b1 <;> by_cases e5 : b = b2 <;>
      by_cases e6 : b = b3 <;> by_cases e7 : b = c <;> simp [*]

/-- Destroying a finder, whatever has been done with it, succeeds and releases its seven arrays, nothing else. -/
theorem C122_destroy (ho : LabellerObj.Reachable h o) :
    ∃ h', o.destroy h = .ok () h' ∧ ∀ b, h'.get b = if b ∈ o.arrays then none else h.get b := by
  obtain ⟨TT, hi⟩ := ho.inv
  have hnd := hi.nodup
  have hal := hi.alive
  have hsub : o.border.subimage = false := hi.value.ready.owns
  unfold LabellerObj.destroy Gray.destroy TracerObj.destroy
  rw [hsub, if_neg (by simp)]
  exact release7 hnd hal

/-- The finder can be copied, but the copy has the same arrays: destroying both is undefined behaviour. -/
theorem C122_copy_refuted (ho : LabellerObj.Reachable h o) :
    (do o.destroy; o.copyConstruct.destroy : M Int Unit) h = .ub := by
  obtain ⟨h', e, hg⟩ := C122_destroy ho
  obtain ⟨TT, hi⟩ := ho.inv
  have hsub : o.border.subimage = false := hi.value.ready.owns
  rw [M.bind_ok e]
  unfold LabellerObj.copyConstruct LabellerObj.destroy Gray.destroy Gray.clone
  dsimp only
  rw [hsub, if_neg (by simp)]
  have : delArr o.border.buf h' = .ub := by
    unfold delArr
    rw [hg, if_pos (by simp [LabellerObj.arrays])]
  show (M.bind _ _) h' = _
  unfold M.bind
  rw [this]

theorem LabellerObj.Session.reachable {h0 : Heap Int} {L : List (Gray × Gray)} (hs : LabellerObj.Session h0 h o L) : LabellerObj.Reachable h o := by
  induction hs with
  | new hr => exact .new hr
  | process _ ha hr ih => exact .process ih ha hr
  | setConnectRule r _ ih => exact .setConnectRule r ih
  | setLimits a b c _ ih => exact .setLimits a b c ih

theorem session_alive {h0 : Heap Int} {L : List (Gray × Gray)} (hs : LabellerObj.Session h0 h o L) :
    (∀ b, (h.get b).isSome = true ↔ b ∈ o.arrays ∨ callerAlive (fun b => (h0.get b).isSome = true) L b) ∧
    ∀ b ∈ o.arrays, ¬callerAlive (fun b => (h0.get b).isSome = true) L b := by
  induction hs with
  | @new rule junk h o hr =>
    obtain ⟨o1, h1, e, -, -, hn, ha, -⟩ := C122_new rule junk h0
    rw [e] at hr
    cases hr
    refine ⟨ha, ?_⟩
    intro b hb
    show ¬((h0.get b).isSome = true)
    rw [hn b hb]; simp
  | @process h h' o o' binary labeled lab f fuel L hs ha hr ih =>
    obtain ⟨ih1, ih2⟩ := ih
    obtain ⟨k1, -, k3⟩ := outside_tables (ho := hs.reachable) ha hr
    have key : ∀ b, ((h.get b).isSome = true ∧ b ∉ o.arrays ∧ b ≠ labeled.buf) ↔
        (callerAlive (fun b => (h0.get b).isSome = true) L b ∧ b ≠ labeled.buf) := by
      intro b
      rw [ih1]
      constructor
      · rintro ⟨a | a, a', a''⟩
        · exact absurd a a'
        · exact ⟨a, a''⟩
      · rintro ⟨a, a'⟩
        exact ⟨Or.inr a, fun e => ih2 b e a, a'⟩
    refine ⟨?_, ?_⟩
    · intro b
      rw [k3 b, key b]
      show _ ↔ _ ∨ ((_ ∧ _) ∨ _)
      constructor
      · rintro (a | a | a)
        exacts [Or.inl a, Or.inr (Or.inr a), Or.inr (Or.inl a)]
      · rintro (a | a | a)
        exacts [Or.inl a, Or.inr (Or.inr a), Or.inr (Or.inl a)]
    · intro b hb hc
      rcases hc with ⟨c1, c2⟩ | c
      · obtain ⟨T', hi'⟩ := (LabellerObj.Reachable.process hs.reachable ha hr).inv
        obtain ⟨T, hi⟩ := hs.reachable.inv
        obtain ⟨o1, l', lab1, h1, hv, TT', e, ev, hval, hi1, ht, hg, P, hs1, hs2⟩ := hi.process ha
        rw [hr] at e
        cases e
        have hbo : b ∉ o.arrays := fun e => ih2 b e c1
        have hT : b ∉ o'.tables := by rw [ht]; exact fun e => hbo (List.mem_append_left _ e)
        have hB : b = o'.border.buf := by
          rcases List.mem_append.1 hb with e | e
          · exact absurd e hT
          · simpa using e
        have hlive : (h.get b).isSome = true := (ih1 b).2 (Or.inr c1)
        have hPb : P b := by
          rcases hs1 with ⟨-, rfl⟩ | ⟨-, -, rfl⟩
          · exact hlive
          · exact Or.inl ⟨hlive, c2⟩
        rcases hs2 with ⟨e, -⟩ | ⟨-, e, -⟩
        · exact hbo (by rw [hB, e]; simp [LabellerObj.arrays])
        · exact e (hB ▸ hPb)
      · exact k1 (c ▸ hb)
  | setConnectRule r _ ih => exact ih
  | setLimits a b c _ ih => exact ih

/-- The whole life of a finder, of any length: when it is destroyed, the arrays alive are those of the caller: those which
were alive before the finder was made, where each label image has the array `process` gave it. -/
theorem C122_life {h0 : Heap Int} {L : List (Gray × Gray)} (hs : LabellerObj.Session h0 h o L) :
    ∃ h', o.destroy h = .ok () h' ∧ ∀ b, (h'.get b).isSome = true ↔ callerAlive (fun b => (h0.get b).isSome = true) L b := by
  obtain ⟨h', e, hg⟩ := C122_destroy hs.reachable
  obtain ⟨h1, h2⟩ := session_alive hs
  refine ⟨h', e, fun b => ?_⟩
  rw [hg b]
  by_cases hb : b ∈ o.arrays
  · rw [if_pos hb]
    simp [h2 b hb]
  · rw [if_neg hb, h1 b]
    simp [hb]

/-- With memory for all three tables the constructor is the one above. -/
theorem C122_enough (rule : ConnectRule) (junk : TracerObj) :
    TracerObj.newOom true true true rule junk = (do let t ← TracerObj.new rule junk; pure (some t)) := by
  unfold TracerObj.newOom TracerObj.new
  simp only [if_true, M.assoc, M.pure_then]

/-- When memory runs out in the constructor of a tracer, there is no object, but the tables made before stay allocated. -/
theorem C122_oom_refuted (rule : ConnectRule) (junk : TracerObj) (h : Heap Int) :
    (∃ h', TracerObj.newOom true false true rule junk h = .ok none h' ∧ h.get h.next = none ∧ (h'.get h.next).isSome = true) ∧
    ∃ h', TracerObj.newOom true true false rule junk h = .ok none h' ∧ (∀ b, h.next ≤ b → h.get b = none) ∧
      (h'.get h.next).isSome = true ∧ (h'.get (h.next + 1)).isSome = true := by
  have hnone : ∀ b, h.next ≤ b → h.get b = none := by
    intro b hb
    cases hg : h.get b with
    | none => rfl
    | some l => have := Heap.lt_next_of_get hg; omega
  have key : ∀ (n : Nat) (g : Nat → Int), ∃ h1, M.loop n (fun i => wr h.next i (g i)) (h.alloc (List.replicate n 0)) = .ok () h1 ∧
      h1.next = h.next + 1 ∧ (h1.get h.next).isSome = true := by
    intro n g
    obtain ⟨h1, e1, e2, e3, e4⟩ := loop_store h.next g (List.replicate n 0) n (h.alloc (List.replicate n 0))
      (by rw [Heap.get_alloc, if_pos rfl]) (by simp)
    exact ⟨h1, e1, by rw [e2, Heap.next_alloc], by rw [e4]; rfl⟩
  have fin : ∀ (n : Nat) (h1 : Heap Int), h1.next = h.next + 1 → (h1.get h.next).isSome = true →
      ((h1.alloc (List.replicate n 0)).get h.next).isSome = true ∧ ((h1.alloc (List.replicate n 0)).get (h.next + 1)).isSome = true := by
    intro n h1 e1 e2
    rw [Heap.get_alloc, Heap.get_alloc, if_neg (by omega), if_pos e1.symm]
    exact ⟨e2, rfl⟩
  cases rule with
  | four =>
    obtain ⟨h1, e1, e2, e3⟩ := key 4 (fun i => (((i + 2) % 4 + 1) % 4 : Nat))
    refine ⟨⟨h1, ?_, hnone _ (Nat.le_refl _), e3⟩, h1.alloc (List.replicate 4 0), ?_, hnone, fin 4 h1 e2 e3⟩
    · show (newArr 4 0 >>= _) h = _
      rw [M.bind_ok (rfl : newArr 4 (0 : Int) h = .ok h.next _), M.bind_ok e1]; rfl
    · show (newArr 4 0 >>= _) h = _
      rw [M.bind_ok (rfl : newArr 4 (0 : Int) h = .ok h.next _), M.bind_ok e1]; rfl
  | eight =>
    obtain ⟨h1, e1, e2, e3⟩ := key 8 (fun i => (((i + 4) % 8 + 2) % 8 : Nat))
    refine ⟨⟨h1, ?_, hnone _ (Nat.le_refl _), e3⟩, h1.alloc (List.replicate 8 0), ?_, hnone, fin 8 h1 e2 e3⟩
    · show (newArr 8 0 >>= _) h = _
      rw [M.bind_ok (rfl : newArr 8 (0 : Int) h = .ok h.next _), M.bind_ok e1]; rfl
    · show (newArr 8 0 >>= _) h = _
      rw [M.bind_ok (rfl : newArr 8 (0 : Int) h = .ok h.next _), M.bind_ok e1]; rfl

/-! ### The hypotheses are met -/

/-- some tracer before its construction -/
def objJunk : TracerObj := ⟨0, .four, 0, none, none, 0, 0, 0, 0, 0, 0, 0, 0, 0⟩

/-- A finder which has just been made may be used on the picture of C67, with both rules. -/
theorem obj_demo (r : ConnectRule) : ∃ o h, LabellerObj.Session demoHeap0 h o [] ∧ o.rule = r ∧
    o.Accepts h demoPicture demoLabels (fun x y => (demoPixels[y * 5 + x]?).getD 0) 1000 := by
  obtain ⟨o, h, e, h1, h2, h3, h4, h5, h6, h7⟩ := C122_new r objJunk demoHeap0
  have fresh : ∀ b, b < 2 → b ∉ o.arrays := by
    intro b hb hc
    have := h3 b hc
    rcases b with _ | _ | b
    · cases this
    · cases this
    · omega
  have hg0 : h.get 0 = some demoPixels := h5 0 (fresh 0 (by omega))
  have hg1 : h.get 1 = some [7, 7] := h5 1 (fresh 1 (by omega))
  have c0 : ∀ i, h.cell 0 i = demoHeap.cell 0 i := fun i => by unfold Heap.cell; rw [hg0]; rfl
  have c1 : ∀ i, h.cell 1 i = demoHeap.cell 1 i := fun i => by unfold Heap.cell; rw [hg1]; rfl
  have d := demo_accepts r
  refine ⟨o, h, .new e, h6, ⟨?_, ?_, d.bits, d.size, ?_, d.labelShape, d.labelStride, d.apart, ⟨fresh 1 (by omega), fresh 0 (by omega)⟩, d.fuelEnough⟩⟩
  · exact d.valid.transfer (by show (h.get 0).isSome = true; rw [hg0]; rfl) (fun i hi => by
      show ∃ v, h.cell 0 i = some v; rw [c0]; exact d.valid.cells i hi)
  · intro x y hx hy
    have := d.shows x y hx hy
    unfold Heap.px at this ⊢
    exact (c0 _).trans this
  · exact d.labelValid.transfer (by show (h.get 1).isSome = true; rw [hg1]; rfl) (fun i hi => by
      show ∃ v, h.cell 1 i = some v; rw [c1]; exact d.labelValid.cells i hi)

example : ∃ o h, LabellerObj.Reachable h o ∧ ∃ f, o.Accepts h demoPicture demoLabels f 1000 := by
  obtain ⟨o, h, hs, -, ha⟩ := obj_demo .eight
  exact ⟨o, h, hs.reachable, _, ha⟩

/-- The whole life in numbers: arrays 0 and 1 are the picture and the label image; the finder makes 2 to 8, `process` makes 9
for the label image and 10 for the image of the finder; at the end there are the picture and the labels. -/
example : (do
    let o ← LabellerObj.new .eight objJunk
    let (o, _) ← o.process 1000 demoPicture demoLabels
    o.destroy : M Int Unit) demoHeap0 =
    .ok () ⟨[some demoPixels, none, none, none, none, none, none, none, none,
      some [1, 1, 1, 0, 0,  1, 0, 1, 0, 2,  1, 1, 1, 0, 0], none]⟩ := by decide +kernel

end Boof
