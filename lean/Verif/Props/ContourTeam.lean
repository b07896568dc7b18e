import Verif.Spec.ContourTeam
import Verif.Props.ContourMemory
/-
C123: contour finders side by side.
-/
namespace Boof
open M

/-- No array of the one belongs to the other. -/
def LabellerObj.Disjoint (a b : LabellerObj) : Prop := ∀ x ∈ a.arrays, x ∉ b.arrays

theorem LabellerObj.Disjoint.symm {a b : LabellerObj} (h : a.Disjoint b) : b.Disjoint a := fun x hx hy => h x hy hx

variable {h h' : Heap Int} {o o' : LabellerObj} {binary labeled lab : Gray} {f : Nat → Nat → Int} {fuel : Nat}

/-- An array which is alive and is not the finder's nor the label image's is not touched and not taken by `process`. -/
theorem process_frame (ho : LabellerObj.Reachable h o) (ha : o.Accepts h binary labeled f fuel)
    (hr : o.process fuel binary labeled h = .ok (o', lab) h') {b : Nat} (hb : (h.get b).isSome = true) (h1 : b ∉ o.arrays)
    (h2 : b ≠ labeled.buf) : h'.get b = h.get b ∧ b ∉ o'.arrays ∧ b ≠ lab.buf := by
  obtain ⟨l, hl⟩ := Option.isSome_iff_exists.1 hb
  obtain ⟨l', hl'⟩ := Option.isSome_iff_exists.1 ((C122_no_leak ho ha hr b).2 (Or.inr (Or.inr ⟨hb, h1, h2⟩)))
  have hcell : ∀ i, h'.cell b i = h.cell b i := by
    obtain ⟨o1, lab1, k, e, -, -, -, hc, -⟩ := C122_labels ho ha
    rw [hr] at e
    cases e
    exact fun i => hc b i h1 h2 (Heap.lt_next_of_get hl)
  refine ⟨?_, ?_⟩
  · rw [hl, hl']
    congr 1
    apply List.ext_getElem?
    intro i
    have := hcell i
    unfold Heap.cell at this
    rw [hl, hl'] at this
    exact this
  · obtain ⟨TT, hi⟩ := ho.inv
    obtain ⟨o1, l1, lab1, k, hv, TT', e, ev, hval, hi', ht, hg, P, hs1, hs2⟩ := hi.process ha
    rw [hr] at e
    cases e
    have hmem : b ∉ o.tables ∧ b ≠ o.border.buf := by
      constructor
      · exact fun c => h1 (List.mem_append_left _ c)
      · rintro rfl; exact h1 (by simp [LabellerObj.arrays])
    have hP : P b := by
      rcases hs1 with ⟨-, rfl⟩ | ⟨-, -, rfl⟩
      · exact hb
      · exact Or.inl ⟨hb, h2⟩
    constructor
    · intro hc
      unfold LabellerObj.arrays at hc
      rw [ht, List.mem_append, List.mem_singleton] at hc
      rcases hc with c | c
      · exact hmem.1 c
      · rcases hs2 with ⟨e, -⟩ | ⟨-, e, -⟩
        · exact hmem.2 (c.trans e)
        · exact e (c ▸ hP)
    · rintro rfl
      rcases hs1 with ⟨e, -⟩ | ⟨-, e, -⟩
      · exact h2 e
      · exact e hb

theorem team_inv {T : List LabellerObj} (ht : ContourTeam h T) :
    (∀ o ∈ T, LabellerObj.Reachable h o) ∧ T.Pairwise LabellerObj.Disjoint := by
  have middle : ∀ {R : LabellerObj → LabellerObj → Prop}, (∀ a b, R a b → R b a) → ∀ (A B : List LabellerObj) (o : LabellerObj),
      (A ++ o :: B).Pairwise R ↔ (A ++ B).Pairwise R ∧ ∀ p ∈ A ++ B, R o p := by
    intro R hsym A B o
    have hp : (A ++ o :: B).Perm (o :: (A ++ B)) := List.perm_middle
    rw [hp.pairwise_iff (fun h => hsym _ _ h), List.pairwise_cons, and_comm]
  have hmid := @middle LabellerObj.Disjoint (fun a b h => h.symm)
  have split : ∀ {A B : List LabellerObj} {o p : LabellerObj}, p ∈ A ++ o :: B ↔ p = o ∨ p ∈ A ++ B := by
    intro A B o p; simp only [List.mem_append, List.mem_cons]; tauto
  induction ht with
  | start h => exact ⟨fun o ho => absurd ho List.not_mem_nil, .nil⟩
  | @make h h' T rule junk o _ hr ih =>
    obtain ⟨o1, k, e, -, -, hfresh, -, hold, -⟩ := C122_new rule junk h
    rw [hr] at e
    cases e
    have hne : ∀ p ∈ T, ∀ b ∈ p.arrays, b ∉ o.arrays := by
      intro p hp b hb hc
      have := (C122_owns (ih.1 p hp)).2 b hb
      rw [hfresh b hc] at this; cases this
    refine ⟨?_, List.pairwise_cons.2 ⟨fun p hp x hx hy => hne p hp x hy hx, ih.2⟩⟩
    intro p hp
    rcases List.mem_cons.1 hp with rfl | hp
    · exact .new hr
    · exact .elsewhere (ih.1 p hp) (fun b hb => hold b (hne p hp b hb))
  | @process h h' A B o o' binary labeled lab f fuel _ ha hlab hr ih =>
    obtain ⟨i1, i2⟩ := ih
    rw [hmid] at i2
    have ho := i1 o (split.2 (Or.inl rfl))
    have fr : ∀ p ∈ A ++ B, ∀ b ∈ p.arrays, h'.get b = h.get b ∧ b ∉ o'.arrays ∧ b ≠ lab.buf := by
      intro p hp b hb
      refine process_frame ho ha hr ((C122_owns (i1 p (split.2 (Or.inr hp)))).2 b hb) (fun c => i2.2 p hp b c hb) ?_
      rintro rfl
      exact hlab p hp hb
    refine ⟨?_, (hmid ..).2 ⟨i2.1, fun p hp x hx hy => (fr p hp x hy).2.1 hx⟩⟩
    intro p hp
    rcases split.1 hp with rfl | hp
    · exact .process ho ha hr
    · exact .elsewhere (i1 p (split.2 (Or.inr hp))) (fun b hb => (fr p hp b hb).1)
  | @refused h h' A B o binary labeled fuel _ hc hr ih =>
    rw [obj_refused fuel hc] at hr
    cases hr
    exact ih
  | @setConnectRule h A B o rule _ ih =>
    obtain ⟨i1, i2⟩ := ih
    rw [hmid] at i2
    refine ⟨?_, (hmid ..).2 ⟨i2.1, fun p hp x hx hy => i2.2 p hp x hx hy⟩⟩
    intro p hp
    rcases split.1 hp with rfl | hp
    · exact .setConnectRule rule (i1 o (split.2 (Or.inl rfl)))
    · exact i1 p (split.2 (Or.inr hp))
  | @setLimits h A B o a b c _ ih =>
    obtain ⟨i1, i2⟩ := ih
    rw [hmid] at i2
    refine ⟨?_, (hmid ..).2 ⟨i2.1, fun p hp x hx hy => i2.2 p hp x hx hy⟩⟩
    intro p hp
    rcases split.1 hp with rfl | hp
    · exact .setLimits a b c (i1 o (split.2 (Or.inl rfl)))
    · exact i1 p (split.2 (Or.inr hp))
  | @destroy h h' A B o _ hr ih =>
    obtain ⟨i1, i2⟩ := ih
    rw [hmid] at i2
    obtain ⟨k, e, hg⟩ := C122_destroy (i1 o (split.2 (Or.inl rfl)))
    rw [hr] at e
    cases e
    refine ⟨fun p hp => .elsewhere (i1 p (split.2 (Or.inr hp))) ?_, i2.1⟩
    intro b hb
    rw [hg b, if_neg (fun c => i2.2 p hp b c hb)]
  | elsewhere _ hk ih => exact ⟨fun p hp => .elsewhere (ih.1 p hp) (hk p hp), ih.2⟩

/-- Each finder of a program is as if it were the only one: its state is one of C122, where the other finders are "the rest of
the program" - so all of C122 holds of it - and its arrays are alive and its own. -/
theorem C123_each {T : List LabellerObj} (ht : ContourTeam h T) :
    (∀ o ∈ T, LabellerObj.Reachable h o ∧ o.arrays.Nodup ∧ ∀ b ∈ o.arrays, (h.get b).isSome = true) ∧
    T.Pairwise (fun a b => ∀ x ∈ a.arrays, x ∉ b.arrays) :=
  ⟨fun o ho => ⟨(team_inv ht).1 o ho, C122_owns ((team_inv ht).1 o ho)⟩, (team_inv ht).2⟩

/-- Using one finder does not touch the arrays of the others, nor take them. -/
theorem C123_others {A B : List LabellerObj} (ht : ContourTeam h (A ++ o :: B)) (ha : o.Accepts h binary labeled f fuel)
    (hlab : ∀ p ∈ A ++ B, labeled.buf ∉ p.arrays) (hr : o.process fuel binary labeled h = .ok (o', lab) h') :
    ∀ p ∈ A ++ B, ∀ b ∈ p.arrays, h'.get b = h.get b ∧ b ∉ o'.arrays ∧ b ≠ lab.buf := by
  intro p hp b hb
  have hpm : p ∈ A ++ o :: B := by
    rcases List.mem_append.1 hp with c | c
    · exact List.mem_append_left _ c
    · exact List.mem_append_right _ (List.mem_cons_of_mem _ c)
  obtain ⟨i1, i2⟩ := team_inv ht
  have hd : o.Disjoint p := by
    rw [List.perm_middle.pairwise_iff (fun h => LabellerObj.Disjoint.symm h), List.pairwise_cons] at i2
    exact i2.1 p hp
  refine process_frame (i1 o (by simp)) ha hr ((C122_owns (i1 p hpm)).2 b hb) (fun c => hd b c hb) ?_
  rintro rfl
  exact hlab p hp hb

/-- What a finder returns depends on the picture and on its own settings: not on the other finders of the program, on what
they did, or on when.  Here two programs, which may be the same one at two times or with two of its finders. -/
theorem C123_results {h1 h1' h2 h2' : Heap Int} {T1 T2 : List LabellerObj} {p1 p1' p2 p2' : LabellerObj} {b1 l1 l1' b2 l2 l2' : Gray}
    {fuel1 fuel2 : Nat} (t1 : ContourTeam h1 T1) (t2 : ContourTeam h2 T2) (m1 : p1 ∈ T1) (m2 : p2 ∈ T2)
    (a1 : p1.Accepts h1 b1 l1 f fuel1) (r1 : p1.process fuel1 b1 l1 h1 = .ok (p1', l1') h1')
    (a2 : p2.Accepts h2 b2 l2 f fuel2) (r2 : p2.process fuel2 b2 l2 h2 = .ok (p2', l2') h2')
    (hw : b2.width = b1.width) (hh : b2.height = b1.height) (hrule : p2.rule = p1.rule) (hlim : p2.limits = p1.limits) :
    (∀ x y, x < b1.width → y < b1.height → h1'.px l1' x y = h2'.px l2' x y) ∧ p1'.contours = p2'.contours ∧
      ∃ sets, Observes p1'.packedPoints sets ∧ Observes p2'.packedPoints sets := by
  have ho1 := (team_inv t1).1 p1 m1
  have ho2 := (team_inv t2).1 p2 m2
  obtain ⟨v1, w1, x1, y1, z1, c1, q1, u1, lab1, k1, hv1, e1, ev1, ec1, ep1, et1, hg1⟩ := C122_refines ho1 a1
  obtain ⟨v2, w2, x2, y2, z2, c2, q2, u2, lab2, k2, hv2, e2, ev2, ec2, ep2, et2, hg2⟩ := C122_refines ho2 a2
  rw [r1] at e1
  rw [r2] at e2
  cases e1
  cases e2
  have n1 := (outside_tables (ho := ho1) a1 r1).2.1
  have n2 := (outside_tables (ho := ho2) a2 r2).2.1
  obtain ⟨s1, s2, s3⟩ := C65_history_does_not_matter w1 c1 ev1 w2 c2 ev2 hw hh (by rw [x1, x2, hrule]) (by rw [y1, y2, hlim])
  refine ⟨fun x y hx hy => ?_, ?_, ?_⟩
  · rw [px_eq (hg1 _ n1), px_eq (hg2 _ n2)]
    exact s1 x y hx hy
  · rw [ec1, ec2]; exact s2
  · rw [ep1, ep2]; exact s3

/-- Any finder can be destroyed at any time: its arrays are released and nothing else. -/
theorem C123_destroy {A B : List LabellerObj} (ht : ContourTeam h (A ++ o :: B)) :
    ∃ h', o.destroy h = .ok () h' ∧ (∀ b, h'.get b = if b ∈ o.arrays then none else h.get b) ∧ ContourTeam h' (A ++ B) := by
  obtain ⟨h', e, hg⟩ := C122_destroy ((team_inv ht).1 o (by simp))
  exact ⟨h', e, hg, ht.destroy e⟩

/-- All finders can be destroyed, in any order: what they have is released, each array once, and nothing else. -/
theorem C123_destroy_all {T S : List LabellerObj} (ht : ContourTeam h T) (hp : S.Perm T) :
    ∃ h', LabellerObj.destroyAll S h = .ok () h' ∧
      (∀ b, (∃ o ∈ T, b ∈ o.arrays) → h'.get b = none) ∧ ∀ b, (∀ o ∈ T, b ∉ o.arrays) → h'.get b = h.get b := by
  induction S generalizing h T with
  | nil =>
    have : T = [] := List.nil_perm.1 hp
    subst this
    exact ⟨h, rfl, fun b ⟨o, ho, _⟩ => absurd ho List.not_mem_nil, fun b _ => rfl⟩
  | cons o S ih =>
    obtain ⟨A, B, rfl⟩ := List.append_of_mem (hp.subset (List.mem_cons_self ..))
    obtain ⟨h1, e1, g1, t1⟩ := C123_destroy ht
    have hp' : S.Perm (A ++ B) := (List.perm_cons o).1 (hp.trans List.perm_middle)
    obtain ⟨h2, e2, g2, g3⟩ := ih t1 hp'
    have split : ∀ {p : LabellerObj}, p ∈ A ++ o :: B ↔ p = o ∨ p ∈ A ++ B := by
      intro p; simp only [List.mem_append, List.mem_cons]; tauto
    refine ⟨h2, ?_, ?_, ?_⟩
    · show (o.destroy >>= fun _ => LabellerObj.destroyAll S) h = _
      rw [M.bind_ok e1]; exact e2
    · rintro b ⟨p, hp1, hb⟩
      by_cases hx : ∃ q ∈ A ++ B, b ∈ q.arrays
      · exact g2 b hx
      · rw [g3 b (fun q hq hc => hx ⟨q, hq, hc⟩)]
        rcases split.1 hp1 with rfl | c
        · rw [g1 b, if_pos hb]
        · exact absurd ⟨p, c, hb⟩ hx
    · intro b hb
      rw [g3 b (fun q hq => hb q (split.2 (Or.inr hq))), g1 b, if_neg (hb o (split.2 (Or.inl rfl)))]

/-! ### The hypotheses are met -/

/-- A program with two finders of different rules, the older of which may be used on the picture of C67. -/
theorem team_demo : ∃ o p h, ContourTeam h [o, p] ∧ o.rule = .four ∧ p.rule = .eight ∧
    p.Accepts h demoPicture demoLabels (fun x y => (demoPixels[y * 5 + x]?).getD 0) 1000 ∧
    o.Accepts h demoPicture demoLabels (fun x y => (demoPixels[y * 5 + x]?).getD 0) 1000 ∧
    demoLabels.buf ∉ o.arrays ∧ demoLabels.buf ∉ p.arrays := by
  obtain ⟨p, h, e, h1, h2, h3, h4, h5, h6, h7⟩ := C122_new .eight objJunk demoHeap0
  obtain ⟨o, k, e', k1, k2, k3, k4, k5, k6, k7⟩ := C122_new .four objJunk h
  have freshp : ∀ b, b < 2 → b ∉ p.arrays := by
    intro b hb hc
    have := h3 b hc
    rcases b with _ | _ | b
    · cases this
    · cases this
    · omega
  have g0 : h.get 0 = some demoPixels := h5 0 (freshp 0 (by omega))
  have g1 : h.get 1 = some [7, 7] := h5 1 (freshp 1 (by omega))
  have fresho : ∀ b, b < 2 → b ∉ o.arrays := by
    intro b hb hc
    have := k3 b hc
    rcases b with _ | _ | b
    · rw [g0] at this; cases this
    · rw [g1] at this; cases this
    · omega
  have hg0 : k.get 0 = some demoPixels := (k5 0 (fresho 0 (by omega))).trans g0
  have hg1 : k.get 1 = some [7, 7] := (k5 1 (fresho 1 (by omega))).trans g1
  have c0 : ∀ i, k.cell 0 i = demoHeap.cell 0 i := fun i => by unfold Heap.cell; rw [hg0]; rfl
  have c1 : ∀ i, k.cell 1 i = demoHeap.cell 1 i := fun i => by unfold Heap.cell; rw [hg1]; rfl
  have d := demo_accepts .eight
  have acc : ∀ q : LabellerObj, (∀ b, b < 2 → b ∉ q.arrays) →
      q.Accepts k demoPicture demoLabels (fun x y => (demoPixels[y * 5 + x]?).getD 0) 1000 := by
    intro q hq
    refine ⟨?_, ?_, d.bits, d.size, ?_, d.labelShape, d.labelStride, d.apart, ⟨hq 1 (by omega), hq 0 (by omega)⟩, d.fuelEnough⟩
    · exact d.valid.transfer (by show (k.get 0).isSome = true; rw [hg0]; rfl) (fun i hi => by
        show ∃ v, k.cell 0 i = some v; rw [c0]; exact d.valid.cells i hi)
    · intro x y hx hy
      have := d.shows x y hx hy
      unfold Heap.px at this ⊢
      exact (c0 _).trans this
    · exact d.labelValid.transfer (by show (k.get 1).isSome = true; rw [hg1]; rfl) (fun i hi => by
        show ∃ v, k.cell 1 i = some v; rw [c1]; exact d.labelValid.cells i hi)
  exact ⟨o, p, k, .make (.make (.start _) e) e', k6, h6, acc p freshp, acc o fresho, fresho 1 (by omega), freshp 1 (by omega)⟩

/-- Two finders at work on the same picture, alternately and with the same label image; the first is destroyed before the
second is used again.  In the end there are the picture and the labels (those of rule eight). -/
example : (do
    let p ← LabellerObj.new .eight objJunk
    let o ← LabellerObj.new .four objJunk
    let (p, lab) ← p.process 1000 demoPicture demoLabels
    let (o, lab) ← o.process 1000 demoPicture lab
    o.destroy
    let (p, _) ← p.process 1000 demoPicture lab
    LabellerObj.destroyAll [p] : M Int Unit) demoHeap0 =
    .ok () ⟨[some demoPixels, none, none, none, none, none, none, none, none, none, none, none, none, none, none, none,
      some [1, 1, 1, 0, 0,  1, 0, 1, 0, 2,  1, 1, 1, 0, 0], none, none]⟩ := by decide +kernel

end Boof
