import Verif.Proofs.ContourSpec
/-
Holes: the regions of the background which are enclosed by black pixels.  Each hole has exactly one internal boundary.
-/
namespace Boof
variable {e : Bool} {B : Pix → Bool} {w ht : Nat}

theorem adj_of_four {r : ConnectRule} {u v : Pix} (h : Adjacent .four u v) : Adjacent r u v := by
  cases r
  · exact h
  · exact h.weaken

/-- Pixels above row `k` are linked to the corner if the set has all of them. -/
theorem rows_linked {r : ConnectRule} {N : Pix → Prop} {k : Nat} (free : ∀ x y, y < k → N (x, y)) (x y : Nat) (hy : y < k) :
    Linked r N (x, y) (0, 0) := by
  have left : Linked r N (x, y) (0, y) := by
    induction x with
    | zero => exact .refl (free _ _ hy)
    | succ x ih => exact ((Linked.refl (free _ _ hy)).step (adj_of_four (by unfold Adjacent; simp)) (free x y hy)).trans ih
  refine left.trans ?_
  clear left
  induction y with
  | zero => exact .refl (free _ _ hy)
  | succ y ih =>
    exact ((Linked.refl (free _ _ hy)).step (adj_of_four (by unfold Adjacent; simp)) (free 0 y (by omega))).trans (ih (by omega))

/-- Being outside depends on the boundary only. -/
theorem Outer.same {r : ConnectRule} {S : Pix → Prop} {p p' q q' : Pix} (ho : Outer r S p q) (hp : Linked r S p p')
    (hq : Linked r.dual (fun u => ¬S u) q q') : Outer r S p' q' := by
  unfold Outer at *
  have h1 : Linked r.dual (fun u => ¬Linked r S p u) q' q := hq.symm.mono (fun u hu hl => hu hl.right)
  exact (h1.trans ho).mono (fun u hu hl => hu (hp.trans hl))

/-- The sides of one component from outside belong to one region of the background. -/
theorem outer_same (hB : InFrame w ht B) {p q p' q' : Pix} (hs : Side (IsB B) p q) (hs' : Side (IsB B) p' q')
    (hl : Linked (rl e) (IsB B) p p') (ho : Outer (rl e) (IsB B) p q) (ho' : Outer (rl e) (IsB B) p' q') :
    Linked (rl e).dual (IsW B) q q' := by
  have key : ∀ {p q : Pix}, Side (IsB B) p q → Outer (rl e) (IsB B) p q →
      ∃ p0, IsFirst e B p0 ∧ Linked (rl e) (IsB B) p0 p ∧ Linked (rl e).dual (IsW B) (nbA p0 3) q := by
    rintro p q ⟨hp, hq, hadj⟩ ho
    obtain ⟨p1, p2, -⟩ := hB _ hp
    obtain ⟨a, ha, rfl⟩ := (adj4_iff p1 p2).1 hadj
    have hq' : B (nbA p a) = false := by simpa using hq
    obtain ⟨s, hs, hor⟩ := crack_started (e := e) hB hp ha hq'
    obtain ⟨h1, h2⟩ := starts_side hB hs
    have c1 := (conn_iff hB).1 (hor.conn (good_ax h1 (startAx_lt _)))
    have c2 := side_linked hB h1 (startAx_lt _) h2 ha hq' hor
    obtain ⟨-, ⟨e1, hf⟩ | ⟨e1, hh⟩⟩ := starts_mem.1 hs
    · rw [e1] at c2
      exact ⟨s.1, hf, c1, c2⟩
    · rw [e1] at c2
      exact absurd (ho.same c1.symm c2.symm) (hole_inner hB hh)
  obtain ⟨a, ha, hap, haq⟩ := key hs ho
  obtain ⟨b, hb, hbp, hbq⟩ := key hs' ho'
  have : a = b := ha.unique hB hb ((conn_iff hB).2 ((hap.trans hl).trans hbp.symm))
  subst this
  exact haq.symm.trans hbq

/-! ### The picture with colours exchanged -/

/-- One pixel to the right and down. -/
def sh (p : Pix) : Pix := (p.1 + 1, p.2 + 1)

/-- White pixels become black, in a picture with one more row and column on each side. -/
def negB (w ht : Nat) (B : Pix → Bool) (p : Pix) : Bool :=
  decide (1 ≤ p.1) && decide (1 ≤ p.2) && decide (p.1 ≤ w + 2) && decide (p.2 ≤ ht + 2) && !B (p.1 - 1, p.2 - 1)

theorem negB_in : InFrame (w + 2) (ht + 2) (negB w ht B) := by
  intro p hp
  simp only [negB, Bool.and_eq_true, decide_eq_true_eq] at hp
  exact ⟨hp.1.1.1.1, hp.1.1.1.2, hp.1.1.2, hp.1.2⟩

theorem negB_sh {p : Pix} (h1 : p.1 ≤ w + 1) (h2 : p.2 ≤ ht + 1) : negB w ht B (sh p) = !B p := by
  simp [negB, sh, h1, h2]

theorem dual_rl (e : Bool) : (rl e).dual = rl (!e) := by cases e <;> rfl
theorem dual_rl' (e : Bool) : (rl (!e)).dual = rl e := by cases e <;> rfl

theorem adj_sh {r : ConnectRule} {p q : Pix} : Adjacent r (sh p) (sh q) ↔ Adjacent r p q := by
  obtain ⟨x, y⟩ := p
  obtain ⟨a, b⟩ := q
  cases r
  · simp only [Adjacent, sh]; omega
  · simp only [Adjacent, sh, ne_eq, Prod.mk.injEq]; omega

theorem sh_inj {p q : Pix} (h : sh p = sh q) : p = q := by
  obtain ⟨x, y⟩ := p
  obtain ⟨a, b⟩ := q
  simp only [sh, Prod.mk.injEq] at h
  ext <;> simp <;> omega

/-- A region of the new black pixels was a region of white pixels. -/
theorem neg_black {p u : Pix} (hl : Linked (rl !e) (IsB (negB w ht B)) (sh p) u) :
    ∃ q, u = sh q ∧ Linked (rl e).dual (IsW B) p q ∧ q.1 ≤ w + 1 ∧ q.2 ≤ ht + 1 := by
  have back : ∀ u, IsB (negB w ht B) u → ∃ q, u = sh q ∧ IsW B q ∧ q.1 ≤ w + 1 ∧ q.2 ≤ ht + 1 := by
    intro u hu
    have := negB_in _ hu
    refine ⟨(u.1 - 1, u.2 - 1), ?_, ?_, ?_, ?_⟩
    · ext <;> simp [sh] <;> omega
    · simp only [IsB, negB, Bool.and_eq_true, Bool.not_eq_true'] at hu
      simp [IsW, hu.2]
    · show u.1 - 1 ≤ w + 1
      omega
    · show u.2 - 1 ≤ ht + 1
      omega
  rw [dual_rl]
  induction hl with
  | refl h =>
    obtain ⟨q, h1, h2, h3⟩ := back _ h
    rw [← sh_inj h1] at h2 h3
    exact ⟨p, rfl, .refl h2, h3⟩
  | step _ ha hs ih =>
    obtain ⟨q, rfl, h1, -⟩ := ih
    obtain ⟨q', rfl, h2, h3⟩ := back _ hs
    exact ⟨q', rfl, h1.step (adj_sh.1 ha) h2, h3⟩

/-- A component of the new white pixels which has an old black pixel is a component of black pixels. -/
theorem neg_white (hB : InFrame w ht B) {p u : Pix} (hp : B p = true) (hl : Linked (rl e) (IsW (negB w ht B)) (sh p) u) :
    ∃ q, u = sh q ∧ Linked (rl e) (IsB B) p q := by
  induction hl with
  | refl _ => exact ⟨p, rfl, .refl hp⟩
  | @step u v _ ha hs ih =>
    obtain ⟨q, rfl, h1⟩ := ih
    have hq := hB q h1.right
    have hb : (sh q).1 ≤ v.1 + 1 ∧ v.1 ≤ (sh q).1 + 1 ∧ (sh q).2 ≤ v.2 + 1 ∧ v.2 ≤ (sh q).2 + 1 := by
      have h8 : Adjacent .eight (sh q) v := by
        cases e
        · exact Adjacent.weaken ha
        · exact ha
      exact h8.2
    simp only [sh] at hb
    have ev : v = sh (v.1 - 1, v.2 - 1) := by ext <;> simp [sh] <;> omega
    refine ⟨(v.1 - 1, v.2 - 1), ev, h1.step ?_ ?_⟩
    · rw [ev] at ha
      exact adj_sh.1 ha
    · rw [ev] at hs
      unfold IsW at hs
      rw [negB_sh (by simp; omega) (by simp; omega)] at hs
      simpa using hs

/-! ### Holes -/

/-- White pixels which are not linked to the corner. -/
def InHole (e : Bool) (B : Pix → Bool) (q : Pix) : Prop := IsW B q ∧ ¬Linked (rl e).dual (IsW B) q (0, 0)

theorem InHole.linked {q q' : Pix} (h : InHole e B q) (hl : Linked (rl e).dual (IsW B) q q') : InHole e B q' :=
  ⟨hl.right, fun h0 => h.2 (hl.trans h0)⟩

theorem InHole.box (hB : InFrame w ht B) {q : Pix} (h : InHole e B q) : 1 ≤ q.1 ∧ q.1 ≤ w ∧ 1 ≤ q.2 ∧ q.2 ≤ ht := by
  have white : ∀ x y, (x = 0 ∨ w < x ∨ y = 0 ∨ ht < y) → IsW B (x, y) := by
    intro x y hxy hb
    have := hB _ hb
    simp only at this
    omega
  have left : ∀ x y, (y = 0 ∨ ht < y) → Linked (rl e).dual (IsW B) (x, y) (0, y) := by
    intro x y hy
    induction x with
    | zero => exact .refl (white _ _ (by omega))
    | succ x ih =>
      exact ((Linked.refl (white _ _ (by omega))).step (adj_of_four (by unfold Adjacent; simp)) (white x y (by omega))).trans ih
  have up : ∀ x y, (x = 0 ∨ w < x) → Linked (rl e).dual (IsW B) (x, y) (x, 0) := by
    intro x y hx
    induction y with
    | zero => exact .refl (white _ _ (by omega))
    | succ y ih =>
      exact ((Linked.refl (white _ _ (by omega))).step (adj_of_four (by unfold Adjacent; simp)) (white x y (by omega))).trans ih
  obtain ⟨x, y⟩ := q
  refine Classical.byContradiction fun hn => h.2 ?_
  by_cases hx : x = 0 ∨ w < x
  · exact (up x y hx).trans (left x 0 (by omega))
  · have : y = 0 ∨ ht < y := by
      simp only at hn
      omega
    exact (left x y this).trans (up 0 y (by omega))

/-- A hole is a component of the picture with colours exchanged. -/
theorem InHole.neg (hB : InFrame w ht B) {q q' : Pix} (h : InHole e B q) (hl : Linked (rl e).dual (IsW B) q q') :
    Linked (rl !e) (IsB (negB w ht B)) (sh q) (sh q') := by
  have bl : ∀ u, InHole e B u → IsB (negB w ht B) (sh u) := by
    intro u hu
    have := hu.box hB
    have hw := hu.1
    unfold IsB
    rw [negB_sh (by omega) (by omega)]
    simpa using hw
  induction hl with
  | refl _ => exact .refl (bl _ h)
  | @step u v hl ha hs ih =>
    refine ih.step ?_ (bl _ (h.linked (hl.step ha hs)))
    rw [← dual_rl]
    exact adj_sh.2 ha

/-- The component on the other side of a boundary seen from a hole, in the picture with colours exchanged. -/
abbrev Escapes (e : Bool) (w ht : Nat) (B : Pix → Bool) (q p : Pix) : Prop :=
  Outer (rl !e) (IsB (negB w ht B)) (sh q) (sh p)

theorem side_neg (hB : InFrame w ht B) {p q : Pix} (hq : InHole e B q) (hs : Side (IsB B) p q) :
    Side (IsB (negB w ht B)) (sh q) (sh p) := by
  obtain ⟨h1, h2, h3⟩ := hs
  have b1 := hB _ h1
  have b2 := hq.box hB
  refine ⟨?_, ?_, adj_sh.2 h3.symm⟩
  · rw [IsB, negB_sh (by omega) (by omega)]; simpa using h2
  · rw [IsB, negB_sh (by omega) (by omega)]; simp [show B p = true from h1]

/-- Only one component next to a hole leads out without crossing the hole. -/
theorem escapes_same (hB : InFrame w ht B) {p q p' q' : Pix} (hh : InHole e B q) (hs : Side (IsB B) p q) (hs' : Side (IsB B) p' q')
    (hl : Linked (rl e).dual (IsW B) q q') (ho : Escapes e w ht B q p) (ho' : Escapes e w ht B q' p') :
    Linked (rl e) (IsB B) p p' := by
  have := outer_same (e := !e) negB_in (side_neg hB hh hs) (side_neg hB (hh.linked hl) hs') (hh.neg hB hl) ho ho'
  rw [dual_rl'] at this
  obtain ⟨u, h1, h2⟩ := neg_white hB hs.1 this
  rwa [← sh_inj h1] at h2

/-- A component with a boundary from inside surrounds the hole. -/
theorem inner_escapes (hB : InFrame w ht B) {p q : Pix} (hs : Side (IsB B) p q) (ho : ¬Outer (rl e) (IsB B) p q) :
    InHole e B q ∧ Escapes e w ht B q p := by
  obtain ⟨hp, hq, hadj⟩ := hs
  have hh : InHole e B q := ⟨hq, fun h0 => ho (h0.mono (fun u hu hl => hu hl.right))⟩
  refine ⟨hh, ?_⟩
  have bq := hh.neg hB (.refl hq)
  obtain ⟨p0, hp0, hpp⟩ := exists_first (e := e) hB hp
  obtain ⟨q0, hq0, hqq⟩ := exists_first (e := !e) negB_in bq.left
  have hqq' := (conn_iff negB_in).1 hqq
  obtain ⟨q1, rfl, hl, hb1, hb2⟩ := neg_black hqq'.symm
  have hpp' := (conn_iff hB).1 hpp
  by_cases hc : q1.2 ≤ p0.2
  · refine absurd ?_ ho
    have f1 : ∀ x y, y < p0.2 → ¬Linked (rl e) (IsB B) p (x, y) := by
      intro x y hy hl
      exact hp0.2 (x, y) ((conn_iff hB).2 (hpp'.trans hl)) (Or.inl hy)
    have b := (hh.linked hl).box hB
    have f2 : ¬Linked (rl e) (IsB B) p q1 := fun hl' => hl.right hl'.right
    have s1 : Linked (rl e).dual (fun u => ¬Linked (rl e) (IsB B) p u) q q1 := hl.mono (fun u hu hl => hu hl.right)
    refine (s1.step (q' := (q1.1, q1.2 - 1)) (adj_of_four ?_) (f1 _ _ (by omega))).trans (rows_linked f1 _ _ (by omega))
    refine Or.inl ⟨rfl, Or.inr ?_⟩
    show q1.2 - 1 + 1 = q1.2
    omega
  · have f1 : ∀ x y, y < q1.2 + 1 → ¬Linked (rl !e) (IsB (negB w ht B)) (sh q) (x, y) := by
      intro x y hy hl'
      exact hq0.2 (x, y) ((conn_iff negB_in).2 (hqq'.trans hl')) (Or.inl hy)
    have s1 : Linked (rl e) (fun u => ¬Linked (rl !e) (IsB (negB w ht B)) (sh q) u) (sh p) (sh p0) := by
      have go : ∀ u, Linked (rl e) (IsB B) p u → Linked (rl e) (fun u => ¬Linked (rl !e) (IsB (negB w ht B)) (sh q) u) (sh p) (sh u) := by
        intro u hu
        have no : ∀ v, IsB B v → ¬Linked (rl !e) (IsB (negB w ht B)) (sh q) (sh v) := by
          intro v hv hl'
          obtain ⟨v', h1, h2, -⟩ := neg_black hl'
          rw [← sh_inj h1] at h2
          exact h2.right hv
        induction hu with
        | refl h => exact .refl (no _ h)
        | step _ ha hs ih => exact ih.step (adj_sh.2 ha) (no _ hs)
      exact go _ hpp'.symm
    unfold Escapes Outer
    rw [dual_rl']
    exact s1.trans (rows_linked f1 _ _ (by omega))

/-- Two pixels with a corner in common have two neighbours in common. -/
theorem corners {u v : Pix} (h : Adjacent .eight u v) (hn : ¬Adjacent .four u v) :
    ∃ a, Adjacent .four u a ∧ Adjacent .four a v ∧ ∃ b, Adjacent .four u b ∧ Adjacent .four b v ∧ Adjacent .eight a b := by
  obtain ⟨x, y⟩ := u
  obtain ⟨z, t⟩ := v
  obtain ⟨h0, h1, h2, h3, h4⟩ := h
  simp only [Adjacent, Prod.mk.injEq, ne_eq] at hn h0 h1 h2 h3 h4
  refine ⟨(x, t), ?_, ?_, (z, y), ?_, ?_, ?_⟩ <;> simp only [Adjacent, Prod.mk.injEq, ne_eq, true_and] <;> omega

/-- The component which surrounds a hole does not let it out. -/
theorem escapes_inner (hB : InFrame w ht B) {p q : Pix} (hh : InHole e B q) (hs : Side (IsB B) p q) (ho : Escapes e w ht B q p) :
    ¬Outer (rl e) (IsB B) p q := by
  intro hout
  -- pixels from which one gets out without crossing the hole
  let H : Pix → Prop := Linked (rl e).dual (IsW B) q
  have hH : ∀ u, H u ↔ Linked (rl !e) (IsB (negB w ht B)) (sh q) (sh u) := by
    intro u
    refine ⟨fun h => hh.neg hB h, fun h => ?_⟩
    obtain ⟨v, h1, h2, -⟩ := neg_black h
    rwa [← sh_inj h1] at h2
  let P : Pix → Prop := fun u => Linked (rl e) (fun v => ¬Linked (rl !e) (IsB (negB w ht B)) (sh q) v) (sh u) (0, 0)
  have pH : ∀ u, P u → ¬H u := fun u hu hn => hu.left ((hH u).1 hn)
  have pStep : ∀ u v, P u → Adjacent (rl e) v u → ¬H v → P v := by
    intro u v hu ha hv
    refine ((Linked.refl ?_).step (adj_sh.2 ha) hu.left).trans hu
    rwa [← hH v]
  -- a black pixel beside the hole from which one gets out is in the component
  have inC : ∀ u v, P u → H v → Adjacent .four u v → IsB B u → Linked (rl e) (IsB B) p u := by
    intro u v hu hv ha hb
    have hesc : Escapes e w ht B v u := by
      unfold Escapes Outer
      rw [dual_rl']
      exact hu.mono (fun z hz hl => hz ((hh.neg hB hv).trans hl))
    exact escapes_same hB hh hs ⟨hb, hv.right, ha⟩ hv ho hesc
  have grow : ∀ u v, H u → Adjacent (rl e).dual u v → IsW B v → H v := fun u v hu ha hv => hu.step ha hv
  have black : ∀ u v, H u → Adjacent (rl e).dual u v → ¬H v → IsB B v := by
    intro u v hu ha hv
    refine Classical.byContradiction fun hn => hv (grow u v hu ha hn)
  have all : ∀ u, Linked (rl e).dual (fun u => ¬Linked (rl e) (IsB B) p u) (0, 0) u → P u := by
    intro u hu
    induction hu with
    | refl _ =>
      have n : ∀ v : Pix, v.1 ≤ 1 → v.2 ≤ 1 → ¬Linked (rl !e) (IsB (negB w ht B)) (sh q) v := by
        intro v h1 h2 hl
        obtain ⟨z, rfl, hz, -⟩ := neg_black hl
        have := (hh.linked hz).box hB
        simp only [sh] at h1 h2
        omega
      refine (((Linked.refl (n _ ?_ ?_)).step (q' := (0, 1)) (adj_of_four ?_) (n _ ?_ ?_)).step (q' := (0, 0)) (adj_of_four ?_) (n _ ?_ ?_)) <;>
        simp [sh, Adjacent]
    | @step u v _ ha hv ih =>
      have hu := pH u ih
      have huC : ¬Linked (rl e) (IsB B) p u := by
        rename_i hl
        exact hl.right
      by_cases h4 : Adjacent .four u v
      · -- a step across a side
        refine pStep u v ih (adj_of_four h4.symm) fun hvH => huC ?_
        exact inC u v ih hvH h4 (black v u hvH (adj_of_four h4.symm) hu)
      · -- a step across a corner
        cases e with
        | true => exact absurd ha h4
        | false =>
          have ha : Adjacent .eight u v := ha
          obtain ⟨a, a1, a2, b, b1, b2, ab⟩ := corners ha h4
          by_cases hvH : H v
          · refine absurd ?_ huC
            have ub := black v u hvH ha.symm hu
            by_cases haH : H a
            · exact inC u a ih haH a1 ub
            · have hab := black v a hvH a2.symm.weaken haH
              have hPa := pStep u a ih a1.symm haH
              exact (inC a v hPa hvH a2 hab).step a1.symm ub
          · by_cases haH : H a
            · by_cases hbH : H b
              · exact absurd (inC u a ih haH a1 (black a u haH a1.symm.weaken hu)) huC
              · exact pStep b v (pStep u b ih b1.symm hbH) b2.symm hvH
            · exact pStep a v (pStep u a ih a1.symm haH) a2.symm hvH
  exact pH q (all q hout.symm) (.refl hs.2.1)

/-- Every hole has a component which surrounds it. -/
theorem hole_side (hB : InFrame w ht B) {q : Pix} (hh : InHole e B q) :
    ∃ p q', Side (IsB B) p q' ∧ Linked (rl e).dual (IsW B) q q' ∧ ¬Outer (rl e) (IsB B) p q' := by
  have bq := hh.neg hB (.refl hh.1)
  obtain ⟨q0, hq0, hqq⟩ := exists_first (e := !e) negB_in bq.left
  have hqq' := (conn_iff negB_in).1 hqq
  obtain ⟨q1, rfl, hl, hb1, hb2⟩ := neg_black hqq'.symm
  have hq1 := hh.linked hl
  have b := hq1.box hB
  have ea : nbA (sh q1) 3 = sh (q1.1, q1.2 - 1) := by
    show ((sh q1).1, (sh q1).2 - 1) = _
    simp only [sh, Prod.mk.injEq, true_and]
    omega
  have hs : Side (IsB B) (q1.1, q1.2 - 1) q1 := by
    refine ⟨?_, hl.right, Or.inl ⟨rfl, Or.inl ?_⟩⟩
    · have := hq0.above negB_in
      rw [ea, negB_sh (by simp only; omega) (by simp only; omega)] at this
      simpa using this
    · show q1.2 - 1 + 1 = q1.2
      omega
  refine ⟨_, _, hs, hl, ?_⟩
  have := first_outer negB_in hq0
  rw [ea] at this
  exact escapes_inner hB hq1 hs this

end Boof
