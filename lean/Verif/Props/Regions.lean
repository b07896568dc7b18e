import Verif.Props.Holes
/-
C96: how the regions of related pictures are related.
-/
namespace Boof

/-! ### Paths under maps -/

theorem Linked.map {r r' : ConnectRule} {S T : Nat × Nat → Prop} (φ : Nat × Nat → Nat × Nat) (hS : ∀ u, S u → T (φ u))
    (hA : ∀ u v, Adjacent r u v → φ u = φ v ∨ Adjacent r' (φ u) (φ v)) {p q : Nat × Nat} (hl : Linked r S p q) :
    Linked r' T (φ p) (φ q) := by
  induction hl with
  | refl h => exact .refl (hS _ h)
  | @step u v _ ha hs ih =>
    rcases hA u v ha with h | h
    · rw [← h]; exact ih
    · exact ih.step h (hS _ hs)

theorem adj_eight {r : ConnectRule} {u v : Nat × Nat} (h : Adjacent r u v) : Adjacent .eight u v := by
  cases r
  · exact h.weaken
  · exact h

/-- Fewer regions if the first set is larger or has more neighbours, as long as every region of it meets the second set. -/
theorem regions_le {r r' : ConnectRule} {S S' : Nat × Nat → Prop} {L L' : List (Nat × Nat)} (h : OnePerRegion r S L)
    (h' : OnePerRegion r' S' L') (hin : ∀ p, S p → S' p) (hlk : ∀ p q, S p → S q → Linked r' S' p q → Linked r S p q) :
    L.length ≤ L'.length := by
  have hex : ∀ p : {p // p ∈ L}, ∃ q, q ∈ L' ∧ Linked r' S' q p.1 := fun p => h'.all p.1 (hin _ (h.inside _ p.2))
  choose g hg using hex
  have hnd : (L.attach.map g).Nodup := by
    unfold List.Nodup
    rw [List.pairwise_map]
    have hw : L.attach.Pairwise (fun p q => ¬Linked r S p.1 q.1) := by
      have hm : L.attach.map Subtype.val = L := List.attach_map_subtype_val L
      have := h.once
      rw [← hm, List.pairwise_map] at this
      exact this
    refine hw.imp ?_
    intro p q hn he
    refine hn (hlk _ _ (h.inside _ p.2) (h.inside _ q.2) ((hg p).2.symm.trans ?_))
    rw [he]
    exact (hg q).2
  have hsub : L.attach.map g ⊆ L' := by
    intro q hq
    obtain ⟨p, -, rfl⟩ := List.mem_map.1 hq
    exact (hg p).1
  have := (hnd.subperm hsub).length_le
  simpa using this

/-- Pictures whose pixels correspond have corresponding regions. -/
theorem regions_map {r r' : ConnectRule} {S S' : Nat × Nat → Prop} {L : List (Nat × Nat)} (φ ψ : Nat × Nat → Nat × Nat)
    (h : OnePerRegion r S L) (hφ : ∀ p, S p → S' (φ p)) (hψ : ∀ p, S' p → S (ψ p))
    (hψφ : ∀ p, S p → ψ (φ p) = p) (hφψ : ∀ p, S' p → φ (ψ p) = p)
    (hA : ∀ u v, Adjacent r u v → φ u = φ v ∨ Adjacent r' (φ u) (φ v))
    (hA' : ∀ u v, Adjacent r' u v → ψ u = ψ v ∨ Adjacent r (ψ u) (ψ v)) : OnePerRegion r' S' (L.map φ) := by
  refine ⟨?_, ?_, ?_⟩
  · intro p hp
    obtain ⟨q, hq, rfl⟩ := List.mem_map.1 hp
    exact hφ q (h.inside q hq)
  · rw [List.pairwise_map]
    refine (List.Pairwise.and_mem.1 h.once).imp ?_
    rintro p q ⟨hp, hq, hn⟩ hl
    have := hl.map ψ hψ hA'
    rw [hψφ p (h.inside p hp), hψφ q (h.inside q hq)] at this
    exact hn this
  · intro q hq
    obtain ⟨p, hp, hl⟩ := h.all (ψ q) (hψ q hq)
    refine ⟨φ p, List.mem_map.2 ⟨p, hp, rfl⟩, ?_⟩
    have := hl.map φ hφ hA
    rwa [hφψ q hq] at this

/-! ### Two runs -/

section
variable {h1 h1' h2 h2' : Heap Int} {l1 l1' l2 l2' : Labeller} {b1 o1 o1' b2 o2 o2' : Gray} {f1 f2 : Nat → Nat → Int} {fuel1 fuel2 : Nat}

/-- Equal labels mean linked pixels. -/
theorem label_linked {h h' : Heap Int} {l l' : Labeller} {binary labeled lab : Gray} {f : Nat → Nat → Int} {fuel : Nat}
    (hl : Labeller.Reachable h l) (ha : l.Accepts h binary labeled f fuel)
    (hr : l.process fuel binary labeled h = .ok (l', lab) h') {x y x' y' : Nat} (hx : x < binary.width) (hy : y < binary.height)
    (hx' : x' < binary.width) (hy' : y' < binary.height) (hf : f x y = 1) (hf' : f x' y' = 1) :
    h'.px lab x y = h'.px lab x' y' ↔ Linked l.rule (Black binary.width binary.height f) (x + 1, y + 1) (x' + 1, y' + 1) := by
  obtain ⟨g, hg, hlab⟩ := C62_labels hl ha hr
  have hdone := label_done hl ha hr
  rw [hg x y (by rw [hdone.width]; exact hx) (by rw [hdone.height]; exact hy),
    hg x' y' (by rw [hdone.width]; exact hx') (by rw [hdone.height]; exact hy'), Option.some.injEq,
    hlab.component x y x' y' hx hy hx' hy' hf hf']

/-- The components of a picture under the rule of four neighbours are parts of those under the rule of eight: pixels with
equal labels have equal labels, there are at least as many contours, and at most as many internal sets. -/
theorem C96_four_refines_eight
    (hl1 : Labeller.Reachable h1 l1) (ha1 : l1.Accepts h1 b1 o1 f1 fuel1) (hr1 : l1.process fuel1 b1 o1 h1 = .ok (l1', o1') h1')
    (hl2 : Labeller.Reachable h2 l2) (ha2 : l2.Accepts h2 b2 o2 f2 fuel2) (hr2 : l2.process fuel2 b2 o2 h2 = .ok (l2', o2') h2')
    (hw : b1.width = b2.width) (hh : b1.height = b2.height) (hf : ∀ x y, x < b1.width → y < b1.height → f1 x y = f2 x y)
    (h4 : l1.rule = .four) (h8 : l2.rule = .eight) :
    (∀ x y x' y', x < b1.width → y < b1.height → x' < b1.width → y' < b1.height → f1 x y = 1 → f1 x' y' = 1 →
      h1'.px o1' x y = h1'.px o1' x' y' → h2'.px o2' x y = h2'.px o2' x' y') ∧
    l2'.contours.length ≤ l1'.contours.length ∧
    l1'.packedPoints.numberOfSets - l1'.contours.length ≤ l2'.packedPoints.numberOfSets - l2'.contours.length := by
  have hS : Black b2.width b2.height f2 = Black b1.width b1.height f1 := by
    funext p
    rw [← hw, ← hh]
    refine propext ⟨?_, ?_⟩
    · rintro ⟨x, y, hx, hy, e, rfl⟩
      exact ⟨x, y, hx, hy, by rw [hf x y hx hy]; exact e, rfl⟩
    · rintro ⟨x, y, hx, hy, e, rfl⟩
      exact ⟨x, y, hx, hy, by rw [← hf x y hx hy]; exact e, rfl⟩
  have hmono : ∀ {S : Nat × Nat → Prop} {p q}, Linked .four S p q → Linked .eight S p q :=
    fun hl => hl.map id (fun _ h => h) (fun _ _ h => Or.inr h.weaken)
  obtain ⟨⟨C1, hC1⟩, ⟨H1, hH1⟩, k1⟩ := C95_sets_count_components_and_holes hl1 ha1 hr1
  obtain ⟨⟨C2, hC2⟩, ⟨H2, hH2⟩, k2⟩ := C95_sets_count_components_and_holes hl2 ha2 hr2
  obtain ⟨n1, m1⟩ := k1 _ _ hC1 hH1
  obtain ⟨n2, m2⟩ := k2 _ _ hC2 hH2
  rw [hS] at hC2 hH2
  rw [h4] at hC1 hH1
  rw [h8] at hC2 hH2
  refine ⟨?_, ?_, ?_⟩
  · intro x y x' y' hx hy hx' hy' e e' heq
    rw [label_linked hl1 ha1 hr1 hx hy hx' hy' e e', h4] at heq
    rw [label_linked hl2 ha2 hr2 (by omega) (by omega) (by omega) (by omega) (by rw [← hf x y hx hy]; exact e)
      (by rw [← hf x' y' hx' hy']; exact e'), h8, hS]
    exact hmono heq
  · rw [n1, n2]
    exact regions_le hC2 hC1 (fun _ h => h) (fun _ _ _ _ h => hmono h)
  · have : H1.length ≤ H2.length := by
      refine regions_le hH1 hH2 ?_ ?_
      · intro p hp
        exact ⟨hp.1, fun hl => hp.2 (hmono hl)⟩
      · intro p q hp _ hl
        exact hp.linked (hmono (hl.mono (fun _ h => h.1)))
    omega

/-- Making more pixels black only merges components: pixels with equal labels still have equal labels. -/
theorem C96_more_black_merges
    (hl1 : Labeller.Reachable h1 l1) (ha1 : l1.Accepts h1 b1 o1 f1 fuel1) (hr1 : l1.process fuel1 b1 o1 h1 = .ok (l1', o1') h1')
    (hl2 : Labeller.Reachable h2 l2) (ha2 : l2.Accepts h2 b2 o2 f2 fuel2) (hr2 : l2.process fuel2 b2 o2 h2 = .ok (l2', o2') h2')
    (hw : b1.width = b2.width) (hh : b1.height = b2.height)
    (hf : ∀ x y, x < b1.width → y < b1.height → f1 x y = 1 → f2 x y = 1) (hrule : l1.rule = l2.rule) :
    ∀ x y x' y', x < b1.width → y < b1.height → x' < b1.width → y' < b1.height → f1 x y = 1 → f1 x' y' = 1 →
      h1'.px o1' x y = h1'.px o1' x' y' → h2'.px o2' x y = h2'.px o2' x' y' := by
  intro x y x' y' hx hy hx' hy' e e' heq
  rw [label_linked hl1 ha1 hr1 hx hy hx' hy' e e', hrule] at heq
  rw [label_linked hl2 ha2 hr2 (by omega) (by omega) (by omega) (by omega) (hf x y hx hy e) (hf x' y' hx' hy' e')]
  refine heq.mono ?_
  rintro p ⟨x, y, hx, hy, e, rfl⟩
  exact ⟨x, y, by omega, by omega, hf x y hx hy e, rfl⟩

/-! ### Moving and turning pictures -/

theorem hole_box {r : ConnectRule} {w ht : Nat} {f : Nat → Nat → Int} {q : Nat × Nat} (hq : Hole r (Black w ht f) q) :
    1 ≤ q.1 ∧ q.1 ≤ w ∧ 1 ≤ q.2 ∧ q.2 ≤ ht := by
  have hB := framed_in w ht f
  rw [black_eq, ruleOf_decide r] at hq
  exact InHole.box hB hq

/-- A correspondence between two pictures: it matches black pixels, keeps neighbours together and does not move the outside
inside. -/
structure Corresponds (S S' : Nat × Nat → Prop) (φ ψ : Nat × Nat → Nat × Nat) : Prop where
  black : ∀ p, S p ↔ S' (φ p)
  back : ∀ p, S p → ψ (φ p) = p
  near : ∀ r u v, Adjacent r u v → φ u = φ v ∨ Adjacent r (φ u) (φ v)
  corner : ∀ r, Linked r (fun u => ¬S' u) (φ (0, 0)) (0, 0)

theorem holes_map {r : ConnectRule} {S S' : Nat × Nat → Prop} {φ ψ : Nat × Nat → Nat × Nat} (h : Corresponds S S' φ ψ)
    (h' : Corresponds S' S ψ φ) (hH : ∀ q, Hole r S q → ψ (φ q) = q) (q : Nat × Nat) (hq : Hole r S q) : Hole r S' (φ q) := by
  refine ⟨fun hb => hq.1 ((h.black q).2 hb), fun hl => hq.2 ?_⟩
  have := hl.map ψ (T := fun u => ¬S u) (fun u hu hb => hu ((h'.black u).2 hb)) (h'.near r.dual)
  rw [hH q hq] at this
  exact this.trans (h'.corner r.dual)

theorem same_numbers {φ ψ : Nat × Nat → Nat × Nat}
    (hl1 : Labeller.Reachable h1 l1) (ha1 : l1.Accepts h1 b1 o1 f1 fuel1) (hr1 : l1.process fuel1 b1 o1 h1 = .ok (l1', o1') h1')
    (hl2 : Labeller.Reachable h2 l2) (ha2 : l2.Accepts h2 b2 o2 f2 fuel2) (hr2 : l2.process fuel2 b2 o2 h2 = .ok (l2', o2') h2')
    (hrule : l1.rule = l2.rule)
    (hc : Corresponds (Black b1.width b1.height f1) (Black b2.width b2.height f2) φ ψ)
    (hc' : Corresponds (Black b2.width b2.height f2) (Black b1.width b1.height f1) ψ φ)
    (hH : ∀ q, Hole l1.rule (Black b1.width b1.height f1) q → ψ (φ q) = q)
    (hH' : ∀ q, Hole l1.rule (Black b2.width b2.height f2) q → φ (ψ q) = q) :
    l1'.contours.length = l2'.contours.length ∧ l1'.packedPoints.numberOfSets = l2'.packedPoints.numberOfSets := by
  obtain ⟨⟨C1, hC1⟩, ⟨H1, hH1⟩, k1⟩ := C95_sets_count_components_and_holes hl1 ha1 hr1
  obtain ⟨-, -, k2⟩ := C95_sets_count_components_and_holes hl2 ha2 hr2
  obtain ⟨n1, m1⟩ := k1 _ _ hC1 hH1
  rw [← hrule] at k2
  obtain ⟨n2, m2⟩ := k2 (C1.map φ) (H1.map φ)
    (regions_map φ ψ hC1 (fun p => (hc.black p).1) (fun p => (hc'.black p).1) hc.back hc'.back (hc.near _) (hc'.near _))
    (regions_map φ ψ hH1 (holes_map hc hc' hH) (holes_map hc' hc hH') hH hH' (hc.near _) (hc'.near _))
  rw [List.length_map] at n2 m2
  rw [List.length_map] at m2
  exact ⟨by omega, by omega⟩

theorem same_labels {φ ψ : Nat × Nat → Nat × Nat}
    (hl1 : Labeller.Reachable h1 l1) (ha1 : l1.Accepts h1 b1 o1 f1 fuel1) (hr1 : l1.process fuel1 b1 o1 h1 = .ok (l1', o1') h1')
    (hl2 : Labeller.Reachable h2 l2) (ha2 : l2.Accepts h2 b2 o2 f2 fuel2) (hr2 : l2.process fuel2 b2 o2 h2 = .ok (l2', o2') h2')
    (hrule : l1.rule = l2.rule)
    (hc : Corresponds (Black b1.width b1.height f1) (Black b2.width b2.height f2) φ ψ)
    (hc' : Corresponds (Black b2.width b2.height f2) (Black b1.width b1.height f1) ψ φ)
    {x y x' y' X Y X' Y' : Nat} (hx : x < b1.width) (hy : y < b1.height) (hx' : x' < b1.width) (hy' : y' < b1.height)
    (e : f1 x y = 1) (e' : f1 x' y' = 1) (hφ : φ (x + 1, y + 1) = (X + 1, Y + 1)) (hφ' : φ (x' + 1, y' + 1) = (X' + 1, Y' + 1)) :
    h1'.px o1' x y = h1'.px o1' x' y' ↔ h2'.px o2' X Y = h2'.px o2' X' Y' := by
  have get : ∀ {x y X Y : Nat}, x < b1.width → y < b1.height → f1 x y = 1 → φ (x + 1, y + 1) = (X + 1, Y + 1) →
      X < b2.width ∧ Y < b2.height ∧ f2 X Y = 1 := by
    intro x y X Y hx hy e hφ
    have := (hc.black (x + 1, y + 1)).1 ⟨x, y, hx, hy, e, rfl⟩
    rw [hφ] at this
    obtain ⟨a, b, ha, hb, hf, he⟩ := this
    simp only [Prod.mk.injEq, Nat.add_right_cancel_iff] at he
    rw [he.1, he.2]
    exact ⟨ha, hb, hf⟩
  obtain ⟨g1, g2, g3⟩ := get hx hy e hφ
  obtain ⟨k1, k2, k3⟩ := get hx' hy' e' hφ'
  rw [label_linked hl1 ha1 hr1 hx hy hx' hy' e e', label_linked hl2 ha2 hr2 g1 g2 k1 k2 g3 k3, ← hrule, ← hφ, ← hφ']
  constructor
  · intro hl
    exact hl.map φ (fun p => (hc.black p).1) (hc.near _)
  · intro hl
    have := hl.map ψ (fun p => (hc'.black p).1) (hc'.near _)
    rwa [hc.back _ ⟨x, y, hx, hy, e, rfl⟩, hc.back _ ⟨x', y', hx', hy', e', rfl⟩] at this

/-- A map which moves columns and rows separately, neighbours to neighbours or together. -/
theorem near_of {a b : Nat → Nat} (ha : ∀ x, a x ≤ a (x + 1) + 1 ∧ a (x + 1) ≤ a x + 1) (hb : ∀ y, b y ≤ b (y + 1) + 1 ∧ b (y + 1) ≤ b y + 1)
    (r : ConnectRule) (u v : Nat × Nat) (h : Adjacent r u v) :
    (fun p : Nat × Nat => (a p.1, b p.2)) u = (fun p : Nat × Nat => (a p.1, b p.2)) v ∨
      Adjacent r ((fun p : Nat × Nat => (a p.1, b p.2)) u) ((fun p : Nat × Nat => (a p.1, b p.2)) v) := by
  obtain ⟨x, y⟩ := u
  obtain ⟨x', y'⟩ := v
  have h8 := (adj_eight h).2
  simp only at h8
  have cx : x = x' ∨ x' = x + 1 ∨ x = x' + 1 := by omega
  have cy : y = y' ∨ y' = y + 1 ∨ y = y' + 1 := by omega
  have fx : a x ≤ a x' + 1 ∧ a x' ≤ a x + 1 := by
    rcases cx with rfl | rfl | rfl
    · omega
    · exact ha x
    · exact (ha x').symm
  have fy : b y ≤ b y' + 1 ∧ b y' ≤ b y + 1 := by
    rcases cy with rfl | rfl | rfl
    · omega
    · exact hb y
    · exact (hb y').symm
  by_cases hne : a x = a x' ∧ b y = b y'
  · left
    simp [hne.1, hne.2]
  · right
    cases r
    · simp only [Adjacent] at h ⊢
      rcases h with ⟨rfl, -⟩ | ⟨rfl, -⟩
      · left
        simp only [true_and] at *
        omega
      · right
        simp only [true_and, and_true] at *
        omega
    · refine ⟨?_, ?_⟩
      · simpa using hne
      · exact ⟨fx.1, fx.2, fy.1, fy.2⟩

/-- Row 0 is white. -/
theorem row_linked {r : ConnectRule} {w ht : Nat} {f : Nat → Nat → Int} (x : Nat) :
    Linked r (fun u => ¬Black w ht f u) (x, 0) (0, 0) := by
  have hwh : ∀ x, ¬Black w ht f (x, 0) := by
    rintro x ⟨a, b, -, -, -, he⟩
    simp only [Prod.mk.injEq] at he
    omega
  induction x with
  | zero => exact .refl (hwh 0)
  | succ x ih => exact ((Linked.refl (hwh _)).step (adj_of_four (by unfold Adjacent; simp)) (hwh x)).trans ih

theorem col_linked {r : ConnectRule} {w ht : Nat} {f : Nat → Nat → Int} (y : Nat) :
    Linked r (fun u => ¬Black w ht f u) (0, y) (0, 0) := by
  have hwh : ∀ y, ¬Black w ht f (0, y) := by
    rintro x ⟨a, b, -, -, -, he⟩
    simp only [Prod.mk.injEq] at he
    omega
  induction y with
  | zero => exact .refl (hwh 0)
  | succ x ih => exact ((Linked.refl (hwh _)).step (adj_of_four (by unfold Adjacent; simp)) (hwh x)).trans ih

theorem black_in {w ht : Nat} {f : Nat → Nat → Int} {p : Nat × Nat} (h : Black w ht f p) :
    1 ≤ p.1 ∧ p.1 ≤ w ∧ 1 ≤ p.2 ∧ p.2 ≤ ht ∧ f (p.1 - 1) (p.2 - 1) = 1 := by
  obtain ⟨x, y, hx, hy, e, rfl⟩ := h
  exact ⟨by simp, hx, by simp, hy, by simpa using e⟩

theorem in_black {w ht : Nat} {f : Nat → Nat → Int} {p : Nat × Nat} (h1 : 1 ≤ p.1) (h2 : p.1 ≤ w) (h3 : 1 ≤ p.2) (h4 : p.2 ≤ ht)
    (e : f (p.1 - 1) (p.2 - 1) = 1) : Black w ht f p :=
  ⟨p.1 - 1, p.2 - 1, by omega, by omega, e, by ext <;> simp <;> omega⟩

theorem transposed_corresponds {w ht : Nat} {f g : Nat → Nat → Int} (hf : ∀ x y, x < w → y < ht → g y x = f x y) :
    Corresponds (Black w ht f) (Black ht w g) Prod.swap Prod.swap where
  black := by
    intro p
    constructor
    · intro h
      obtain ⟨a, b, c, d, e⟩ := black_in h
      exact in_black (p := p.swap) c d a b (by rw [← hf _ _ (by omega) (by omega)] at e; exact e)
    · intro h
      obtain ⟨a, b, c, d, e⟩ := black_in h
      simp only [Prod.fst_swap, Prod.snd_swap] at a b c d e
      exact in_black c d a b (by rw [← hf _ _ (by omega) (by omega)]; exact e)
  back := fun p _ => Prod.swap_swap p
  near := by
    rintro r ⟨x, y⟩ ⟨x', y'⟩ h
    right
    cases r
    · simp only [Adjacent, Prod.swap] at h ⊢; omega
    · simp only [Adjacent, Prod.swap, ne_eq, Prod.mk.injEq] at h ⊢; omega
  corner := fun r => row_linked 0

/-- Transposing a picture transposes its components: pixels have equal labels exactly if the transposed pixels have, and the
numbers of contours and of sets of points are the same. -/
theorem C96_transposed
    (hl1 : Labeller.Reachable h1 l1) (ha1 : l1.Accepts h1 b1 o1 f1 fuel1) (hr1 : l1.process fuel1 b1 o1 h1 = .ok (l1', o1') h1')
    (hl2 : Labeller.Reachable h2 l2) (ha2 : l2.Accepts h2 b2 o2 f2 fuel2) (hr2 : l2.process fuel2 b2 o2 h2 = .ok (l2', o2') h2')
    (hrule : l1.rule = l2.rule) (hw : b2.width = b1.height) (hh : b2.height = b1.width)
    (hf : ∀ x y, x < b1.width → y < b1.height → f2 y x = f1 x y) :
    (∀ x y x' y', x < b1.width → y < b1.height → x' < b1.width → y' < b1.height → f1 x y = 1 → f1 x' y' = 1 →
      (h1'.px o1' x y = h1'.px o1' x' y' ↔ h2'.px o2' y x = h2'.px o2' y' x')) ∧
    l1'.contours.length = l2'.contours.length ∧ l1'.packedPoints.numberOfSets = l2'.packedPoints.numberOfSets := by
  have hc : Corresponds (Black b1.width b1.height f1) (Black b2.width b2.height f2) Prod.swap Prod.swap := by
    rw [hw, hh]
    exact transposed_corresponds hf
  have hc' : Corresponds (Black b2.width b2.height f2) (Black b1.width b1.height f1) Prod.swap Prod.swap := by
    rw [hw, hh]
    exact transposed_corresponds (fun x y hx hy => (hf y x hy hx).symm)
  refine ⟨?_, same_numbers hl1 ha1 hr1 hl2 ha2 hr2 hrule hc hc' (fun q _ => Prod.swap_swap q) (fun q _ => Prod.swap_swap q)⟩
  intro x y x' y' hx hy hx' hy' e e'
  exact same_labels hl1 ha1 hr1 hl2 ha2 hr2 hrule hc hc' hx hy hx' hy' e e' rfl rfl

theorem mirrored_corresponds {w ht : Nat} {f g : Nat → Nat → Int} (hf : ∀ x y, x < w → y < ht → g (w - 1 - x) y = f x y) :
    Corresponds (Black w ht f) (Black w ht g) (fun p => (w + 1 - p.1, p.2)) (fun p => (w + 1 - p.1, p.2)) where
  black := by
    intro p
    constructor
    · intro h
      obtain ⟨a, b, c, d, e⟩ := black_in h
      refine in_black (by simp only; omega) (by simp only; omega) c d ?_
      rw [← hf _ _ (by omega) (by omega)] at e
      rw [← e]
      congr 1
      simp only
      omega
    · intro h
      obtain ⟨a, b, c, d, e⟩ := black_in h
      simp only at a b c d e
      refine in_black (by omega) (by omega) c d ?_
      rw [← hf _ _ (by omega) (by omega), ← e]
      congr 1
      omega
  back := by
    intro p h
    obtain ⟨a, b, -⟩ := black_in h
    ext
    · simp only; omega
    · rfl
  near := fun r u v h => near_of (a := fun x => w + 1 - x) (b := fun y => y) (by intro x; omega) (by intro x; omega) r u v h
  corner := fun r => row_linked _

/-- The same for mirror images, left and right. -/
theorem C96_mirrored
    (hl1 : Labeller.Reachable h1 l1) (ha1 : l1.Accepts h1 b1 o1 f1 fuel1) (hr1 : l1.process fuel1 b1 o1 h1 = .ok (l1', o1') h1')
    (hl2 : Labeller.Reachable h2 l2) (ha2 : l2.Accepts h2 b2 o2 f2 fuel2) (hr2 : l2.process fuel2 b2 o2 h2 = .ok (l2', o2') h2')
    (hrule : l1.rule = l2.rule) (hw : b2.width = b1.width) (hh : b2.height = b1.height)
    (hf : ∀ x y, x < b1.width → y < b1.height → f2 (b1.width - 1 - x) y = f1 x y) :
    (∀ x y x' y', x < b1.width → y < b1.height → x' < b1.width → y' < b1.height → f1 x y = 1 → f1 x' y' = 1 →
      (h1'.px o1' x y = h1'.px o1' x' y' ↔
        h2'.px o2' (b1.width - 1 - x) y = h2'.px o2' (b1.width - 1 - x') y')) ∧
    l1'.contours.length = l2'.contours.length ∧ l1'.packedPoints.numberOfSets = l2'.packedPoints.numberOfSets := by
  have hc : Corresponds (Black b1.width b1.height f1) (Black b2.width b2.height f2)
      (fun p => (b1.width + 1 - p.1, p.2)) (fun p => (b1.width + 1 - p.1, p.2)) := by
    rw [hw, hh]
    exact mirrored_corresponds hf
  have hc' : Corresponds (Black b2.width b2.height f2) (Black b1.width b1.height f1)
      (fun p => (b1.width + 1 - p.1, p.2)) (fun p => (b1.width + 1 - p.1, p.2)) := by
    rw [hw, hh]
    refine mirrored_corresponds fun x y hx hy => ?_
    rw [← hf _ _ (by omega) hy]
    congr 1
    omega
  have hbk : ∀ {q : Nat × Nat}, q.1 ≤ b1.width → (b1.width + 1 - (b1.width + 1 - q.1), q.2) = q := by
    intro q hq
    ext
    · simp only; omega
    · rfl
  refine ⟨?_, same_numbers hl1 ha1 hr1 hl2 ha2 hr2 hrule hc hc' (fun q hq => hbk (hole_box hq).2.1)
    (fun q hq => hbk (by rw [← hw]; exact (hole_box hq).2.1))⟩
  intro x y x' y' hx hy hx' hy' e e'
  refine same_labels hl1 ha1 hr1 hl2 ha2 hr2 hrule hc hc' hx hy hx' hy' e e' ?_ ?_ <;>
    (simp only [Prod.mk.injEq, and_true]; omega)

theorem turned_corresponds {w ht : Nat} {f g : Nat → Nat → Int} (hf : ∀ x y, x < w → y < ht → g x (ht - 1 - y) = f x y) :
    Corresponds (Black w ht f) (Black w ht g) (fun p => (p.1, ht + 1 - p.2)) (fun p => (p.1, ht + 1 - p.2)) where
  black := by
    intro p
    constructor
    · intro h
      obtain ⟨a, b, c, d, e⟩ := black_in h
      refine in_black a b (by simp only; omega) (by simp only; omega) ?_
      rw [← hf _ _ (by omega) (by omega)] at e
      rw [← e]
      congr 1
      simp only
      omega
    · intro h
      obtain ⟨a, b, c, d, e⟩ := black_in h
      simp only at a b c d e
      refine in_black a b (by omega) (by omega) ?_
      rw [← hf _ _ (by omega) (by omega), ← e]
      congr 1
      omega
  back := by
    intro p h
    obtain ⟨-, -, a, b, -⟩ := black_in h
    ext
    · rfl
    · simp only; omega
  near := fun r u v h => near_of (a := fun x => x) (b := fun y => ht + 1 - y) (by intro x; omega) (by intro x; omega) r u v h
  corner := fun r => col_linked _

/-- The same for pictures turned upside down. -/
theorem C96_upside_down
    (hl1 : Labeller.Reachable h1 l1) (ha1 : l1.Accepts h1 b1 o1 f1 fuel1) (hr1 : l1.process fuel1 b1 o1 h1 = .ok (l1', o1') h1')
    (hl2 : Labeller.Reachable h2 l2) (ha2 : l2.Accepts h2 b2 o2 f2 fuel2) (hr2 : l2.process fuel2 b2 o2 h2 = .ok (l2', o2') h2')
    (hrule : l1.rule = l2.rule) (hw : b2.width = b1.width) (hh : b2.height = b1.height)
    (hf : ∀ x y, x < b1.width → y < b1.height → f2 x (b1.height - 1 - y) = f1 x y) :
    (∀ x y x' y', x < b1.width → y < b1.height → x' < b1.width → y' < b1.height → f1 x y = 1 → f1 x' y' = 1 →
      (h1'.px o1' x y = h1'.px o1' x' y' ↔
        h2'.px o2' x (b1.height - 1 - y) = h2'.px o2' x' (b1.height - 1 - y'))) ∧
    l1'.contours.length = l2'.contours.length ∧ l1'.packedPoints.numberOfSets = l2'.packedPoints.numberOfSets := by
  have hc : Corresponds (Black b1.width b1.height f1) (Black b2.width b2.height f2)
      (fun p => (p.1, b1.height + 1 - p.2)) (fun p => (p.1, b1.height + 1 - p.2)) := by
    rw [hw, hh]
    exact turned_corresponds hf
  have hc' : Corresponds (Black b2.width b2.height f2) (Black b1.width b1.height f1)
      (fun p => (p.1, b1.height + 1 - p.2)) (fun p => (p.1, b1.height + 1 - p.2)) := by
    rw [hw, hh]
    refine turned_corresponds fun x y hx hy => ?_
    rw [← hf _ _ hx (by omega)]
    congr 1
    omega
  have hbk : ∀ {q : Nat × Nat}, q.2 ≤ b1.height → (q.1, b1.height + 1 - (b1.height + 1 - q.2)) = q := by
    intro q hq
    ext
    · rfl
    · simp only; omega
  refine ⟨?_, same_numbers hl1 ha1 hr1 hl2 ha2 hr2 hrule hc hc' (fun q hq => hbk (hole_box hq).2.2.2)
    (fun q hq => hbk (by rw [← hh]; exact (hole_box hq).2.2.2))⟩
  intro x y x' y' hx hy hx' hy' e e'
  refine same_labels hl1 ha1 hr1 hl2 ha2 hr2 hrule hc hc' hx hy hx' hy' e e' ?_ ?_ <;>
    (simp only [Prod.mk.injEq, true_and]; omega)

theorem moved_corresponds {w ht w' ht' dx dy : Nat} {f g : Nat → Nat → Int} (hw : dx + w ≤ w') (hh : dy + ht ≤ ht')
    (hf : ∀ x y, x < w → y < ht → g (dx + x) (dy + y) = f x y)
    (hm : ∀ x y, x < w' → y < ht' → g x y = 1 → dx ≤ x ∧ x < dx + w ∧ dy ≤ y ∧ y < dy + ht) :
    Corresponds (Black w ht f) (Black w' ht' g) (fun p => (p.1 + dx, p.2 + dy)) (fun p => (p.1 - dx, p.2 - dy)) ∧
    Corresponds (Black w' ht' g) (Black w ht f) (fun p => (p.1 - dx, p.2 - dy)) (fun p => (p.1 + dx, p.2 + dy)) := by
  have hin : ∀ p, Black w' ht' g p → dx < p.1 ∧ p.1 ≤ dx + w ∧ dy < p.2 ∧ p.2 ≤ dy + ht := by
    intro p h
    obtain ⟨a, b, c, d, e⟩ := black_in h
    have := hm _ _ (by omega) (by omega) e
    omega
  have b1 : ∀ p, Black w ht f p ↔ Black w' ht' g (p.1 + dx, p.2 + dy) := by
    intro p
    constructor
    · intro h
      obtain ⟨a, b, c, d, e⟩ := black_in h
      refine in_black (by simp only; omega) (by simp only; omega) (by simp only; omega) (by simp only; omega) ?_
      rw [← hf _ _ (by omega) (by omega)] at e
      rw [← e]
      congr 1 <;> (simp only; omega)
    · intro h
      have hb := hin _ h
      obtain ⟨a, b, c, d, e⟩ := black_in h
      simp only at a b c d e hb
      refine in_black (by omega) (by omega) (by omega) (by omega) ?_
      rw [← hf _ _ (by omega) (by omega), ← e]
      congr 1 <;> omega
  refine ⟨⟨b1, ?_, ?_, ?_⟩, ⟨?_, ?_, ?_, ?_⟩⟩
  · intro p _
    ext <;> simp
  · exact fun r u v h => near_of (a := fun x => x + dx) (b := fun y => y + dy) (by intro x; omega) (by intro x; omega) r u v h
  · intro r
    have wh : ∀ x y, (x ≤ dx ∨ y ≤ dy) → ¬Black w' ht' g (x, y) := by
      intro x y hxy h
      have := hin _ h
      simp only at this
      omega
    have : ∀ x y, y ≤ dy → Linked r (fun u => ¬Black w' ht' g u) (x, y) (0, 0) := by
      intro x y hy
      exact rows_linked (k := dy + 1) (fun x y hy => wh x y (by omega)) x y (by omega)
    exact this _ _ (by simp)
  · intro p
    by_cases hp : dx < p.1 ∧ dy < p.2
    · rw [b1]
      have : ((p.1 - dx + dx, p.2 - dy + dy) : Nat × Nat) = p := by ext <;> simp <;> omega
      simp only
      rw [this]
    · constructor
      · intro h
        have := hin _ h
        omega
      · intro h
        obtain ⟨a, -, b, -⟩ := black_in h
        simp only at a b
        omega
  · intro p h
    have := hin _ h
    ext <;> simp only <;> omega
  · exact fun r u v h => near_of (a := fun x => x - dx) (b := fun y => y - dy) (by intro x; omega) (by intro x; omega) r u v h
  · intro r
    have : ((0, 0) : Nat × Nat) = (0 - dx, 0 - dy) := by simp
    rw [← this]
    exact row_linked 0

/-- The same for a picture moved into a larger one with a white margin. -/
theorem C96_moved {dx dy : Nat}
    (hl1 : Labeller.Reachable h1 l1) (ha1 : l1.Accepts h1 b1 o1 f1 fuel1) (hr1 : l1.process fuel1 b1 o1 h1 = .ok (l1', o1') h1')
    (hl2 : Labeller.Reachable h2 l2) (ha2 : l2.Accepts h2 b2 o2 f2 fuel2) (hr2 : l2.process fuel2 b2 o2 h2 = .ok (l2', o2') h2')
    (hrule : l1.rule = l2.rule) (hw : dx + b1.width ≤ b2.width) (hh : dy + b1.height ≤ b2.height)
    (hf : ∀ x y, x < b1.width → y < b1.height → f2 (dx + x) (dy + y) = f1 x y)
    (hm : ∀ x y, x < b2.width → y < b2.height → ¬(dx ≤ x ∧ x < dx + b1.width ∧ dy ≤ y ∧ y < dy + b1.height) → f2 x y = 0) :
    (∀ x y x' y', x < b1.width → y < b1.height → x' < b1.width → y' < b1.height → f1 x y = 1 → f1 x' y' = 1 →
      (h1'.px o1' x y = h1'.px o1' x' y' ↔ h2'.px o2' (dx + x) (dy + y) = h2'.px o2' (dx + x') (dy + y'))) ∧
    l1'.contours.length = l2'.contours.length ∧ l1'.packedPoints.numberOfSets = l2'.packedPoints.numberOfSets := by
  obtain ⟨hc, hc'⟩ := moved_corresponds hw hh hf (fun x y hx hy e => by
    refine Classical.byContradiction fun hn => ?_
    rw [hm x y hx hy hn] at e
    cases e)
  have wh : ∀ x y, (x ≤ dx ∨ y ≤ dy) → ¬Black b2.width b2.height f2 (x, y) := by
    intro x y hxy h
    obtain ⟨a, b, c, d, e⟩ := black_in h
    simp only at a b c d e
    rw [hm _ _ (by omega) (by omega) (by omega)] at e
    cases e
  have hH' : ∀ q, Hole l1.rule (Black b2.width b2.height f2) q → (q.1 - dx + dx, q.2 - dy + dy) = q := by
    rintro ⟨x, y⟩ hq
    have : ¬(x ≤ dx ∨ y ≤ dy) := by
      intro hxy
      refine hq.2 ?_
      by_cases hy : y ≤ dy
      · exact rows_linked (k := dy + 1) (fun x y hy => wh x y (by omega)) x y (by omega)
      · have left : ∀ x, x ≤ dx → Linked l1.rule.dual (fun u => ¬Black b2.width b2.height f2 u) (x, y) (0, y) := by
          intro x hx
          induction x with
          | zero => exact .refl (wh _ _ (by omega))
          | succ x ih =>
            exact ((Linked.refl (wh _ _ (by omega))).step (adj_of_four (by unfold Adjacent; simp)) (wh x y (by omega))).trans (ih (by omega))
        exact (left x (by omega)).trans (col_linked y)
    ext <;> simp only <;> omega
  refine ⟨?_, same_numbers hl1 ha1 hr1 hl2 ha2 hr2 hrule hc hc' (fun q _ => by ext <;> simp) hH'⟩
  intro x y x' y' hx hy hx' hy' e e'
  refine same_labels hl1 ha1 hr1 hl2 ha2 hr2 hrule hc hc' hx hy hx' hy' e e' ?_ ?_ <;>
    (simp only [Prod.mk.injEq]; omega)

end

/-! ### Concrete cases -/

def smallHeap0 (L : List Int) : Heap Int := ⟨[some L, some [7, 7]]⟩
def smallHeap (L : List Int) : Heap Int := ⟨[some L, some [7, 7], some []]⟩
def smallPicture (L : List Int) (w ht : Nat) : Gray := ⟨0, L.length, w, ht, 0, w, false⟩

/-- A new labeller on a small picture. -/
theorem small_run (r : ConnectRule) (L : List Int) (w ht : Nat) (hv : (smallPicture L w ht).Valid (smallHeap L))
    (hlv : demoLabels.Valid (smallHeap L))
    (hs : ∀ x, x < w → ∀ y, y < ht → (smallHeap L).px (smallPicture L w ht) x y = some ((L[y * w + x]?).getD 0))
    (hb : ∀ x, x < w → ∀ y, y < ht → (L[y * w + x]?).getD 0 = 0 ∨ (L[y * w + x]?).getD 0 = 1)
    (hz : 8 * ((w + 2) * (ht + 2)) < P32) (hf : 8 * (w * ht) ≤ 1000) :
    Labeller.Reachable (smallHeap L) (demoLabeller r) ∧
    (demoLabeller r).Accepts (smallHeap L) (smallPicture L w ht) demoLabels (fun x y => (L[y * w + x]?).getD 0) 1000 :=
  ⟨.new (rule := r) (junk := demoJunk) (h := smallHeap0 L) rfl,
    { valid := hv
      shows := fun x y hx hy => hs x hx y hy
      bits := fun x y hx hy => hb x hx y hy
      size := hz
      labelValid := hlv
      labelShape := Or.inl rfl
      labelStride := by decide
      apart := Or.inl (by show (0 : Nat) ≠ 1; decide)
      foreign := ⟨by show (1 : Nat) ≠ 2; decide, by show (0 : Nat) ≠ 2; decide⟩
      fuelEnough := hf }⟩

/-- A picture of 3 x 2 pixels; a larger set; its transpose; its mirror image; the picture in the middle of a larger one. -/
example (r : ConnectRule) :
    let P : List Int := [1, 0, 1,  1, 0, 0]
    let M : List Int := [1, 1, 1,  1, 0, 0]
    let T : List Int := [1, 1,  0, 0,  1, 0]
    let R : List Int := [1, 0, 1,  0, 0, 1]
    let D : List Int := [0, 0, 0, 0, 0,  0, 0, 1, 0, 1,  0, 0, 1, 0, 0]
    (demoLabeller r).Accepts (smallHeap P) (smallPicture P 3 2) demoLabels (fun x y => (P[y * 3 + x]?).getD 0) 1000 ∧
    (demoLabeller r).Accepts (smallHeap M) (smallPicture M 3 2) demoLabels (fun x y => (M[y * 3 + x]?).getD 0) 1000 ∧
    (demoLabeller r).Accepts (smallHeap T) (smallPicture T 2 3) demoLabels (fun x y => (T[y * 2 + x]?).getD 0) 1000 ∧
    (demoLabeller r).Accepts (smallHeap R) (smallPicture R 3 2) demoLabels (fun x y => (R[y * 3 + x]?).getD 0) 1000 ∧
    (demoLabeller r).Accepts (smallHeap D) (smallPicture D 5 3) demoLabels (fun x y => (D[y * 5 + x]?).getD 0) 1000 ∧
    (∀ x : Nat, x < 3 → ∀ y : Nat, y < 2 → (P[y * 3 + x]?).getD 0 = 1 → (M[y * 3 + x]?).getD 0 = 1) ∧
    (∀ x : Nat, x < 3 → ∀ y : Nat, y < 2 → (T[x * 2 + y]?).getD 0 = (P[y * 3 + x]?).getD 0) ∧
    (∀ x : Nat, x < 3 → ∀ y : Nat, y < 2 → (R[y * 3 + (3 - 1 - x)]?).getD 0 = (P[y * 3 + x]?).getD 0) ∧
    (∀ x : Nat, x < 3 → ∀ y : Nat, y < 2 → (D[(1 + y) * 5 + (2 + x)]?).getD 0 = (P[y * 3 + x]?).getD 0) ∧
    (∀ x : Nat, x < 5 → ∀ y : Nat, y < 3 → ¬(2 ≤ x ∧ x < 2 + 3 ∧ 1 ≤ y ∧ y < 1 + 2) → (D[y * 5 + x]?).getD 0 = 0) := by
  refine ⟨(small_run r _ 3 2 ?_ ?_ ?_ ?_ ?_ ?_).2, (small_run r _ 3 2 ?_ ?_ ?_ ?_ ?_ ?_).2, (small_run r _ 2 3 ?_ ?_ ?_ ?_ ?_ ?_).2,
    (small_run r _ 3 2 ?_ ?_ ?_ ?_ ?_ ?_).2, (small_run r _ 5 3 ?_ ?_ ?_ ?_ ?_ ?_).2, ?_, ?_, ?_, ?_, ?_⟩ <;> decide +kernel

/-- Pictures must consist of zeros and ones: a hole of another value gets no internal set. -/
theorem C95_other_values_miss_holes : ∃ (h : Heap Int) (l : Labeller) (binary labeled : Gray) (f : Nat → Nat → Int) (q : Nat × Nat),
    Labeller.Reachable h l ∧ binary.Valid h ∧ binary.Shows h f ∧ labeled.Valid h ∧ binary.Sep labeled binary.width binary.height ∧
    Hole l.rule (Black binary.width binary.height f) q ∧
    ∃ l' lab h', l.process 1000 binary labeled h = .ok (l', lab) h' ∧ l'.contours = [⟨1, 0, []⟩] := by
  have hblack : ∀ p : Nat × Nat, (1 ≤ p.1 ∧ p.1 ≤ 3 ∧ 1 ≤ p.2 ∧ p.2 ≤ 3 ∧ p ≠ (2, 2)) →
      Black 3 3 (fun x y => if x = 1 ∧ y = 1 then 2 else 1) p := by
    rintro ⟨x, y⟩ ⟨h1, h2, h3, h4, h5⟩
    refine in_black h1 h2 h3 h4 (if_neg ?_)
    rintro ⟨a, b⟩
    apply h5
    simp only at a b h1 h3
    ext <;> simp only <;> omega
  have hshow : ∀ x, x < 3 → ∀ y, y < 3 → (smallHeap [1, 1, 1, 1, 2, 1, 1, 1, 1]).px (smallPicture [1, 1, 1, 1, 2, 1, 1, 1, 1] 3 3) x y =
      some (if x = 1 ∧ y = 1 then 2 else 1) := by decide
  refine ⟨smallHeap [1, 1, 1, 1, 2, 1, 1, 1, 1], demoLabeller .eight, smallPicture [1, 1, 1, 1, 2, 1, 1, 1, 1] 3 3, demoLabels,
    fun x y => if x = 1 ∧ y = 1 then 2 else 1, (2, 2), .new (rule := .eight) (junk := demoJunk)
      (h := smallHeap0 [1, 1, 1, 1, 2, 1, 1, 1, 1]) rfl, by decide, fun x y hx hy => hshow x hx y hy, by decide,
    Or.inl (by show (0 : Nat) ≠ 1; decide), ⟨?_, ?_⟩, ?_⟩
  · intro hb
    obtain ⟨-, -, -, -, e⟩ := black_in hb
    simp at e
  · intro hl
    have : ∀ q, Linked .four (fun u => ¬Black 3 3 (fun x y => if x = 1 ∧ y = 1 then 2 else 1) u) (2, 2) q → q = (2, 2) := by
      intro q hq
      induction hq with
      | refl _ => rfl
      | @step u v _ ha hs ih =>
        subst ih
        exfalso
        refine hs (hblack v ?_)
        have hne := Adjacent.ne ha
        obtain ⟨a, b⟩ := v
        simp only [Adjacent] at ha
        exact ⟨by simp only; omega, by simp only; omega, by simp only; omega, by simp only; omega, fun h => hne h.symm⟩
    have := this (0, 0) hl
    simp at this
  · have : (match (demoLabeller .eight).process 1000 (smallPicture [1, 1, 1, 1, 2, 1, 1, 1, 1] 3 3) demoLabels
        (smallHeap [1, 1, 1, 1, 2, 1, 1, 1, 1]) with
      | .ok r _ => r.1.contours | _ => []) = [⟨1, 0, []⟩] := by decide +kernel
    split at this
    · next r h' e => exact ⟨r.1, r.2, h', e, this⟩
    · cases this

end Boof
