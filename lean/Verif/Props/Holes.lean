import Verif.Props.Contour
import Verif.Proofs.Holes
/-
C95: internal contours and holes.
-/
namespace Boof

/-- Two lists with one pixel of each region have the same length. -/
theorem OnePerRegion.length_le {r : ConnectRule} {S : Nat × Nat → Prop} {L L' : List (Nat × Nat)} (h : OnePerRegion r S L)
    (h' : OnePerRegion r S L') : L.length ≤ L'.length := by
  have hex : ∀ p : {p // p ∈ L}, ∃ q, q ∈ L' ∧ Linked r S q p.1 := fun p => by
    obtain ⟨q, h1, h2⟩ := h'.all p.1 (h.inside _ p.2)
    exact ⟨q, h1, h2⟩
  choose g hg using hex
  have hnd : (L.attach.map g).Nodup := by
    unfold List.Nodup
    rw [List.pairwise_map]
    have hw : L.attach.Pairwise (fun p q => ¬Linked r S p.1 q.1) := by
      have hm : L.attach.map Subtype.val = L := List.attach_map_subtype_val L
      have := h.once
      rw [← hm, List.pairwise_map] at this
      exact this
    refine hw.imp ?_
    intro p q hn he
    refine hn ((hg p).2.symm.trans ?_)
    rw [he]
    exact (hg q).2
  have hsub : L.attach.map g ⊆ L' := by
    intro q hq
    obtain ⟨p, -, rfl⟩ := List.mem_map.1 hq
    exact (hg p).1
  have := (hnd.subperm hsub).length_le
  simpa using this

theorem OnePerRegion.length_eq {r : ConnectRule} {S : Nat × Nat → Prop} {L L' : List (Nat × Nat)} (h : OnePerRegion r S L)
    (h' : OnePerRegion r S L') : L.length = L'.length := Nat.le_antisymm (h.length_le h') (h'.length_le h)

theorem Linked.restrict {r : ConnectRule} {S T : Nat × Nat → Prop} {p q : Nat × Nat} (hl : Linked r S p q)
    (hT : ∀ u, Linked r S p u → T u) : Linked r T p q := by
  induction hl with
  | refl h => exact .refl (hT _ (.refl h))
  | step hl ha hs ih => exact ih.step ha (hT _ (hl.step ha hs))

theorem Hole.linked {r : ConnectRule} {S : Nat × Nat → Prop} {q q' : Nat × Nat} (h : Hole r S q)
    (hl : Linked r.dual (fun u => ¬S u) q q') : Linked r.dual (Hole r S) q q' :=
  hl.restrict fun _ hu => ⟨hu.right, fun h0 => h.2 (hu.trans h0)⟩

section
variable {h h' : Heap Int} {l l' : Labeller} {binary labeled lab : Gray} {f : Nat → Nat → Int} {fuel : Nat}

/-- What the picture facts say about a list of sides. -/
theorem sides_holes (r : ConnectRule) (w ht : Nat) (f : Nat → Nat → Int) :
    (∀ p q p' q', Side (Black w ht f) p q → Side (Black w ht f) p' q' → ¬Outer r (Black w ht f) p q → ¬Outer r (Black w ht f) p' q' →
      Linked r.dual (fun u => ¬Black w ht f u) q q' → Linked r (Black w ht f) p p') ∧
    (∀ p q, Side (Black w ht f) p q → ¬Outer r (Black w ht f) p q → Hole r (Black w ht f) q) ∧
    (∀ q, Hole r (Black w ht f) q → ∃ p q', Side (Black w ht f) p q' ∧ Linked r.dual (fun u => ¬Black w ht f u) q q' ∧
      ¬Outer r (Black w ht f) p q') := by
  have hB := framed_in w ht f
  rw [black_eq, ruleOf_decide r]
  generalize decide (r = .eight) = e
  refine ⟨?_, ?_, ?_⟩
  · intro p q p' q' hs hs' ho ho' hl
    obtain ⟨hh, he⟩ := inner_escapes hB hs ho
    obtain ⟨-, he'⟩ := inner_escapes hB hs' ho'
    exact escapes_same hB hh hs hs' hl he he'
  · intro p q hs ho
    exact (inner_escapes hB hs ho).1
  · intro q hq
    exact hole_side hB hq

/-- Exactly one component surrounds a hole. -/
theorem C95_one_component_surrounds (r : ConnectRule) (w ht : Nat) (f : Nat → Nat → Int) (q : Nat × Nat)
    (hq : Hole r (Black w ht f) q) :
    (∃ p, Surrounds r (Black w ht f) p q) ∧
    (∀ p p', Surrounds r (Black w ht f) p q → Surrounds r (Black w ht f) p' q → Linked r (Black w ht f) p p') := by
  obtain ⟨s1, -, s3⟩ := sides_holes r w ht f
  constructor
  · obtain ⟨p, q', h1, h2, h3⟩ := s3 q hq
    exact ⟨p, p, q', .refl h1.1, h2, h1, h3⟩
  · rintro p p' ⟨a, u, ha, hu, hs, ho⟩ ⟨b, v, hb, hv, hs', ho'⟩
    exact (ha.trans (s1 a u b v hs hs' ho ho' (hu.symm.trans hv))).trans hb.symm

/-- After `process` the internal sets of a contour are one for each hole which its component surrounds. -/
theorem C95_internal_sets_are_holes (hl : Labeller.Reachable h l) (ha : l.Accepts h binary labeled f fuel)
    (hr : l.process fuel binary labeled h = .ok (l', lab) h') :
    ∀ c ∈ l'.contours, ∃ holes,
      OnePerRegion l.rule.dual (fun q => Hole l.rule (Black binary.width binary.height f) q ∧ ∃ x y, x < binary.width ∧
        y < binary.height ∧ h'.px lab x y = some (c.id : Int) ∧ Surrounds l.rule (Black binary.width binary.height f) (x + 1, y + 1) q) holes ∧
      c.internalIndexes.length = holes.length := by
  obtain ⟨sides, paths, external, hone, hlen, hpath, hobs, hcon⟩ := C63_boundaries hl ha hr
  obtain ⟨g, hg, hlab⟩ := C62_labels hl ha hr
  obtain ⟨hperm, hids⟩ := C66_bookkeeping hl ha hr
  obtain ⟨s1, s2, s3⟩ := sides_holes l.rule binary.width binary.height f
  have hdone := label_done hl ha hr
  have hnum : l'.packedPoints.numberOfSets = sides.length := by
    rw [sets_number hl ha hr, hobs.number, List.length_mapIdx, hlen]
  have hout : ∀ i s, sides[i]? = some s → (external i = true ↔ Outer l.rule (Black binary.width binary.height f) s.1 s.2) := by
    intro i s hs
    have hi : i < paths.length := by rw [hlen]; exact (List.getElem?_eq_some_iff.1 hs).1
    exact (hpath i s _ hs (List.getElem?_eq_getElem hi)).2
  have hblack : ∀ p, Black binary.width binary.height f p → p.1 - 1 < binary.width ∧ p.2 - 1 < binary.height ∧
      f (p.1 - 1) (p.2 - 1) = 1 ∧ p = ((p.1 - 1) + 1, (p.2 - 1) + 1) := by
    rintro p ⟨x, y, hx, hy, hf, rfl⟩
    exact ⟨hx, hy, hf, rfl⟩
  have hpx : ∀ x y, x < binary.width → y < binary.height → h'.px lab x y = some (g x y) := by
    intro x y hx hy
    exact hg x y (by rw [hdone.width]; exact hx) (by rw [hdone.height]; exact hy)
  have hsame : ∀ p q, Black binary.width binary.height f p → Black binary.width binary.height f q →
      (h'.px lab (p.1 - 1) (p.2 - 1) = h'.px lab (q.1 - 1) (q.2 - 1) ↔ Linked l.rule (Black binary.width binary.height f) p q) := by
    intro p q hp hq
    obtain ⟨p1, p2, p3, p4⟩ := hblack p hp
    obtain ⟨q1, q2, q3, q4⟩ := hblack q hq
    rw [hpx _ _ p1 p2, hpx _ _ q1 q2, Option.some.injEq, hlab.component _ _ _ _ p1 p2 q1 q2 p3 q3, ← p4, ← q4]
  intro c hc
  obtain ⟨hcE, hcI⟩ := hcon c hc
  let S : Nat → (Nat × Nat) × (Nat × Nat) := fun i => (sides[i]?).getD ((0, 0), (0, 0))
  have hS : ∀ i ∈ c.internalIndexes, sides[i]? = some (S i) ∧ external i = false ∧
      h'.px lab ((S i).1.1 - 1) ((S i).1.2 - 1) = some (c.id : Int) := by
    intro i hi
    obtain ⟨s, e1, e2, e3⟩ := hcI i hi
    have : S i = s := by simp only [S, e1, Option.getD_some]
    rw [this]
    exact ⟨e1, e2, e3⟩
  have hin : ∀ i ∈ c.internalIndexes, Side (Black binary.width binary.height f) (S i).1 (S i).2 ∧
      ¬Outer l.rule (Black binary.width binary.height f) (S i).1 (S i).2 := by
    intro i hi
    obtain ⟨e1, e2, -⟩ := hS i hi
    refine ⟨hone.side _ (List.mem_of_getElem? e1), fun ho => ?_⟩
    rw [(hout i _ e1).2 ho] at e2
    cases e2
  -- indexes occur once
  have hnd : (l'.contours.flatMap (fun c => c.externalIndex :: c.internalIndexes)).Nodup := hperm.nodup_iff.2 List.nodup_range
  have hndc : c.internalIndexes.Nodup := by
    have := (List.nodup_flatMap.1 hnd).1 c hc
    exact (List.nodup_cons.1 this).2
  have unl : ∀ i ∈ c.internalIndexes, ∀ j ∈ c.internalIndexes, i ≠ j →
      ¬Linked l.rule.dual (fun u => ¬Black binary.width binary.height f u) (S i).2 (S j).2 := by
    intro i hi j hj hij hw
    obtain ⟨a1, a2⟩ := hin i hi
    obtain ⟨b1, b2⟩ := hin j hj
    have hlk := s1 _ _ _ _ a1 b1 a2 b2 hw
    obtain ⟨li, gi⟩ := List.getElem?_eq_some_iff.1 (hS i hi).1
    obtain ⟨lj, gj⟩ := List.getElem?_eq_some_iff.1 (hS j hj).1
    have hpw := List.pairwise_iff_getElem.1 hone.once
    rcases Nat.lt_or_gt_of_ne hij with hlt | hlt
    · have := hpw i j li lj hlt
      rw [gi, gj] at this
      exact this ⟨hlk, hw⟩
    · have := hpw j i lj li hlt
      rw [gi, gj] at this
      exact this ⟨hlk.symm, hw.symm⟩
  refine ⟨c.internalIndexes.map (fun i => (S i).2), ⟨?_, ?_, ?_⟩, by simp⟩
  · intro q hq
    obtain ⟨i, hi, rfl⟩ := List.mem_map.1 hq
    obtain ⟨a1, a2⟩ := hin i hi
    obtain ⟨b1, b2, b3, b4⟩ := hblack _ a1.1
    refine ⟨s2 _ _ a1 a2, _, _, b1, b2, (hS i hi).2.2, ?_⟩
    rw [← b4]
    exact ⟨_, _, .refl a1.1, .refl a1.2.1, a1, a2⟩
  · rw [List.pairwise_map]
    refine (List.Pairwise.and_mem.1 hndc).imp ?_
    rintro i j ⟨hi, hj, hij⟩ hlk
    exact unl i hi j hj hij (hlk.mono (fun u hu => hu.1.1))
  · rintro q ⟨hq, x, y, hx, hy, hid, p', q', hp', hq', hside, hno⟩
    obtain ⟨s, hs, hs1, hs2⟩ := hone.all p' q' hside
    obtain ⟨i, hi, hgi⟩ := List.getElem_of_mem hs
    have hsi : sides[i]? = some s := by rw [List.getElem?_eq_getElem hi, hgi]
    have hnos : ¬Outer l.rule (Black binary.width binary.height f) s.1 s.2 := fun ho => hno (ho.same hs1 hs2)
    -- the set belongs to some contour
    have hmem : i ∈ l'.contours.flatMap (fun c => c.externalIndex :: c.internalIndexes) := by
      rw [hperm.mem_iff, List.mem_range, hnum]; exact hi
    obtain ⟨d, hd, hid'⟩ := List.mem_flatMap.1 hmem
    have hint : i ∈ d.internalIndexes := by
      rcases List.mem_cons.1 hid' with he | he
      · obtain ⟨t, ht1, ht2, -⟩ := (hcon d hd).1
        rw [← he] at ht1 ht2
        rw [hsi] at ht1
        cases ht1
        exact absurd ((hout i s hsi).1 ht2) hnos
      · exact he
    obtain ⟨t, ht1, -, ht3⟩ := (hcon d hd).2 i hint
    rw [hsi] at ht1
    cases ht1
    have hlk := (hsame s.1 (x + 1, y + 1) hs1.left hp'.left).2 (hs1.trans hp'.symm)
    simp only [Nat.add_sub_cancel] at hlk
    rw [ht3, hid, Option.some.injEq] at hlk
    have hdc : d = c := by
      have hinj : (l'.contours.map (fun c => c.id)).Nodup := by
        rw [hids]
        exact List.nodup_range.map (fun a b hab => by simpa using hab)
      exact List.inj_on_of_nodup_map hinj hd hc (by exact_mod_cast hlk)
    subst hdc
    have hSi : S i = s := by simp only [S, hsi, Option.getD_some]
    refine ⟨(S i).2, List.mem_map.2 ⟨i, hint, rfl⟩, ?_⟩
    rw [hSi]
    have hw : Linked l.rule.dual (fun u => ¬Black binary.width binary.height f u) s.2 q := hs2.trans hq'.symm
    have inv : ∀ u, Linked l.rule.dual (fun u => ¬Black binary.width binary.height f u) q u →
        (Hole l.rule (Black binary.width binary.height f) u ∧ ∃ x y, x < binary.width ∧ y < binary.height ∧
          h'.px lab x y = some (d.id : Int) ∧ Surrounds l.rule (Black binary.width binary.height f) (x + 1, y + 1) u) :=
      fun u hu => ⟨⟨hu.right, fun h0 => hq.2 (hu.trans h0)⟩, x, y, hx, hy, hid, p', q', hp', hu.symm.trans hq', hside, hno⟩
    exact (hw.symm.restrict inv).symm

/-- After `process` the number of contours is the number of components and the number of sets of points is the number of
components and holes. -/
theorem C95_sets_count_components_and_holes (hl : Labeller.Reachable h l) (ha : l.Accepts h binary labeled f fuel)
    (hr : l.process fuel binary labeled h = .ok (l', lab) h') :
    (∃ components, OnePerRegion l.rule (Black binary.width binary.height f) components) ∧
    (∃ holes, OnePerRegion l.rule.dual (Hole l.rule (Black binary.width binary.height f)) holes) ∧
    ∀ components holes, OnePerRegion l.rule (Black binary.width binary.height f) components →
      OnePerRegion l.rule.dual (Hole l.rule (Black binary.width binary.height f)) holes →
      l'.contours.length = components.length ∧ l'.packedPoints.numberOfSets = components.length + holes.length := by
  classical
  obtain ⟨g, hg, hlab⟩ := C62_labels hl ha hr
  obtain ⟨hperm, hids⟩ := C66_bookkeeping hl ha hr
  have hdone := label_done hl ha hr
  have hpx : ∀ x y, x < binary.width → y < binary.height → h'.px lab x y = some (g x y) := by
    intro x y hx hy
    exact hg x y (by rw [hdone.width]; exact hx) (by rw [hdone.height]; exact hy)
  have hidlt : ∀ c ∈ l'.contours, 1 ≤ c.id ∧ c.id ≤ l'.contours.length := by
    intro c hc
    have : c.id ∈ l'.contours.map (fun c => c.id) := List.mem_map.2 ⟨c, hc, rfl⟩
    rw [hids, List.mem_map] at this
    obtain ⟨k, hk, he⟩ := this
    rw [List.mem_range] at hk
    omega
  have hidex : ∀ k, 1 ≤ k → k ≤ l'.contours.length → ∃ c ∈ l'.contours, c.id = k := by
    intro k h1 h2
    have : k ∈ l'.contours.map (fun c => c.id) := by
      rw [hids, List.mem_map]
      exact ⟨k - 1, List.mem_range.2 (by omega), by omega⟩
    obtain ⟨c, hc, he⟩ := List.mem_map.1 this
    exact ⟨c, hc, he⟩
  -- one pixel of each component
  have hcomp : ∃ components, OnePerRegion l.rule (Black binary.width binary.height f) components ∧
      components.length = l'.contours.length := by
    have hex : ∀ k : Fin l'.contours.length, ∃ p : Nat × Nat, p.1 < binary.width ∧ p.2 < binary.height ∧ f p.1 p.2 = 1 ∧
        g p.1 p.2 = (k.val + 1 : Nat) := by
      intro k
      obtain ⟨x, y, h1, h2, h3, h4⟩ := hlab.onto (k.val + 1) (by omega) k.isLt
      exact ⟨(x, y), h1, h2, h3, h4⟩
    choose pt hpt using hex
    refine ⟨List.ofFn (fun k => ((pt k).1 + 1, (pt k).2 + 1)), ⟨?_, ?_, ?_⟩, by simp⟩
    · intro p hp
      obtain ⟨k, rfl⟩ := (List.mem_ofFn' _ _).1 hp
      obtain ⟨h1, h2, h3, -⟩ := hpt k
      exact ⟨_, _, h1, h2, h3, rfl⟩
    · rw [List.pairwise_ofFn]
      intro i j hij hlk
      obtain ⟨h1, h2, h3, h4⟩ := hpt i
      obtain ⟨k1, k2, k3, k4⟩ := hpt j
      have := (hlab.component _ _ _ _ h1 h2 k1 k2 h3 k3).2 hlk
      rw [h4, k4] at this
      omega
    · rintro q ⟨x, y, hx, hy, hf, rfl⟩
      obtain ⟨r1, r2⟩ := hlab.range x y hx hy hf
      have hk : (g x y).toNat - 1 < l'.contours.length := by omega
      obtain ⟨h1, h2, h3, h4⟩ := hpt ⟨_, hk⟩
      refine ⟨_, (List.mem_ofFn' _ _).2 ⟨⟨_, hk⟩, rfl⟩, ?_⟩
      rw [← hlab.component _ _ _ _ h1 h2 hx hy h3 hf, h4]
      simp only
      omega
  -- one pixel of each hole
  have hhole : ∃ holes, OnePerRegion l.rule.dual (Hole l.rule (Black binary.width binary.height f)) holes ∧
      holes.length = (l'.contours.map (fun c => c.internalIndexes.length)).sum := by
    choose H hH hlenH using C95_internal_sets_are_holes hl ha hr
    refine ⟨l'.contours.attach.flatMap (fun c => H c.1 c.2), ⟨?_, ?_, ?_⟩, ?_⟩
    · intro q hq
      obtain ⟨c, -, hc⟩ := List.mem_flatMap.1 hq
      exact ((hH c.1 c.2).inside q hc).1
    · rw [List.pairwise_flatMap]
      constructor
      · intro c _
        refine (List.Pairwise.and_mem.1 (hH c.1 c.2).once).imp ?_
        rintro p q ⟨hp, hq, hn⟩ hlk
        refine hn (hlk.restrict ?_)
        obtain ⟨-, x, y, hx, hy, hid, a, b, h1, h2, h3, h4⟩ := (hH c.1 c.2).inside p hp
        intro u hu
        exact ⟨hu.right, x, y, hx, hy, hid, a, b, h1, (hu.mono (fun _ hv => hv.1)).symm.trans h2, h3, h4⟩
      · have hnd : l'.contours.attach.Pairwise (fun c d => c.1.id ≠ d.1.id) := by
          have h0 : (l'.contours.map (fun c => c.id)).Nodup := by
            rw [hids]
            exact List.nodup_range.map (fun a b hab => by simpa using hab)
          have hm : l'.contours.attach.map Subtype.val = l'.contours := List.attach_map_subtype_val _
          rw [← hm] at h0
          unfold List.Nodup at h0
          rw [List.map_map, List.pairwise_map] at h0
          exact h0
        refine hnd.imp ?_
        intro c d hcd p hp q hq hlk
        obtain ⟨hhp, x, y, hx, hy, hid, hsur⟩ := (hH c.1 c.2).inside p hp
        obtain ⟨-, x', y', hx', hy', hid', a, b, h1, h2, h3, h4⟩ := (hH d.1 d.2).inside q hq
        have hsur' : Surrounds l.rule (Black binary.width binary.height f) (x' + 1, y' + 1) p :=
          ⟨a, b, h1, (hlk.mono (fun _ hv => hv.1)).trans h2, h3, h4⟩
        have hlk' := (C95_one_component_surrounds l.rule binary.width binary.height f p hhp).2 _ _ hsur hsur'
        have blk : ∀ {x y : Nat}, Black binary.width binary.height f (x + 1, y + 1) → f x y = 1 := by
          rintro x y ⟨a, b, -, -, hf, he⟩
          simp only [Prod.mk.injEq, Nat.add_right_cancel_iff] at he
          rw [he.1, he.2]; exact hf
        have := (hlab.component _ _ _ _ hx hy hx' hy' (blk hlk'.left) (blk hlk'.right)).2 hlk'
        rw [hpx _ _ hx hy, Option.some.injEq] at hid
        rw [hpx _ _ hx' hy', Option.some.injEq] at hid'
        rw [hid, hid'] at this
        exact hcd (by exact_mod_cast this)
    · intro q hq
      obtain ⟨p, hsur⟩ := (C95_one_component_surrounds l.rule binary.width binary.height f q hq).1
      have hb : Black binary.width binary.height f p := by
        obtain ⟨a, -, h1, -⟩ := hsur
        exact h1.left
      obtain ⟨x, y, hx, hy, hf, rfl⟩ := hb
      obtain ⟨r1, r2⟩ := hlab.range x y hx hy hf
      obtain ⟨c, hc, hid⟩ := hidex (g x y).toNat (by omega) (by omega)
      obtain ⟨u, hu, hlk⟩ := (hH c hc).all q ⟨hq, x, y, hx, hy, by rw [hpx _ _ hx hy, hid]; congr 1; omega, hsur⟩
      exact ⟨u, List.mem_flatMap.2 ⟨⟨c, hc⟩, List.mem_attach _ _, hu⟩, hlk.mono (fun _ hv => hv.1)⟩
    · rw [List.length_flatMap]
      have hm : l'.contours.attach.map Subtype.val = l'.contours := List.attach_map_subtype_val _
      conv_rhs => rw [← hm]
      rw [List.map_map]
      congr 1
      refine List.map_congr_left ?_
      intro c _
      exact (hlenH c.1 c.2).symm
  obtain ⟨C, hC, hCl⟩ := hcomp
  obtain ⟨H, hH, hHl⟩ := hhole
  refine ⟨⟨C, hC⟩, ⟨H, hH⟩, ?_⟩
  intro C' H' hC' hH'
  rw [← hC.length_eq hC', ← hH.length_eq hH', hCl, hHl]
  refine ⟨rfl, ?_⟩
  have := hperm.length_eq
  rw [List.length_range, List.length_flatMap] at this
  rw [← this]
  clear this
  induction l'.contours with
  | nil => rfl
  | cons c cs ih =>
    simp only [List.map_cons, List.sum_cons, List.length_cons] at ih ⊢
    omega

end

/-- The white pixel in the middle of a ring is a hole. -/
theorem demo_hole : Hole .eight (Black 5 3 (fun x y => (demoPixels[y * 5 + x]?).getD 0)) (2, 2) := by
  have dec : ∀ x y : Nat, x < 5 → y < 3 → (demoPixels[y * 5 + x]?).getD 0 = 1 →
      Black 5 3 (fun x y => (demoPixels[y * 5 + x]?).getD 0) (x + 1, y + 1) := fun x y h1 h2 h3 => ⟨x, y, h1, h2, h3, rfl⟩
  have h21 := dec 1 0 (by decide) (by decide) (by decide)
  have h12 := dec 0 1 (by decide) (by decide) (by decide)
  have h32 := dec 2 1 (by decide) (by decide) (by decide)
  have h23 := dec 1 2 (by decide) (by decide) (by decide)
  constructor
  · rintro ⟨x, y, -, -, hf, he⟩
    simp only [Prod.mk.injEq] at he
    obtain ⟨rfl, rfl⟩ : x = 1 ∧ y = 1 := by omega
    exact absurd hf (by decide)
  · intro hl
    have : ∀ q, Linked .four (fun u => ¬Black 5 3 (fun x y => (demoPixels[y * 5 + x]?).getD 0) u) (2, 2) q → q = (2, 2) := by
      intro q hq
      induction hq with
      | refl _ => rfl
      | @step u v _ ha hs ih =>
        subst ih
        obtain ⟨a, b⟩ := v
        simp only [Adjacent] at ha
        exfalso
        rcases ha with ⟨rfl, h | h⟩ | ⟨rfl, h | h⟩
        · obtain rfl : b = 3 := by omega
          exact hs h23
        · obtain rfl : b = 1 := by omega
          exact hs h21
        · obtain rfl : a = 3 := by omega
          exact hs h32
        · obtain rfl : a = 1 := by omega
          exact hs h12
    have := this (0, 0) hl
    simp at this

/-- Finding the contours of this picture: two components and one hole. -/
example : ∃ components holes, OnePerRegion .eight (Black 5 3 (fun x y => (demoPixels[y * 5 + x]?).getD 0)) components ∧
    OnePerRegion .four (Hole .eight (Black 5 3 (fun x y => (demoPixels[y * 5 + x]?).getD 0))) holes ∧
    components.length = 2 ∧ holes.length = 1 := by
  obtain ⟨l', lab, h', e, -⟩ := C67_process_succeeds (demo_reachable .eight) (demo_accepts .eight)
  obtain ⟨⟨C, hC⟩, ⟨H, hH⟩, hall⟩ := C95_sets_count_components_and_holes (demo_reachable .eight) (demo_accepts .eight) e
  obtain ⟨h1, h2⟩ := hall C H hC hH
  have : (match (demoLabeller .eight).process 1000 demoPicture demoLabels demoHeap with
    | .ok r _ => (r.1.contours.length, r.1.packedPoints.numberOfSets) | _ => (0, 0)) = (2, 3) := by decide +kernel
  rw [e] at this
  simp only [Prod.mk.injEq] at this
  exact ⟨C, H, hC, hH, by omega, by omega⟩

end Boof
