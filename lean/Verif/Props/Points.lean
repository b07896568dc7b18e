import Verif.Proofs.Points
import Verif.Props.Contour
/-
C119: how many points the contours have, and which pixels they list.
-/
namespace Boof

theorem raster_succ (w n : Nat) : raster w (n + 1) = raster w n ++ (List.range w).map (fun x => (x + 1, n + 1)) := by
  simp [raster, List.range_succ]

theorem row_count (f : Nat → Nat → Int) {W H : Nat} (n : Nat) (hn : n < H) (w : Nat) (hw : w ≤ W) :
    (((List.range w).map (fun x => (x + 1, n + 1))).countP (framed W H f) : Int) = sumN w (fun x => if f x n = 1 then 1 else 0) := by
  induction w with
  | zero => rfl
  | succ w ih =>
    rw [List.range_succ, List.map_append, List.countP_append, Int.natCast_add, ih (by omega), sumN]
    congr 1
    rw [List.map_cons, List.map_nil, List.countP_singleton]
    by_cases hf : f w n = 1
    · rw [if_pos ((framed_eq (by omega) hn).2 hf), if_pos hf]; rfl
    · rw [if_neg (fun h => hf ((framed_eq (by omega) hn).1 h)), if_neg hf]; rfl

theorem raster_count (w : Nat) (f : Nat → Nat → Int) {H : Nat} (ht : Nat) (h : ht ≤ H) :
    ((raster w ht).countP (framed w H f) : Int) = pixelCount w ht f 1 := by
  induction ht with
  | zero => rfl
  | succ n ih =>
    rw [raster_succ, List.countP_append, Int.natCast_add, ih (by omega), row_count f n (by omega) w (Nat.le_refl _)]
    rfl

theorem kept_sublist {α β : Type} (g : α → β) (K : Nat → List α → Prop) [∀ i c, Decidable (K i c)] (L : List (List α)) :
    ((L.mapIdx (fun i c => if K i c then c.map g else [])).flatten).Sublist (L.flatten.map g) := by
  induction L generalizing K with
  | nil => exact List.Sublist.refl _
  | cons c L ih =>
    rw [List.mapIdx_cons, List.flatten_cons, List.flatten_cons, List.map_append]
    refine List.Sublist.append ?_ (ih (fun i c => K (i + 1) c))
    split
    · exact List.Sublist.refl _
    · exact List.nil_sublist _

theorem pointOf_inj {p q : Nat × Nat} (h : pointOf p = pointOf q) : p = q := by
  obtain ⟨a, b⟩ := p
  obtain ⟨c, d⟩ := q
  unfold pointOf at h
  simp only [Point2D.mk.injEq] at h
  ext <;> simp only <;> omega

/-- The points of the contours, in terms of the boundaries of the picture. -/
theorem points_rep {h h' : Heap Int} {l l' : Labeller} {binary labeled lab : Gray} {f : Nat → Nat → Int} {fuel : Nat}
    (hl : Labeller.Reachable h l) (ha : l.Accepts h binary labeled f fuel)
    (hr : l.process fuel binary labeled h = .ok (l', lab) h') :
    ∃ (sides : List ((Nat × Nat) × (Nat × Nat))) (paths : List (List (Nat × Nat))) (external : Nat → Bool),
      OnePerBoundary l.rule (Black binary.width binary.height f) sides ∧ paths.length = sides.length ∧
      (∀ (i : Nat) s path, sides[i]? = some s → paths[i]? = some path → Around l.rule (Black binary.width binary.height f) s path) ∧
      Observes l'.packedPoints (paths.mapIdx (fun i path =>
        if l.limits.Keeps (external i) path.length then path.map pointOf else [])) ∧
      (∀ q, paths.flatten.count q ≤ 4) ∧
      (paths.flatten.length : Int) ≤ 4 * pixelCount binary.width binary.height f 1 ∧
      (∀ (i k : Nat) c d, paths[i]? = some c → paths[k]? = some d → c.length ≠ 1 → ∀ m n, m < c.length → n < d.length →
        c[m]? = d[n]? → c[(m + 1) % c.length]? = d[(n + 1) % d.length]? → i = k) := by
  have hp := label_done hl ha hr
  have hB := framed_in binary.width binary.height f
  have hrl := ruleOf_decide l.rule
  rw [black_eq]
  have hpts := hp.points
  have hor := hp.orbits
  rw [show l.rule = rl (decide (l.rule = .eight)) from hrl]
  generalize decide (l.rule = .eight) = e at *
  generalize binary.width = w at *
  generalize binary.height = ht at *
  have hmem : ∀ {i : Nat} {s}, (starts e (framed w ht f) (raster w ht))[i]? = some s → s ∈ starts e (framed w ht f) (raster w ht) :=
    fun h => List.mem_of_getElem? h
  have hs : ∀ s ∈ starts e (framed w ht f) (raster w ht),
      framed w ht f s.1 = true ∧ framed w ht f (nbA s.1 (startAx s.2)) = false := fun s h => starts_side hB h
  have hor' := List.pairwise_map.1 hor
  refine ⟨(starts e (framed w ht f) (raster w ht)).map sideOf,
    (starts e (framed w ht f) (raster w ht)).map (fun s => chain e (framed w ht f) (startSt e s)),
    fun i => ((starts e (framed w ht f) (raster w ht))[i]?.map Prod.snd).getD false, sides_one hB hor, by simp, ?_, ?_, ?_, ?_, ?_⟩
  · intro i s path hs hpth
    rw [List.getElem?_map, Option.map_eq_some_iff] at hs hpth
    obtain ⟨s, hs, rfl⟩ := hs
    obtain ⟨s', hs', rfl⟩ := hpth
    rw [hs] at hs'
    cases hs'
    obtain ⟨h1, h2⟩ := starts_side hB (hmem hs)
    exact chain_around hB h1 h2
  · apply observes_of_rep
    convert hpts using 1
    apply List.ext_getElem?
    intro i
    rw [List.getElem?_mapIdx, List.getElem?_map, List.getElem?_map]
    cases hs : (starts e (framed w ht f) (raster w ht))[i]? with
    | none => rfl
    | some s => simp only [Option.map_some]; unfold stored; simp only [hs, Option.map_some, Option.getD_some]; rfl
  · intro q
    rw [chains_charges]
    exact charges_count hB hs hor' q
  · rw [chains_charges, List.length_map]
    have := charges_length hB hs hor'
    rw [← raster_count w f ht (Nat.le_refl _)]
    omega
  · intro i k c d hc hd hl m n hm hn e1 e2
    rw [List.getElem?_map, Option.map_eq_some_iff] at hc hd
    obtain ⟨s, hsi, rfl⟩ := hc
    obtain ⟨u, huk, rfl⟩ := hd
    obtain ⟨li, gi⟩ := List.getElem?_eq_some_iff.1 hsi
    obtain ⟨lk, gk⟩ := List.getElem?_eq_some_iff.1 huk
    have g1 := good_ax (e := e) (hs s (hmem hsi)).1 (startAx_lt s.2)
    have g2 := good_ax (e := e) (hs u (hmem huk)).1 (startAx_lt u.2)
    have ho : Orb e (framed w ht f) (startSt e s) (startSt e u) := chains_step hB g1 g2 hl hm hn e1 e2
    by_contra hne
    rcases Nat.lt_or_gt_of_ne hne with h | h
    · have := List.pairwise_iff_getElem.1 hor' i k li lk h
      rw [gi, gk] at this
      exact this ho
    · have := List.pairwise_iff_getElem.1 hor' k i lk li h
      rw [gi, gk] at this
      exact this (ho.symm hB g1)

/-- After `process` no point occurs more than four times in all contours together, and all contours together have at most
four points for every foreground pixel of the picture. -/
theorem C119_at_most_four {h h' : Heap Int} {l l' : Labeller} {binary labeled lab : Gray} {f : Nat → Nat → Int} {fuel : Nat}
    (hl : Labeller.Reachable h l) (ha : l.Accepts h binary labeled f fuel)
    (hr : l.process fuel binary labeled h = .ok (l', lab) h') :
    ∃ sets, Observes l'.packedPoints sets ∧ (∀ q, sets.flatten.count q ≤ 4) ∧
      (sets.flatten.length : Int) ≤ 4 * pixelCount binary.width binary.height f 1 := by
  obtain ⟨sides, paths, external, -, -, -, h4, h5, h6, -⟩ := points_rep hl ha hr
  have hsub := kept_sublist pointOf (fun i (path : List (Nat × Nat)) => l.limits.Keeps (external i) path.length) paths
  refine ⟨_, h4, ?_, ?_⟩
  · intro q
    refine Nat.le_trans (hsub.count_le q) ?_
    by_cases hq : ∃ p, pointOf p = q
    · obtain ⟨p, rfl⟩ := hq
      rw [List.count_map_of_injective _ _ (fun _ _ h => pointOf_inj h)]
      exact h5 p
    · rw [List.count_eq_zero_of_not_mem]
      · omega
      · intro hm
        obtain ⟨p, -, hp⟩ := List.mem_map.1 hm
        exact hq ⟨p, hp⟩
  · have := hsub.length_le
    rw [List.length_map] at this
    omega

/-- If all contours are kept then they list exactly the boundary pixels: the foreground pixels with a neighbour in the
background, outside of the picture being background.  The neighbours are those of the rule for the background. -/
theorem C119_boundary {h h' : Heap Int} {l l' : Labeller} {binary labeled lab : Gray} {f : Nat → Nat → Int} {fuel : Nat}
    (hl : Labeller.Reachable h l) (ha : l.Accepts h binary labeled f fuel)
    (hmin : l.minContourSize ≤ 1) (hmax : 4 * pixelCount binary.width binary.height f 1 < l.maxContourSize)
    (hint : l.saveInternalContours = true)
    (hr : l.process fuel binary labeled h = .ok (l', lab) h') :
    ∃ sets, Observes l'.packedPoints sets ∧ ∀ u : Point2D, u ∈ sets.flatten ↔
      ∃ p, pointOf p = u ∧ Black binary.width binary.height f p ∧
        ∃ v, Adjacent l.rule.dual p v ∧ ¬Black binary.width binary.height f v := by
  obtain ⟨sides, paths, external, h1, h2, h3, h4, h5, h6, -⟩ := points_rep hl ha hr
  refine ⟨_, h4, ?_⟩
  have hlen : ∀ path ∈ paths, path.length ≤ paths.flatten.length := by
    intro path hm
    obtain ⟨l1, l2, e⟩ := List.append_of_mem hm
    rw [e, List.flatten_append, List.flatten_cons, List.length_append, List.length_append]
    omega
  have hkeep : ∀ (i : Nat) (path : List (Nat × Nat)), paths[i]? = some path → l.limits.Keeps (external i) path.length := by
    intro i path hi
    obtain ⟨hlt, he⟩ := List.getElem?_eq_some_iff.1 hi
    have har := h3 i sides[i] path (List.getElem?_eq_getElem (by omega)) hi
    have hne : path ≠ [] := by
      rintro rfl
      have := har.closed.head
      simp at this
    have hpos := List.length_pos_iff.2 hne
    have hle := hlen path (List.mem_of_getElem? hi)
    refine ⟨Or.inr hint, ?_, ?_⟩
    · show l.minContourSize ≤ _; omega
    · show _ < l.maxContourSize; omega
  have hBl : ∀ p, Black binary.width binary.height f p → 1 ≤ p.1 ∧ 1 ≤ p.2 := by
    rintro p ⟨x, y, -, -, -, rfl⟩; exact ⟨by simp, by simp⟩
  -- a side lies on a path
  have hside : ∀ p q r v, Side (Black binary.width binary.height f) p q → Linked l.rule (Black binary.width binary.height f) p r →
      Adjacent l.rule.dual r v → Linked l.rule.dual (fun q => ¬Black binary.width binary.height f q) q v → r ∈ paths.flatten := by
    intro p q r v hs hpr hrv hqv
    obtain ⟨s, hm, hsb⟩ := h1.all p q hs
    obtain ⟨i, hi, rfl⟩ := List.mem_iff_getElem.1 hm
    have har := h3 i sides[i] paths[i] (List.getElem?_eq_getElem hi) (List.getElem?_eq_getElem (by omega))
    exact List.mem_flatten.2 ⟨_, List.getElem_mem (by omega), (har.pixels r).2 ⟨hsb.1.trans hpr, v, hrv, hsb.2.trans hqv⟩⟩
  intro u
  constructor
  · intro hu
    obtain ⟨c, hc, huc⟩ := List.mem_flatten.1 hu
    obtain ⟨i, hi, rfl⟩ := List.mem_mapIdx.1 hc
    rw [if_pos (hkeep i _ (List.getElem?_eq_getElem hi))] at huc
    obtain ⟨p, hp, rfl⟩ := List.mem_map.1 huc
    have har := h3 i sides[i] paths[i] (List.getElem?_eq_getElem (by omega)) (List.getElem?_eq_getElem hi)
    obtain ⟨x1, v, x2, x3⟩ := (har.pixels p).1 hp
    exact ⟨p, rfl, x1.right, v, x2, x3.right⟩
  · rintro ⟨p, rfl, hp, v, hv, hw⟩
    have hmem : p ∈ paths.flatten := by
      obtain ⟨p1, p2⟩ := hBl p hp
      cases hrule : l.rule with
      | eight =>
        rw [hrule] at hside hv
        exact hside p v p v ⟨hp, hw, hv⟩ (.refl hp) hv (.refl hw)
      | four =>
        rw [hrule] at hside hv
        obtain ⟨j, hj, rfl⟩ := (adj8_iff p1 p2).1 hv
        rcases Nat.mod_two_eq_zero_or_one j with h0 | h0
        · obtain ⟨b, rfl⟩ : ∃ b, j = 2 * b := ⟨j / 2, by omega⟩
          exact hside p _ p _ ⟨hp, hw, (adj4_iff p1 p2).2 ⟨b, by omega, rfl⟩⟩ (.refl hp) hv (.refl hw)
        · obtain ⟨b, rfl⟩ : ∃ b, j = 2 * b + 1 := ⟨j / 2, by omega⟩
          obtain ⟨a1, a2, a3, a4, a5, a6⟩ := geo_adj (p := p) (a := b) p1 p2 (by omega)
          by_cases hb : Black binary.width binary.height f (nbA p b)
          · exact hside (nbA p b) (diag p b) p (diag p b) ⟨hb, hw, a1⟩ ((Linked.refl hb).step a6.symm hp) hv (.refl hw)
          · exact hside p (nbA p b) p (diag p b) ⟨hp, hb, a6⟩ (.refl hp) hv ((Linked.refl hb).step a1.weaken hw)
    obtain ⟨path, hm, hpp⟩ := List.mem_flatten.1 hmem
    obtain ⟨i, hi, rfl⟩ := List.mem_iff_getElem.1 hm
    refine List.mem_flatten.2 ⟨_, List.mem_mapIdx.2 ⟨i, hi, rfl⟩, ?_⟩
    rw [if_pos (hkeep i _ (List.getElem?_eq_getElem hi))]
    exact List.mem_map.2 ⟨p, hpp, rfl⟩

/-- A step from one pixel to the next occurs only once in all contours together: if two contours make the same step then
they are the same contour, at the same place. -/
theorem C119_steps {h h' : Heap Int} {l l' : Labeller} {binary labeled lab : Gray} {f : Nat → Nat → Int} {fuel : Nat}
    (hl : Labeller.Reachable h l) (ha : l.Accepts h binary labeled f fuel)
    (hr : l.process fuel binary labeled h = .ok (l', lab) h') :
    ∃ sets, Observes l'.packedPoints sets ∧ ∀ (i k : Nat) c d, sets[i]? = some c → sets[k]? = some d → c.length ≠ 1 →
      ∀ m n, m < c.length → n < d.length → c[m]? = d[n]? → c[(m + 1) % c.length]? = d[(n + 1) % d.length]? → i = k ∧ m = n := by
  obtain ⟨sides, paths, external, h1, h2, h3, h4, -, -, h7⟩ := points_rep hl ha hr
  refine ⟨_, h4, ?_⟩
  intro i k c d hc hd hl1 m n hm hn e1 e2
  rw [List.getElem?_mapIdx, Option.map_eq_some_iff] at hc hd
  obtain ⟨c', hc', hc⟩ := hc
  obtain ⟨d', hd', hd⟩ := hd
  have hce : c = c'.map pointOf := by
    rw [← hc] at hm ⊢
    split
    · rfl
    · rename_i hh
      rw [if_neg hh] at hm
      exact absurd hm (Nat.not_lt_zero _)
  have hde : d = d'.map pointOf := by
    rw [← hd] at hn ⊢
    split
    · rfl
    · rename_i hh
      rw [if_neg hh] at hn
      exact absurd hn (Nat.not_lt_zero _)
  rw [hce, List.length_map] at hm hl1
  rw [hde, List.length_map] at hn
  have inj : ∀ {a b : Option (Nat × Nat)}, a.map pointOf = b.map pointOf → a = b := by
    intro a b hab
    cases a <;> cases b <;> simp only [Option.map_none, Option.map_some] at hab
    · rfl
    · cases hab
    · cases hab
    · rw [pointOf_inj (Option.some.inj hab)]
  rw [hce, hde, List.getElem?_map, List.getElem?_map] at e1
  rw [hce, hde, List.length_map, List.length_map, List.getElem?_map, List.getElem?_map] at e2
  have e1 := inj e1
  have e2 := inj e2
  obtain rfl := h7 i k c' d' hc' hd' hl1 m n hm hn e1 e2
  rw [hc'] at hd'
  obtain rfl := Option.some.inj hd'
  refine ⟨rfl, ?_⟩
  obtain ⟨li, -⟩ := List.getElem?_eq_some_iff.1 hc'
  have har := h3 i sides[i] c' (List.getElem?_eq_getElem (by omega)) hc'
  by_contra hne
  rcases Nat.lt_or_gt_of_ne hne with h | h
  · exact har.once m n h hn e1 e2
  · exact har.once n m h hm e1.symm e2.symm

/-- The hypotheses are met by the ring and the single pixel of the examples for C61 to C67. -/
example (r : ConnectRule) : Labeller.Reachable demoHeap (demoLabeller r) ∧
    (demoLabeller r).Accepts demoHeap demoPicture demoLabels (fun x y => (demoPixels[y * 5 + x]?).getD 0) 1000 ∧
    (demoLabeller r).minContourSize ≤ 1 ∧
    4 * pixelCount demoPicture.width demoPicture.height (fun x y => (demoPixels[y * 5 + x]?).getD 0) 1 < (demoLabeller r).maxContourSize ∧
    (demoLabeller r).saveInternalContours = true :=
  ⟨demo_reachable r, demo_accepts r, Nat.zero_le _, by cases r <;> decide +kernel, rfl⟩

/-- The bound is attained: the middle of a cross is listed four times. -/
example : (match (demoLabeller .four).process 1000 ⟨0, 9, 3, 3, 0, 3, false⟩ demoLabels
      ⟨[some [0, 1, 0, 1, 1, 1, 0, 1, 0], some [7, 7], some []]⟩ with
    | .ok r _ => (match r.1.packedPoints.loadSet 0 [] with | .ok c _ => (c.count ⟨1, 1⟩, c.length) | _ => (0, 0)) | _ => (0, 0)) = (4, 8) := by decide +kernel

end Boof
