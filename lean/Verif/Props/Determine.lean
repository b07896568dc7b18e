import Verif.Proofs.Determine
import Verif.Props.Points
/-
C121: the contours determine the picture.
-/
namespace Boof

/-- The queries of a packed set have only one answer. -/
theorem Observes.unique {V : Type} {p : PackedSet V} {L L' : List (List V)} (h : Observes p L) (h' : Observes p L') : L = L' := by
  have hlen : L.length = L'.length := by rw [← h.number, ← h'.number]
  apply List.ext_getElem hlen
  intro i hi hi'
  have e1 := h.load_ok i _ [] (List.getElem?_eq_getElem hi)
  have e2 := h'.load_ok i _ [] (List.getElem?_eq_getElem hi')
  rw [e1] at e2
  simpa using e2

/-- What is stored when every contour is kept. -/
theorem all_contours {h h' : Heap Int} {l l' : Labeller} {binary labeled lab : Gray} {f : Nat → Nat → Int} {fuel : Nat}
    (hl : Labeller.Reachable h l) (ha : l.Accepts h binary labeled f fuel)
    (hmin : l.minContourSize ≤ 1) (hmax : 4 * pixelCount binary.width binary.height f 1 < l.maxContourSize)
    (hint : l.saveInternalContours = true)
    (hr : l.process fuel binary labeled h = .ok (l', lab) h') {e : Bool} (he : decide (l.rule = .eight) = e) :
    Observes l'.packedPoints ((starts e (framed binary.width binary.height f) (raster binary.width binary.height)).map
      (fun s => (chain e (framed binary.width binary.height f) (startSt e s)).map pointOf)) := by
  subst he
  have hp := label_done hl ha hr
  have hB := framed_in binary.width binary.height f
  have hpts := hp.points
  have hor' := List.pairwise_map.1 hp.orbits
  generalize decide (l.rule = .eight) = e at *
  generalize binary.width = w at *
  generalize binary.height = ht at *
  have hs : ∀ s ∈ starts e (framed w ht f) (raster w ht),
      framed w ht f s.1 = true ∧ framed w ht f (nbA s.1 (startAx s.2)) = false := fun s h => starts_side hB h
  have htot : (((starts e (framed w ht f) (raster w ht)).map
      (fun s => chain e (framed w ht f) (startSt e s))).flatten.length : Int) ≤ 4 * pixelCount w ht f 1 := by
    rw [chains_charges, List.length_map]
    have := charges_length hB hs hor'
    rw [← raster_count w f ht (Nat.le_refl _)]
    omega
  apply observes_of_rep
  convert hpts using 1
  apply List.map_congr_left
  intro s hm
  have hle : (chain e (framed w ht f) (startSt e s)).length ≤ ((starts e (framed w ht f) (raster w ht)).map
      (fun s => chain e (framed w ht f) (startSt e s))).flatten.length := by
    obtain ⟨l1, l2, e⟩ := List.append_of_mem (List.mem_map.2 ⟨s, hm, rfl⟩ : chain e (framed w ht f) (startSt e s) ∈
      (starts e (framed w ht f) (raster w ht)).map (fun s => chain e (framed w ht f) (startSt e s)))
    rw [e, List.flatten_append, List.flatten_cons, List.length_append, List.length_append]
    omega
  have hpos : 0 < (chain e (framed w ht f) (startSt e s)).length := by
    apply List.length_pos_iff.2
    intro h0
    have := (chain_path hB (good_ax (e := e) (hs s hm).1 (startAx_lt s.2))).head
    change (chain e (framed w ht f) (startSt e s)).head? = _ at this
    rw [h0] at this
    simp at this
  unfold stored
  rw [if_pos]
  · rfl
  · refine ⟨Or.inr hint, ?_, ?_⟩
    · show l.minContourSize ≤ _; omega
    · show _ < l.maxContourSize; omega

/-- If all contours are kept and two pictures have the same contours, in whatever order the contours are listed, then the
pictures have the same foreground pixels.  The pictures may come from different labellers with the same rule, and may have
different shapes. -/
theorem C121_contours_determine {h h' k k' : Heap Int} {l l' m m' : Labeller} {binary labeled lab binary' labeled' lab' : Gray}
    {f g : Nat → Nat → Int} {fuel fuel' : Nat}
    (hl : Labeller.Reachable h l) (ha : l.Accepts h binary labeled f fuel)
    (hmin : l.minContourSize ≤ 1) (hmax : 4 * pixelCount binary.width binary.height f 1 < l.maxContourSize)
    (hint : l.saveInternalContours = true)
    (hm : Labeller.Reachable k m) (hb : m.Accepts k binary' labeled' g fuel')
    (hmin' : m.minContourSize ≤ 1) (hmax' : 4 * pixelCount binary'.width binary'.height g 1 < m.maxContourSize)
    (hint' : m.saveInternalContours = true) (hrule : l.rule = m.rule)
    (hr : l.process fuel binary labeled h = .ok (l', lab) h') (hr' : m.process fuel' binary' labeled' k = .ok (m', lab') k')
    {sets sets' : List (List Point2D)} (ho : Observes l'.packedPoints sets) (ho' : Observes m'.packedPoints sets')
    (hsame : ∀ c, c ∈ sets ↔ c ∈ sets') :
    ∀ p, Black binary.width binary.height f p ↔ Black binary'.width binary'.height g p := by
  have o1 := all_contours hl ha hmin hmax hint hr rfl
  have o2 := all_contours hm hb hmin' hmax' hint' hr' (e := decide (l.rule = .eight)) (by rw [hrule])
  rw [o1.unique ho |>.symm, o2.unique ho' |>.symm] at hsame
  generalize decide (l.rule = .eight) = e at *
  have inj : ∀ {c d : List Pix}, c.map pointOf = d.map pointOf → c = d :=
    fun h => List.map_injective_iff.2 (fun _ _ h => pointOf_inj h) h
  intro p
  have hpic := same_picture (e := e) (framed_in binary.width binary.height f) (framed_in binary'.width binary'.height g) ?_ ?_ p
  · rw [black_eq, black_eq]
    show framed _ _ _ p = true ↔ framed _ _ _ p = true
    rw [hpic]
  · intro s hs
    obtain ⟨s', h1, h2⟩ := List.mem_map.1 ((hsame _).1 (List.mem_map.2 ⟨s, hs, rfl⟩))
    exact ⟨s', h1, (inj h2).symm⟩
  · intro s' hs'
    obtain ⟨s, h1, h2⟩ := List.mem_map.1 ((hsame _).2 (List.mem_map.2 ⟨s', hs', rfl⟩))
    exact ⟨s, h1, inj h2⟩

/-- Two different pictures of the same shape have different contours. -/
theorem C121_different {h h' k k' : Heap Int} {l l' m m' : Labeller} {binary labeled lab binary' labeled' lab' : Gray}
    {f g : Nat → Nat → Int} {fuel fuel' : Nat}
    (hl : Labeller.Reachable h l) (ha : l.Accepts h binary labeled f fuel)
    (hmin : l.minContourSize ≤ 1) (hmax : 4 * pixelCount binary.width binary.height f 1 < l.maxContourSize)
    (hint : l.saveInternalContours = true)
    (hm : Labeller.Reachable k m) (hb : m.Accepts k binary' labeled' g fuel')
    (hmin' : m.minContourSize ≤ 1) (hmax' : 4 * pixelCount binary'.width binary'.height g 1 < m.maxContourSize)
    (hint' : m.saveInternalContours = true) (hrule : l.rule = m.rule)
    (hr : l.process fuel binary labeled h = .ok (l', lab) h') (hr' : m.process fuel' binary' labeled' k = .ok (m', lab') k')
    (hw : binary.width = binary'.width) (hht : binary.height = binary'.height)
    {x y : Nat} (hx : x < binary.width) (hy : y < binary.height) (hd : f x y ≠ g x y)
    {sets sets' : List (List Point2D)} (ho : Observes l'.packedPoints sets) (ho' : Observes m'.packedPoints sets') :
    ∃ c, ¬(c ∈ sets ↔ c ∈ sets') := by
  by_contra hno
  have hsame : ∀ c, c ∈ sets ↔ c ∈ sets' := fun c => Classical.byContradiction fun hc => hno ⟨c, hc⟩
  have hB := C121_contours_determine hl ha hmin hmax hint hm hb hmin' hmax' hint' hrule hr hr' ho ho' hsame (x + 1, y + 1)
  have a1 : Black binary.width binary.height f (x + 1, y + 1) ↔ f x y = 1 := by
    constructor
    · rintro ⟨a, b, -, -, h1, h2⟩
      simp only [Prod.mk.injEq, Nat.add_right_cancel_iff] at h2
      rw [h2.1, h2.2]; exact h1
    · intro h1; exact ⟨x, y, hx, hy, h1, rfl⟩
  have a2 : Black binary'.width binary'.height g (x + 1, y + 1) ↔ g x y = 1 := by
    constructor
    · rintro ⟨a, b, -, -, h1, h2⟩
      simp only [Prod.mk.injEq, Nat.add_right_cancel_iff] at h2
      rw [h2.1, h2.2]; exact h1
    · intro h1; exact ⟨x, y, by omega, by omega, h1, rfl⟩
  rw [a1, a2] at hB
  rcases ha.bits x y hx hy with h1 | h1 <;> rcases hb.bits x y (by omega) (by omega) with h2 | h2 <;> rw [h1, h2] at hd hB <;>
    first | exact hd rfl | (have := hB; simp at this)

/-! ### Examples -/

/-- The ring and the single pixel of the other examples, with the hole of the ring filled. -/
def filledPixels : List Int := [1, 1, 1, 0, 0,  1, 1, 1, 0, 1,  1, 1, 1, 0, 0]
def filledHeap0 : Heap Int := ⟨[some filledPixels, some [7, 7]]⟩
def filledHeap : Heap Int := ⟨[some filledPixels, some [7, 7], some []]⟩

theorem filled_reachable (r : ConnectRule) : Labeller.Reachable filledHeap (demoLabeller r) :=
  .new (rule := r) (junk := demoJunk) (h := filledHeap0) rfl

theorem filled_accepts (r : ConnectRule) : (demoLabeller r).Accepts filledHeap demoPicture demoLabels
    (fun x y => (filledPixels[y * 5 + x]?).getD 0) 1000 where
  valid := by decide
  shows := by
    have h : ∀ x, x < 5 → ∀ y, y < 3 → filledHeap.px demoPicture x y = some ((filledPixels[y * 5 + x]?).getD 0) := by decide
    exact fun x y hx hy => h x hx y hy
  bits := by
    have h : ∀ x, x < 5 → ∀ y, y < 3 → (filledPixels[y * 5 + x]?).getD 0 = 0 ∨ (filledPixels[y * 5 + x]?).getD 0 = 1 := by decide
    exact fun x y hx hy => h x hx y hy
  size := (demo_accepts r).size
  labelValid := by decide
  labelShape := (demo_accepts r).labelShape
  labelStride := (demo_accepts r).labelStride
  apart := (demo_accepts r).apart
  foreign := (demo_accepts r).foreign
  fuelEnough := (demo_accepts r).fuelEnough

/-- The hypotheses are met by these two pictures, which differ in one pixel. -/
example (r : ConnectRule) : ∃ h' k' l' m' lab lab',
    (demoLabeller r).process 1000 demoPicture demoLabels demoHeap = .ok (l', lab) h' ∧
    (demoLabeller r).process 1000 demoPicture demoLabels filledHeap = .ok (m', lab') k' ∧
    4 * pixelCount demoPicture.width demoPicture.height (fun x y => (filledPixels[y * 5 + x]?).getD 0) 1 < (demoLabeller r).maxContourSize ∧
    ∃ sets sets', Observes l'.packedPoints sets ∧ Observes m'.packedPoints sets' ∧ ∃ c, ¬(c ∈ sets ↔ c ∈ sets') := by
  obtain ⟨l', lab, h', e1, -⟩ := C67_process_succeeds (demo_reachable r) (demo_accepts r)
  obtain ⟨m', lab', k', e2, -⟩ := C67_process_succeeds (filled_reachable r) (filled_accepts r)
  have b1 : 4 * pixelCount demoPicture.width demoPicture.height (fun x y => (demoPixels[y * 5 + x]?).getD 0) 1 <
      (demoLabeller r).maxContourSize := by cases r <;> decide +kernel
  have b2 : 4 * pixelCount demoPicture.width demoPicture.height (fun x y => (filledPixels[y * 5 + x]?).getD 0) 1 <
      (demoLabeller r).maxContourSize := by cases r <;> decide +kernel
  have o1 := all_contours (demo_reachable r) (demo_accepts r) (Nat.zero_le _) b1 rfl e1 rfl
  have o2 := all_contours (filled_reachable r) (filled_accepts r) (Nat.zero_le _) b2 rfl e2 rfl
  exact ⟨h', k', l', m', lab, lab', e1, e2, b2, _, _, o1, o2,
    C121_different (demo_reachable r) (demo_accepts r) (Nat.zero_le _) b1 rfl (filled_reachable r) (filled_accepts r) (Nat.zero_le _)
      b2 rfl rfl e1 e2 rfl rfl (x := 1) (y := 1) (by decide) (by decide) (by decide) o1 o2⟩

/-- The points of contour `i`. -/
def contourOf (r : Res (Heap Int) (Labeller × Gray)) (i : Nat) : Option (List Point2D) :=
  match r with
  | .ok r _ => (match r.1.packedPoints.loadSet i [] with | .ok c _ => some c | _ => none)
  | _ => none

/-- The internal contours are needed: the external contours of these two pictures are the same. -/
example (r : ConnectRule) :
    let outer := { demoLabeller r with saveInternalContours := false }
    let ring := outer.process 1000 demoPicture demoLabels demoHeap
    let filled := outer.process 1000 demoPicture demoLabels filledHeap
    contourOf ring 0 = contourOf filled 0 ∧ contourOf ring 1 = some [] ∧ contourOf ring 2 = contourOf filled 1 ∧
      contourOf ring 3 = none ∧ contourOf filled 2 = none ∧ contourOf ring 2 = some [⟨4, 1⟩] ∧
      (contourOf ring 0).map List.length = some 8 := by
  cases r <;> decide +kernel

end Boof
