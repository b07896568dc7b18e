import Verif.Proofs.ContourSpec
import Verif.Props.PackedSet
/-
C59-C67: contours and labels.
-/
namespace Boof
open M

/-! ## Bridges -/

theorem black_eq (w ht : Nat) (f : Nat → Nat → Int) : Black w ht f = IsB (framed w ht f) := by
  funext p
  obtain ⟨x, y⟩ := p
  refine propext ⟨?_, ?_⟩
  · rintro ⟨a, b, ha, hb, hf, e⟩
    rw [e]
    exact (framed_eq ha hb).2 hf
  · intro h
    have := of_decide_eq_true h
    simp only at this
    exact ⟨x - 1, y - 1, by omega, by omega, this.2.2.2.2, by rw [Nat.sub_add_cancel this.1, Nat.sub_add_cancel this.2.1]⟩

theorem label_refused {h : Heap Int} {l : Labeller} {binary labeled : Gray} (fuel : Nat)
    (hc : ¬labeled.CanBe binary.width binary.height) : l.process fuel binary labeled h = .throw h := by
  have hs : labeled.subimage = true := by
    cases hs : labeled.subimage
    · exact absurd (Or.inl hs) hc
    · rfl
  unfold Labeller.process
  rw [M.bind_throw (reshape_throws 0 hs (fun h => hc (Or.inr h)))]

/-- Reachable labellers satisfy the class invariant. -/
theorem Labeller.Reachable.ready {h : Heap Int} {l : Labeller} (hl : Labeller.Reachable h l) : l.Ready h := by
  induction hl with
  | @new rule junk h h' l hr =>
    obtain ⟨l1, h1, e, hd, -⟩ := new_ready rule junk h
    rw [e] at hr
    cases hr
    exact hd
  | @process h h' l l' binary labeled lab f fuel _ ha hr ih =>
    obtain ⟨⟨l1, lab1⟩, h1, e, hp⟩ := process_spec ih ha.valid ha.shows ha.bits ha.size ha.labelValid ha.labelShape ha.apart
      ha.labelStride ha.foreign.1 ha.foreign.2 ha.fuelEnough
    rw [e] at hr
    cases hr
    exact hp.ready
  | @refused h h' l binary labeled fuel _ hc hr ih =>
    rw [label_refused fuel hc] at hr
    cases hr
    exact ih
  | setConnectRule rule _ ih => exact ⟨ih.valid, ih.owns, ih.ring, ih.base4, ih.base8, ih.points, ih.block⟩
  | setLimits a b c _ ih => exact ⟨ih.valid, ih.owns, ih.ring, ih.base4, ih.base8, ih.points, ih.block⟩
  | @elsewhere h h' l _ hc hi ih =>
    refine ⟨ih.valid.transfer (by rw [hi]; exact ih.valid.live) (fun i h => by rw [hc]; exact ih.valid.cells i h), ih.owns, ?_,
      ih.base4, ih.base8, ih.points, ih.block⟩
    intro x y hx hy hxy
    have := ih.ring x y hx hy hxy
    unfold Heap.px at this ⊢
    rw [hc]; exact this

theorem label_run {h : Heap Int} {l : Labeller} {binary labeled : Gray} {f : Nat → Nat → Int} {fuel : Nat}
    (hl : Labeller.Reachable h l) (ha : l.Accepts h binary labeled f fuel) :
    Spec (l.process fuel binary labeled) h (fun r h' => Processed f h h' l r.1 binary labeled r.2) :=
  process_spec hl.ready ha.valid ha.shows ha.bits ha.size ha.labelValid ha.labelShape ha.apart
      ha.labelStride ha.foreign.1 ha.foreign.2 ha.fuelEnough

theorem label_done {h h' : Heap Int} {l l' : Labeller} {binary labeled lab : Gray} {f : Nat → Nat → Int} {fuel : Nat}
    (hl : Labeller.Reachable h l) (ha : l.Accepts h binary labeled f fuel)
    (hr : l.process fuel binary labeled h = .ok (l', lab) h') : Processed f h h' l l' binary labeled lab := by
  obtain ⟨⟨l1, lab1⟩, h1, e, hp⟩ := label_run hl ha
  rw [e] at hr
  cases hr
  exact hp

/-! ## C67 -/

/-- `process` succeeds on every picture: no exception, no invalid access and no endless contour.  This includes pictures
without pixels.  The picture is not changed, nor is any other array than those of the label image and of the labeller. -/
theorem C67_process_succeeds {h : Heap Int} {l : Labeller} {binary labeled : Gray} {f : Nat → Nat → Int} {fuel : Nat}
    (hl : Labeller.Reachable h l) (ha : l.Accepts h binary labeled f fuel) :
    ∃ l' lab h', l.process fuel binary labeled h = .ok (l', lab) h' ∧
      lab.width = binary.width ∧ lab.height = binary.height ∧ lab.Valid h' ∧
      binary.Valid h' ∧ binary.Shows h' f ∧
      (∀ b i, b ≠ labeled.buf → b ≠ l.border.buf → b < h.next → h'.cell b i = h.cell b i) ∧
      (labeled.width = binary.width → labeled.height = binary.height → lab = labeled ∧
        ∀ b i, b ≠ l.border.buf → b < h.next →
          (∀ x y, x < lab.width → y < lab.height → ¬(b = lab.buf ∧ i = lab.addr x y)) → h'.cell b i = h.cell b i) := by
  obtain ⟨⟨l1, lab1⟩, h1, e, hp⟩ := label_run hl ha
  exact ⟨l1, lab1, h1, e, hp.width, hp.height, hp.valid, hp.input.1, hp.input.2, hp.frame, hp.inPlace⟩

/-- A label image which is a sub-image of another shape is refused and nothing changes. -/
theorem C67_refused (h : Heap Int) (l : Labeller) {binary labeled : Gray} (fuel : Nat) (hs : labeled.subimage = true)
    (hw : labeled.width ≠ binary.width ∨ labeled.height ≠ binary.height) :
    l.process fuel binary labeled h = .throw h := by
  refine label_refused fuel ?_
  rintro (hc | ⟨h1, h2⟩)
  · rw [hs] at hc; cases hc
  · rcases hw with hw | hw
    · exact hw h1
    · exact hw h2

/-! ## A concrete case

A ring next to a single pixel.  The labeller is new; the label image has another shape before. -/

/-- some tracer before its construction -/
def demoJunk : Tracer := ⟨0, .four, 0, none, none, 0, 0, 0, 0, 0, 0, [], [], []⟩
def demoPixels : List Int := [1, 1, 1, 0, 0,  1, 0, 1, 0, 1,  1, 1, 1, 0, 0]
def demoPicture : Gray := ⟨0, 15, 5, 3, 0, 5, false⟩
def demoLabels : Gray := ⟨1, 2, 2, 1, 0, 2, false⟩
def demoHeap0 : Heap Int := ⟨[some demoPixels, some [7, 7]]⟩
def demoHeap : Heap Int := ⟨[some demoPixels, some [7, 7], some []]⟩
def demoLabeller (r : ConnectRule) : Labeller :=
  { minContourSize := 0, maxContourSize := 4294967295, saveInternalContours := true, tracer4 := Tracer.new .four demoJunk,
    tracer8 := Tracer.new .eight demoJunk, rule := r, border := ⟨2, 0, 0, 0, 0, 0, false⟩,
    packedPoints := PackedSet.new ⟨0, 0⟩ 2000, contours := [] }

theorem demo_reachable (r : ConnectRule) : Labeller.Reachable demoHeap (demoLabeller r) :=
  .new (rule := r) (junk := demoJunk) (h := demoHeap0) rfl

theorem demo_accepts (r : ConnectRule) : (demoLabeller r).Accepts demoHeap demoPicture demoLabels
    (fun x y => (demoPixels[y * 5 + x]?).getD 0) 1000 where
  valid := by decide
  shows := by
    have h : ∀ x, x < 5 → ∀ y, y < 3 → demoHeap.px demoPicture x y = some ((demoPixels[y * 5 + x]?).getD 0) := by decide
    exact fun x y hx hy => h x hx y hy
  bits := by
    have h : ∀ x, x < 5 → ∀ y, y < 3 → (demoPixels[y * 5 + x]?).getD 0 = 0 ∨ (demoPixels[y * 5 + x]?).getD 0 = 1 := by decide
    exact fun x y hx hy => h x hx y hy
  size := by decide
  labelValid := by decide
  labelShape := Or.inl rfl
  labelStride := by decide
  apart := Or.inl (by decide)
  foreign := ⟨by show (1 : Nat) ≠ 2; decide, by show (0 : Nat) ≠ 2; decide⟩
  fuelEnough := by decide

/-- The hypotheses of C61-C67 hold for this picture, and this is what the program computes. -/
example : ∃ l' lab h', (demoLabeller .eight).process 1000 demoPicture demoLabels demoHeap = .ok (l', lab) h' ∧
    h'.get lab.buf = some [1, 1, 1, 0, 0,  1, 0, 1, 0, 2,  1, 1, 1, 0, 0] ∧
    l'.contours = [⟨1, 0, [1]⟩, ⟨2, 2, []⟩] := by
  obtain ⟨l', lab, h', e, -⟩ := C67_process_succeeds (demo_reachable .eight) (demo_accepts .eight)
  refine ⟨l', lab, h', e, ?_, ?_⟩
  · have : (match (demoLabeller .eight).process 1000 demoPicture demoLabels demoHeap with
      | .ok r h' => h'.get r.2.buf | _ => none) = some [1, 1, 1, 0, 0,  1, 0, 1, 0, 2,  1, 1, 1, 0, 0] := by decide +kernel
    rw [e] at this; exact this
  · have : (match (demoLabeller .eight).process 1000 demoPicture demoLabels demoHeap with
      | .ok r _ => r.1.contours | _ => []) = [⟨1, 0, [1]⟩, ⟨2, 2, []⟩] := by decide +kernel
    rw [e] at this; exact this

/-- A picture without pixels. -/
example (r : ConnectRule) : (demoLabeller r).Accepts demoHeap ⟨0, 15, 0, 3, 0, 0, false⟩ demoLabels (fun _ _ => 1) 0 where
  valid := by decide
  shows := fun x y hx _ => absurd hx (Nat.not_lt_zero _)
  bits := fun x y hx _ => absurd hx (Nat.not_lt_zero _)
  size := by decide
  labelValid := by decide
  labelShape := Or.inl rfl
  labelStride := by decide
  apart := Or.inl (by decide)
  foreign := ⟨by show (1 : Nat) ≠ 2; decide, by show (0 : Nat) ≠ 2; decide⟩
  fuelEnough := by decide

/-- A label image which is refused. -/
example : (Gray.wrap 1 2 2 1 0 2).subimage = true ∧ (Gray.wrap 1 2 2 1 0 2).width ≠ demoPicture.width := by decide

/-- A labeller which has been used before, with other settings, on the same images (C65). -/
example : ∃ (l' : Labeller) (lab : Gray) (h' : Heap Int), Labeller.Reachable h' (l'.setConnectRule .four) ∧ (l'.setConnectRule .four).rule = (demoLabeller .four).rule ∧
    (l'.setConnectRule .four).limits = (demoLabeller .four).limits ∧
    (l'.setConnectRule .four).Accepts h' demoPicture lab (fun x y => (demoPixels[y * 5 + x]?).getD 0) 1000 := by
  obtain ⟨⟨l', lab⟩, h', e, hp⟩ := label_run (demo_reachable .eight) (demo_accepts .eight)
  have ha := demo_accepts .eight
  refine ⟨l', lab, h', .setConnectRule _ (.process (demo_reachable .eight) ha e), rfl, hp.limits, hp.input.1, hp.input.2, ha.bits, ha.size,
    hp.valid, Or.inr ⟨hp.width, hp.height⟩, ?_, Or.inl ?_, ⟨hp.apart, ?_⟩, ha.fuelEnough⟩
  · have : (lab.stride : Nat) = lab.width := (hp.valid.owner (by rw [hp.sub]; rfl)).2
    rw [this, hp.width]; decide
  · rcases hp.bufL with h | h
    · rw [h]; decide
    · show (0 : Nat) ≠ _
      have : (3 : Nat) ≤ lab.buf := h
      omega
  · show (0 : Nat) ≠ _
    rcases hp.bufB with h | h
    · rw [show (l'.setConnectRule .four).border.buf = l'.border.buf from rfl, h]; decide
    · rw [show (l'.setConnectRule .four).border.buf = l'.border.buf from rfl]
      have : (3 : Nat) ≤ l'.border.buf := h
      omega

/-- A labeller with limits (C64). -/
example : Labeller.Reachable demoHeap { demoLabeller .four with minContourSize := 2, maxContourSize := 8, saveInternalContours := false } :=
  .setLimits 2 8 false (demo_reachable .four)

/-! ## C62 -/

theorem labelling_ids (e : Bool) (w ht : Nat) (f : Nat → Nat → Int) (hbits : ∀ x y, x < w → y < ht → f x y = 0 ∨ f x y = 1) :
    Labelling (rl e) w ht f (fun x y => if f x y = 1 then (idOf e (framed w ht f) w ht (x + 1, y + 1) : Int) else 0)
      (firsts e (framed w ht f) (raster w ht)).length := by
  have hB := framed_in w ht f
  have hb : ∀ {x y : Nat}, x < w → y < ht → f x y = 1 → framed w ht f (x + 1, y + 1) = true :=
    fun hx hy hf => (framed_eq hx hy).2 hf
  have hS : IsB (framed w ht f) = Black w ht f := (black_eq w ht f).symm
  refine ⟨?_, ?_, ?_, ?_, ?_⟩
  · intro x y hx hy
    split
    · rename_i hf
      have := idOf_pos (e := e) hB (hb hx hy hf)
      rw [hf]
      constructor <;> intro h
      · omega
      · cases h
    · rename_i hf
      rcases hbits x y hx hy with h | h
      · simp [h]
      · exact absurd h hf
  · intro x y hx hy hf
    simp only [hf, if_true]
    have a := idOf_pos (e := e) hB (hb hx hy hf)
    have b := idOf_le_all (e := e) hB (hb hx hy hf)
    omega
  · intro k h1 h2
    obtain ⟨p, hp, hid⟩ := idOf_onto (e := e) hB (k := k - 1) (by omega)
    have hp1 : Black w ht f p := by rw [← hS]; exact hp.1
    obtain ⟨x, y, hx, hy, hf, rfl⟩ := hp1
    refine ⟨x, y, hx, hy, hf, ?_⟩
    simp only [hf, if_true]
    rw [hid]; omega
  · intro x y x' y' hx hy hx' hy' hf hf'
    simp only [hf, hf', if_true]
    rw [← hS, ← conn_iff hB]
    constructor
    · intro h
      exact idOf_inj hB (hb hx hy hf) (hb hx' hy' hf') (by omega)
    · intro h
      rw [idOf_conn hB h]
  · intro x y x' y' h1 h2
    rw [← hS, ← first_iff hB] at h1 h2
    have c1 : Black w ht f (x + 1, y + 1) := by rw [← hS]; exact h1.1
    have c2 : Black w ht f (x' + 1, y' + 1) := by rw [← hS]; exact h2.1
    obtain ⟨a, b, _, _, f1, e1⟩ := c1
    obtain ⟨a', b', _, _, f2, e2⟩ := c2
    simp only [Prod.mk.injEq, Nat.add_right_cancel_iff] at e1 e2
    rw [← e1.1, ← e1.2] at f1
    rw [← e2.1, ← e2.2] at f2
    simp only [f1, f2, if_true]
    rw [← idOf_before hB h1 h2]
    omega

/-- After `process` the label image numbers the connected components of the picture: 0 exactly on the background, equal
labels exactly on connected pixels, numbers 1 to the number of contours in the order of the first pixels. -/
theorem C62_labels {h h' : Heap Int} {l l' : Labeller} {binary labeled lab : Gray} {f : Nat → Nat → Int} {fuel : Nat}
    (hl : Labeller.Reachable h l) (ha : l.Accepts h binary labeled f fuel)
    (hr : l.process fuel binary labeled h = .ok (l', lab) h') :
    ∃ g, lab.Shows h' g ∧ Labelling l.rule binary.width binary.height f g l'.contours.length := by
  have hp := label_done hl ha hr
  have hB := framed_in binary.width binary.height f
  have hlen : l'.contours.length = (firsts (decide (l.rule = .eight)) (framed binary.width binary.height f)
      (raster binary.width binary.height)).length := by
    rw [hp.contours, book_length, (tags_facts hB hp.orbits).1]
  have := labelling_ids (decide (l.rule = .eight)) binary.width binary.height f ha.bits
  rw [← hlen, show rl (decide (l.rule = .eight)) = l.rule from (ruleOf_decide l.rule).symm] at this
  refine ⟨_, ?_, this⟩
  intro x y hx hy
  rw [hp.width] at hx; rw [hp.height] at hy
  exact hp.labels x y hx hy

/-! ## C63, C64, C61 -/

theorem boundaries_rep {h h' : Heap Int} {l l' : Labeller} {binary labeled lab : Gray} {f : Nat → Nat → Int} {fuel : Nat}
    (hl : Labeller.Reachable h l) (ha : l.Accepts h binary labeled f fuel)
    (hr : l.process fuel binary labeled h = .ok (l', lab) h') :
    ∃ (sides : List ((Nat × Nat) × (Nat × Nat))) (paths : List (List (Nat × Nat))) (external : Nat → Bool),
      OnePerBoundary l.rule (Black binary.width binary.height f) sides ∧ paths.length = sides.length ∧
      (∀ i s path, sides[i]? = some s → paths[i]? = some path →
        Around l.rule (Black binary.width binary.height f) s path ∧
        (external i = true ↔ Outer l.rule (Black binary.width binary.height f) s.1 s.2)) ∧
      PackedSet.Rep l'.packedPoints (paths.mapIdx (fun i path =>
        if l.limits.Keeps (external i) path.length then path.map pointOf else [])) ∧
      (∀ c ∈ l'.contours,
        (∃ s, sides[c.externalIndex]? = some s ∧ external c.externalIndex = true ∧
          h'.px lab (s.1.1 - 1) (s.1.2 - 1) = some (c.id : Int)) ∧
        (∀ i ∈ c.internalIndexes, ∃ s, sides[i]? = some s ∧ external i = false ∧
          h'.px lab (s.1.1 - 1) (s.1.2 - 1) = some (c.id : Int))) := by
  have hp := label_done hl ha hr
  have hB := framed_in binary.width binary.height f
  have hrl := ruleOf_decide l.rule
  rw [black_eq]
  have hlab := hp.labels
  have hpts := hp.points
  have hcon := hp.contours
  have hor := hp.orbits
  rw [show l.rule = rl (decide (l.rule = .eight)) from hrl]
  generalize decide (l.rule = .eight) = e at *
  generalize binary.width = w at *
  generalize binary.height = ht at *
  obtain ⟨t1, t2, t3, t4⟩ := tags_facts hB hor
  have hmem : ∀ {i : Nat} {s}, (starts e (framed w ht f) (raster w ht))[i]? = some s → s ∈ starts e (framed w ht f) (raster w ht) :=
    fun h => List.mem_of_getElem? h
  have hlabel : ∀ s ∈ starts e (framed w ht f) (raster w ht), h'.px lab (s.1.1 - 1) (s.1.2 - 1) =
      some (idOf e (framed w ht f) w ht s.1 : Int) := by
    intro s hs
    have hb := (starts_side hB hs).1
    obtain ⟨b1, b2, b3, b4⟩ := hB _ hb
    have e1 : ((s.1.1 - 1) + 1, (s.1.2 - 1) + 1) = s.1 := by
      rw [Nat.sub_add_cancel b1, Nat.sub_add_cancel b2]
    have hf : f (s.1.1 - 1) (s.1.2 - 1) = 1 := by
      rw [← framed_eq (w := w) (ht := ht) (by omega) (by omega), e1]; exact hb
    rw [hlab _ _ (by omega) (by omega), if_pos hf, e1]
  refine ⟨(starts e (framed w ht f) (raster w ht)).map sideOf,
    (starts e (framed w ht f) (raster w ht)).map (fun s => chain e (framed w ht f) (startSt e s)),
    fun i => ((starts e (framed w ht f) (raster w ht))[i]?.map Prod.snd).getD false, sides_one hB hor, by simp, ?_, ?_, ?_⟩
  · intro i s path hs hpth
    rw [List.getElem?_map, Option.map_eq_some_iff] at hs hpth
    obtain ⟨s, hs, rfl⟩ := hs
    obtain ⟨s', hs', rfl⟩ := hpth
    rw [hs] at hs'
    cases hs'
    obtain ⟨h1, h2⟩ := starts_side hB (hmem hs)
    refine ⟨chain_around hB h1 h2, ?_⟩
    simp only [hs, Option.map_some, Option.getD_some]
    obtain ⟨-, ⟨h3, h4⟩ | ⟨h3, h4⟩⟩ := starts_mem.1 (hmem hs)
    · have := first_outer hB h4
      simp only [h3, true_iff]
      unfold sideOf
      rw [startWhite_eq, h3]
      exact this
    · have := hole_inner hB h4
      simp only [h3, Bool.false_eq_true, false_iff]
      unfold sideOf
      rw [startWhite_eq, h3]
      exact this
  · convert hpts using 1
    apply List.ext_getElem?
    intro i
    rw [List.getElem?_mapIdx, List.getElem?_map, List.getElem?_map]
    cases hs : (starts e (framed w ht f) (raster w ht))[i]? with
    | none => rfl
    | some s => simp only [Option.map_some]; unfold stored; simp only [hs, Option.map_some, Option.getD_some]; rfl
  · intro c hc
    rw [hcon] at hc
    unfold book at hc
    obtain ⟨k, hk, rfl⟩ := List.mem_map.1 hc
    rw [List.mem_range, t1] at hk
    constructor
    · have hlt := List.idxOf_lt_length_of_mem (t2 k hk)
      have hget : ((starts e (framed w ht f) (raster w ht)).map (fun s => (idOf e (framed w ht f) w ht s.1, s.2)))[
        ((starts e (framed w ht f) (raster w ht)).map (fun s => (idOf e (framed w ht f) w ht s.1, s.2))).idxOf (k + 1, true)]? =
          some (k + 1, true) := by
        rw [List.getElem?_eq_getElem hlt, List.getElem_idxOf hlt]
      simp only
      generalize ((starts e (framed w ht f) (raster w ht)).map (fun s => (idOf e (framed w ht f) w ht s.1, s.2))).idxOf (k + 1, true) = i at *
      rw [List.getElem?_map, Option.map_eq_some_iff] at hget
      obtain ⟨s, hs, hst⟩ := hget
      simp only [Prod.mk.injEq] at hst
      refine ⟨sideOf s, by rw [List.getElem?_map, hs]; rfl, by rw [hs]; simpa using hst.2, ?_⟩
      rw [← hst.1]
      exact hlabel s (hmem hs)
    · intro i hi
      have := of_decide_eq_true (List.mem_filter.1 hi).2
      rw [List.getElem?_map, Option.map_eq_some_iff] at this
      obtain ⟨s, hs, hst⟩ := this
      simp only [Prod.mk.injEq] at hst
      refine ⟨sideOf s, by rw [List.getElem?_map, hs]; rfl, by simp [hs, hst.2], ?_⟩
      simp only
      rw [← hst.1]
      exact hlabel s (hmem hs)

/-- After `process` there is one set of points for every boundary of the picture (a boundary is where a component meets
a region of the background).  Unless it is dropped because of the limits, the set is a closed path once around its boundary.
Each contour has the path on the outside of its component as external set, and as internal sets those around its holes. -/
theorem C63_boundaries {h h' : Heap Int} {l l' : Labeller} {binary labeled lab : Gray} {f : Nat → Nat → Int} {fuel : Nat}
    (hl : Labeller.Reachable h l) (ha : l.Accepts h binary labeled f fuel)
    (hr : l.process fuel binary labeled h = .ok (l', lab) h') :
    ∃ (sides : List ((Nat × Nat) × (Nat × Nat))) (paths : List (List (Nat × Nat))) (external : Nat → Bool),
      OnePerBoundary l.rule (Black binary.width binary.height f) sides ∧ paths.length = sides.length ∧
      (∀ i s path, sides[i]? = some s → paths[i]? = some path →
        Around l.rule (Black binary.width binary.height f) s path ∧
        (external i = true ↔ Outer l.rule (Black binary.width binary.height f) s.1 s.2)) ∧
      Observes l'.packedPoints (paths.mapIdx (fun i path =>
        if l.limits.Keeps (external i) path.length then path.map pointOf else [])) ∧
      (∀ c ∈ l'.contours,
        (∃ s, sides[c.externalIndex]? = some s ∧ external c.externalIndex = true ∧
          h'.px lab (s.1.1 - 1) (s.1.2 - 1) = some (c.id : Int)) ∧
        (∀ i ∈ c.internalIndexes, ∃ s, sides[i]? = some s ∧ external i = false ∧
          h'.px lab (s.1.1 - 1) (s.1.2 - 1) = some (c.id : Int))) := by
  obtain ⟨sides, paths, external, h1, h2, h3, h4, h5⟩ := boundaries_rep hl ha hr
  exact ⟨sides, paths, external, h1, h2, h3, observes_of_rep h4, h5⟩

/-- Every contour kept by `process` is a closed chain of neighbouring black pixels. -/
theorem C61_contours_closed {h h' : Heap Int} {l l' : Labeller} {binary labeled lab : Gray} {f : Nat → Nat → Int} {fuel : Nat}
    (hl : Labeller.Reachable h l) (ha : l.Accepts h binary labeled f fuel)
    (hr : l.process fuel binary labeled h = .ok (l', lab) h') :
    ∃ sets, Observes l'.packedPoints sets ∧ ∀ c ∈ sets, c ≠ [] →
      ∃ p path, c = path.map pointOf ∧ ClosedPath l.rule (Black binary.width binary.height f) p path := by
  obtain ⟨sides, paths, ext, -, hlen, h1, h2, -⟩ := C63_boundaries hl ha hr
  refine ⟨_, h2, ?_⟩
  intro c hc hne
  obtain ⟨i, hi, rfl⟩ := List.mem_mapIdx.1 hc
  obtain ⟨ha, -⟩ := h1 i sides[i] paths[i] (List.getElem?_eq_getElem (by omega)) (List.getElem?_eq_getElem hi)
  split at hne
  · rename_i hk
    rw [if_pos hk]
    exact ⟨_, _, rfl, ha.closed⟩
  · exact absurd rfl hne

/-- Every set of points is empty or has at least the minimum and fewer than the maximum number of points; without internal
contours the internal sets are empty. -/
theorem C64_limits {h h' : Heap Int} {l l' : Labeller} {binary labeled lab : Gray} {f : Nat → Nat → Int} {fuel : Nat}
    (hl : Labeller.Reachable h l) (ha : l.Accepts h binary labeled f fuel)
    (hr : l.process fuel binary labeled h = .ok (l', lab) h') :
    ∃ sets, Observes l'.packedPoints sets ∧
      (∀ c ∈ sets, c = [] ∨ (l.minContourSize ≤ c.length ∧ c.length < l.maxContourSize)) ∧
      (l.saveInternalContours = false → ∀ c ∈ l'.contours, ∀ i ∈ c.internalIndexes, sets[i]? = some []) := by
  obtain ⟨sides, paths, ext, -, hlen, h1, h2, h3⟩ := C63_boundaries hl ha hr
  refine ⟨_, h2, ?_, ?_⟩
  · intro c hc
    obtain ⟨i, hi, rfl⟩ := List.mem_mapIdx.1 hc
    split
    · rename_i hk
      rw [List.length_map]
      exact Or.inr hk.2
    · exact Or.inl rfl
  · intro hno c hc i hi
    obtain ⟨s, hs, he, -⟩ := (h3 c hc).2 i hi
    have hlt : i < paths.length := by
      rw [hlen]; exact (List.getElem?_eq_some_iff.1 hs).1
    rw [List.getElem?_mapIdx, List.getElem?_eq_getElem hlt, Option.map_some, if_neg]
    rintro ⟨hk | hk, -⟩
    · rw [he] at hk; cases hk
    · exact absurd hk (by show ¬l.saveInternalContours = true; rw [hno]; simp)

theorem chain_small {e : Bool} {B : Pix → Bool} {w ht : Nat} (hB : InFrame w ht B) {s : St} (hs : Good e B s) :
    0 < (chain e B s).length ∧ (chain e B s).length ≤ 8 * (w * ht) := by
  refine ⟨?_, ?_⟩
  · have := (chain_path hB hs).head
    cases hc : chain e B s with
    | nil => rw [hc] at this; cases this
    | cons a c => simp
  · have := cycles_length hB (S := [s]) (by simpa using hs) (by simp)
    simp at this
    have := chain_length hB hs
    omega

/-- The limits only drop sets: the sets of a labeller with any limits are those of a labeller without limits on the same
picture, where the ones which are too long, too short or unwanted are emptied. -/
theorem C64_limits_only_drop {h1 h1' h2 h2' : Heap Int} {l1 l1' l2 l2' : Labeller} {b1 o1 o1' b2 o2 o2' : Gray}
    {f : Nat → Nat → Int} {fuel1 fuel2 : Nat}
    (hl1 : Labeller.Reachable h1 l1) (ha1 : l1.Accepts h1 b1 o1 f fuel1) (hr1 : l1.process fuel1 b1 o1 h1 = .ok (l1', o1') h1')
    (hl2 : Labeller.Reachable h2 l2) (ha2 : l2.Accepts h2 b2 o2 f fuel2) (hr2 : l2.process fuel2 b2 o2 h2 = .ok (l2', o2') h2')
    (hw : b2.width = b1.width) (hh : b2.height = b1.height) (hrule : l2.rule = l1.rule)
    (hnone : l1.limits = ⟨0, 4294967295, true⟩) :
    ∃ sets, Observes l1'.packedPoints sets ∧ (∀ c ∈ sets, c ≠ []) ∧ l2'.contours = l1'.contours ∧
      Observes l2'.packedPoints (sets.mapIdx (fun i c =>
        if l2.limits.Keeps (decide (∃ d ∈ l1'.contours, d.externalIndex = i)) c.length then c else [])) := by
  have p1 := label_done hl1 ha1 hr1
  have p2 := label_done hl2 ha2 hr2
  have hB := framed_in b1.width b1.height f
  have c2 := p2.contours
  have q2 := p2.points
  rw [hw, hh, hrule] at c2 q2
  have c1 := p1.contours
  have q1 := p1.points
  have o1 := p1.orbits
  have hsz : 8 * (b1.width * b1.height) < 4294967295 := by
    have s1 := ha1.size
    have s3 : (b1.width + 2) * (b1.height + 2) = b1.width * b1.height + 2 * b1.width + 2 * b1.height + 4 := by ring
    have P : P32 = 4294967296 := rfl
    omega
  rw [hnone] at q1
  generalize decide (l1.rule = .eight) = e at *
  generalize b1.width = w at *
  generalize b1.height = ht at *
  obtain ⟨t1, t2, t3, t4⟩ := tags_facts hB o1
  have hkeep : ∀ s ∈ starts e (framed w ht f) (raster w ht), stored ⟨0, 4294967295, true⟩ e (framed w ht f) s =
      (chain e (framed w ht f) (startSt e s)).map conv := by
    intro s hs
    have hg : Good e (framed w ht f) (startSt e s) := good_ax (starts_side hB hs).1 (startAx_lt _)
    have := chain_small hB hg
    unfold stored
    rw [if_pos]
    exact ⟨Or.inr rfl, Nat.zero_le _, by show _ < 4294967295; omega⟩
  refine ⟨_, observes_of_rep q1, ?_, by rw [c2, c1], ?_⟩
  · intro c hc
    obtain ⟨s, hs, rfl⟩ := List.mem_map.1 hc
    have hg : Good e (framed w ht f) (startSt e s) := good_ax (starts_side hB hs).1 (startAx_lt _)
    have := (chain_small hB hg).1
    rw [hkeep s hs]
    intro hnil
    rw [List.map_eq_nil_iff] at hnil
    rw [hnil] at this
    simp at this
  · convert observes_of_rep q2 using 1
    apply List.ext_getElem?
    intro i
    rw [List.getElem?_mapIdx, List.getElem?_map, List.getElem?_map]
    cases hs : (starts e (framed w ht f) (raster w ht))[i]? with
    | none => rfl
    | some s =>
      have htag : ((starts e (framed w ht f) (raster w ht)).map (fun s => (idOf e (framed w ht f) w ht s.1, s.2)))[i]? =
          some (idOf e (framed w ht f) w ht s.1, s.2) := by rw [List.getElem?_map, hs]; rfl
      have hext : (∃ d ∈ l1'.contours, d.externalIndex = i) ↔ s.2 = true := by
        rw [c1]
        generalize (starts e (framed w ht f) (raster w ht)).map (fun s => (idOf e (framed w ht f) w ht s.1, s.2)) = tags at *
        have he : ∀ k < (firsts e (framed w ht f) (raster w ht)).length, tags[tags.idxOf (k + 1, true)]? = some (k + 1, true) := by
          intro k hk
          have := List.idxOf_lt_length_of_mem (t2 k hk)
          rw [List.getElem?_eq_getElem this, List.getElem_idxOf this]
        constructor
        · rintro ⟨d, hd, rfl⟩
          unfold book at hd
          obtain ⟨k, hk, rfl⟩ := List.mem_map.1 hd
          rw [List.mem_range, t1] at hk
          have := he k hk
          change tags[tags.idxOf (k + 1, true)]? = _ at htag
          rw [htag] at this
          simp only [Option.some.injEq, Prod.mk.injEq] at this
          exact this.2
        · intro h2
          rw [h2] at htag
          obtain ⟨a1, a2⟩ := t3 _ (List.mem_of_getElem? htag)
          simp only at a1 a2
          have hk : idOf e (framed w ht f) w ht s.1 - 1 < (firsts e (framed w ht f) (raster w ht)).length := by omega
          refine ⟨_, List.mem_map.2 ⟨idOf e (framed w ht f) w ht s.1 - 1, List.mem_range.2 (by rw [t1]; exact hk), rfl⟩, ?_⟩
          have := he _ hk
          rw [Nat.sub_add_cancel a1] at this
          show tags.idxOf (idOf e (framed w ht f) w ht s.1 - 1 + 1, true) = i
          rw [Nat.sub_add_cancel a1]
          exact t4 _ _ _ this htag
      simp only [Option.map_some, hext, Bool.decide_eq_true, hkeep s (List.mem_of_getElem? hs), List.length_map]
      rfl

/-! ## C66 -/

/-- The number of sets does not overflow. -/
theorem starts_lt {h h' : Heap Int} {l l' : Labeller} {binary labeled lab : Gray} {f : Nat → Nat → Int} {fuel : Nat}
    (hl : Labeller.Reachable h l) (ha : l.Accepts h binary labeled f fuel)
    (hr : l.process fuel binary labeled h = .ok (l', lab) h') :
    (starts (decide (l.rule = .eight)) (framed binary.width binary.height f) (raster binary.width binary.height)).length < P32 := by
  have hp := label_done hl ha hr
  have hB := framed_in binary.width binary.height f
  have hor := hp.orbits
  have h1 := cycles_length hB (S := (starts (decide (l.rule = .eight)) (framed binary.width binary.height f)
    (raster binary.width binary.height)).map (startSt (decide (l.rule = .eight)))) (by
      intro t ht'
      obtain ⟨s, hs, rfl⟩ := List.mem_map.1 ht'
      exact good_ax (starts_side hB hs).1 (startAx_lt _)) hor
  have h2 : ∀ (L : List St), (∀ s ∈ L, Good (decide (l.rule = .eight)) (framed binary.width binary.height f) s) →
      L.length ≤ (L.map (fun s => Function.minimalPeriod (mu (decide (l.rule = .eight)) (framed binary.width binary.height f)) s)).sum := by
    intro L
    induction L with
    | nil => intro _; simp
    | cons a L ih =>
      intro hg
      have := ih (fun s hs => hg s (List.mem_cons_of_mem _ hs))
      have := per_pos hB (hg a (List.mem_cons_self ..))
      simp only [List.length_cons, List.map_cons, List.sum_cons]
      omega
  have h3 := h2 _ (by
      intro t ht'
      obtain ⟨s, hs, rfl⟩ := List.mem_map.1 ht'
      exact good_ax (starts_side hB hs).1 (startAx_lt _)) |>.trans h1
  rw [List.length_map] at h3
  have := ha.size
  have s3 : (binary.width + 2) * (binary.height + 2) = binary.width * binary.height + 2 * binary.width + 2 * binary.height + 4 := by ring
  omega

theorem sets_number {h h' : Heap Int} {l l' : Labeller} {binary labeled lab : Gray} {f : Nat → Nat → Int} {fuel : Nat}
    (hl : Labeller.Reachable h l) (ha : l.Accepts h binary labeled f fuel)
    (hr : l.process fuel binary labeled h = .ok (l', lab) h') : l'.packedPoints.numberOfSets = l'.packedPoints.setInfo.length := by
  have hob := observes_of_rep (label_done hl ha hr).points
  rw [hob.number, hob.number32 (by rw [List.length_map]; exact starts_lt hl ha hr)]

/-- The sets of points are distributed over the contours: every set belongs to exactly one contour, as its external set or
as one of its internal sets.  The contours are numbered from 1. -/
theorem C66_bookkeeping {h h' : Heap Int} {l l' : Labeller} {binary labeled lab : Gray} {f : Nat → Nat → Int} {fuel : Nat}
    (hl : Labeller.Reachable h l) (ha : l.Accepts h binary labeled f fuel)
    (hr : l.process fuel binary labeled h = .ok (l', lab) h') :
    (l'.contours.flatMap (fun c => c.externalIndex :: c.internalIndexes)).Perm (List.range l'.packedPoints.numberOfSets) ∧
    l'.contours.map (fun c => c.id) = (List.range l'.contours.length).map (fun k => k + 1) := by
  have hp := label_done hl ha hr
  have hB := framed_in binary.width binary.height f
  obtain ⟨t1, t2, t3, t4⟩ := tags_facts hB hp.orbits
  have hpm := book_perm t1 t2 t3 t4
  have hob := observes_of_rep hp.points
  constructor
  · rw [hp.contours, hob.number32 (by rw [List.length_map]; exact starts_lt hl ha hr), List.length_map]
    rw [List.length_map] at hpm
    exact hpm
  · rw [hp.contours]
    rw [book_length]
    unfold book
    rw [List.map_map]
    rfl

/-! ## C65 -/

/-- The result of `process` depends only on the picture, the rule and the limits: labellers with any histories, in any
states of the memory, give the same labels, the same contours and the same sets of points. -/
theorem C65_history_does_not_matter {h1 h1' h2 h2' : Heap Int} {l1 l1' l2 l2' : Labeller} {b1 o1 o1' b2 o2 o2' : Gray}
    {f : Nat → Nat → Int} {fuel1 fuel2 : Nat}
    (hl1 : Labeller.Reachable h1 l1) (ha1 : l1.Accepts h1 b1 o1 f fuel1) (hr1 : l1.process fuel1 b1 o1 h1 = .ok (l1', o1') h1')
    (hl2 : Labeller.Reachable h2 l2) (ha2 : l2.Accepts h2 b2 o2 f fuel2) (hr2 : l2.process fuel2 b2 o2 h2 = .ok (l2', o2') h2')
    (hw : b2.width = b1.width) (hh : b2.height = b1.height) (hrule : l2.rule = l1.rule) (hlim : l2.limits = l1.limits) :
    (∀ x y, x < b1.width → y < b1.height → h1'.px o1' x y = h2'.px o2' x y) ∧ l1'.contours = l2'.contours ∧
      ∃ sets, Observes l1'.packedPoints sets ∧ Observes l2'.packedPoints sets := by
  have p1 := label_done hl1 ha1 hr1
  have p2 := label_done hl2 ha2 hr2
  have c2 := p2.contours
  have q2 := p2.points
  have g2 := p2.labels
  rw [hw, hh, hrule] at c2 q2 g2
  rw [hlim] at q2
  exact ⟨fun x y hx hy => by rw [p1.labels x y hx hy, g2 x y hx hy], by rw [c2, p1.contours], _, observes_of_rep p1.points,
    observes_of_rep q2⟩

/-! ## C59, C60, C61: tracing one contour -/

theorem canvas_framed {h : Heap Int} {bg lab : Gray} {w ht : Nat} {S : Nat × Nat → Prop} (hc : Canvas h bg lab w ht S) :
    ∃ B : Pix → Bool, S = IsB B ∧ Framed h bg lab w ht B := by
  classical
  refine ⟨fun p => decide (S p), by funext p; simp [IsB], hc.frameShape.1, hc.frameShape.2, hc.labelShape.1, hc.labelShape.2,
    hc.frameValid, hc.labelValid, hc.apart, ?_, ?_, ?_, hc.strides.1, hc.strides.2⟩
  · intro p hp
    have := hc.inside p (of_decide_eq_true hp)
    exact ⟨this.1, this.2.2.1, this.2.1, this.2.2.2⟩
  · intro p hp
    have := hc.inside p (of_decide_eq_true hp)
    exact (hc.black p.1 p.2 (by omega) (by omega)).1 (of_decide_eq_true hp)
  · intro x y hx hy hw
    obtain ⟨v, hv⟩ := hc.frameValid.px_some (x := x) (y := y) (by rw [hc.frameShape.1]; exact hx) (by rw [hc.frameShape.2]; exact hy)
    refine ⟨v, hv, ?_⟩
    rintro rfl
    exact of_decide_eq_false hw ((hc.black x y hx hy).2 hv)

/-- The setting of the theorems about tracing: a tracer constructed with rule `r` and given the images of a canvas, a
collection of points with any history which has a current set, and a start pixel whose neighbour above (external) or below
(internal) is white. -/
structure Tracing (h : Heap Int) (bg lab : Gray) (w ht : Nat) (S : Nat × Nat → Prop) (r : ConnectRule) (t : Tracer)
    (points : PackedSet Point2D) (sets : List (List Point2D)) (last : List Point2D) (p : Nat × Nat) (external : Bool)
    (fuel : Nat) : Prop where
  canvas : Canvas h bg lab w ht S
  tracer : ∃ junk t0 max, (Tracer.new r junk).setInputs bg lab h = .ok t0 h ∧ t = { t0 with maxContourSize := max }
  points : ∃ blockSize ops, 0 < blockSize ∧ Bounded ops [] ∧
    packedRun ⟨0, 0⟩ ops (PackedSet.new ⟨0, 0⟩ blockSize) = some points ∧ specRun ops [] = sets ++ [last]
  room : sets.flatten.length + last.length + 8 * (w * ht) < P32
  black : S p
  white : ¬S (startWhite p external)
  fuelEnough : 8 * (w * ht) ≤ fuel

theorem tracing_run {h : Heap Int} {bg lab : Gray} {w ht : Nat} {S : Nat × Nat → Prop} {r : ConnectRule} {t : Tracer}
    {points : PackedSet Point2D} {sets : List (List Point2D)} {last : List Point2D} {p : Nat × Nat} {external : Bool} {fuel : Nat}
    (hc : Tracing h bg lab w ht S r t points sets last p external fuel) (v : Int) :
    ∃ t' points' h' path mk, t.trace fuel points v p.1 p.2 external h = .ok (t', points') h' ∧
      Around r S (p, startWhite p external) path ∧
      Observes points' (sets ++ [last ++ (path.map pointOf).take (t.maxContourSize - last.length)]) ∧
      Marked h h' bg lab mk (fun q => q ∈ path) v ∧
      (∀ c, mk c → ¬S c ∧ ∃ q ∈ path, Adjacent r q c) := by
  obtain ⟨hc, ⟨junk, t0, max, ht0, rfl⟩, ⟨bs, ops, hbs, hbd, hrun, hspec⟩, hroom, hb, hw, hf⟩ := hc
  obtain ⟨B, hS, hF⟩ := canvas_framed hc
  subst hS
  have hr := ruleOf_decide r
  have hbase : Base (Tracer.new r junk) (decide (r = .eight)) := by
    cases r
    · exact (base_new junk).1
    · exact (base_new junk).2
  generalize decide (r = .eight) = e at *
  obtain ⟨t1, e1, hT⟩ := setInputs_spec hbase hc.strides.1 hc.strides.2 h
  rw [e1] at ht0
  cases ht0
  have hT' : Tuned { t0 with maxContourSize := max } e bg lab := ⟨hT.rule, hT.ruleN, hT.binary, hT.labeled, hT.ob, hT.ol, hT.nd⟩
  obtain ⟨q, hq, hrep⟩ := run_rep ⟨0, 0⟩ ops (PackedSet.new_rep ⟨0, 0⟩ hbs) hbd
  rw [hrun] at hq
  cases hq
  rw [hspec] at hrep
  have hw' : B (nbA p (startAx external)) = false := by
    rw [← startWhite_eq]; simpa [IsB] using hw
  have hg := good_ax (e := e) hb (startAx_lt external)
  have hsm := (chain_small hF.fr hg).2
  have hper := cycles_length hF.fr (S := [(p, ax e (startAx external))]) (by simpa using hg) (by simp)
  simp only [List.map_cons, List.map_nil, List.sum_cons, List.sum_nil, Nat.add_zero] at hper
  obtain ⟨t', ps', h', mk, a1, a2, a3, a4, a5, a6, a7⟩ := trace_spec hF hb hw' hT' hrep (by omega) (fuel := fuel) (by omega) v
  refine ⟨t', ps', h', chain e B (p, ax e (startAx external)), mk, a1, ?_, observes_of_rep a3, a5, ?_⟩
  · rw [hr]; exact chain_around hF.fr hb hw'
  · intro c hc
    obtain ⟨s, s1, s2, rfl⟩ := a6 c hc
    have hgs := s1.good hg
    obtain ⟨b1, b2, -⟩ := hF.fr _ hgs.1
    refine ⟨by show ¬B _ = true; rw [show B (nb e s.1 s.2) = false from s2]; simp, s.1, (chain_mem hF.fr hg).2 ⟨s.2, s1⟩, ?_⟩
    rw [hr]
    exact (adj_iff b1 b2).2 ⟨_, hgs.2, rfl⟩

/-- Tracing ends, for both rules and for external and internal contours. -/
theorem C59_trace_terminates {h : Heap Int} {bg lab : Gray} {w ht : Nat} {S : Nat × Nat → Prop} {r : ConnectRule} {t : Tracer}
    {points : PackedSet Point2D} {sets : List (List Point2D)} {last : List Point2D} {p : Nat × Nat} {external : Bool} {fuel : Nat}
    (hc : Tracing h bg lab w ht S r t points sets last p external fuel) (v : Int) :
    ∃ t' points' h', t.trace fuel points v p.1 p.2 external h = .ok (t', points') h' := by
  obtain ⟨t', ps', h', path, mk, a1, -⟩ := tracing_run hc v
  exact ⟨t', ps', h', a1⟩

/-- Tracing changes nothing but the labels of the pixels on the boundary, which become the given label, and white
neighbours of these pixels, which are marked with 255. -/
theorem C60_trace_stays_inside {h h' : Heap Int} {bg lab : Gray} {w ht : Nat} {S : Nat × Nat → Prop} {r : ConnectRule} {t t' : Tracer}
    {points points' : PackedSet Point2D} {sets : List (List Point2D)} {last : List Point2D} {p : Nat × Nat} {external : Bool} {fuel : Nat}
    (hc : Tracing h bg lab w ht S r t points sets last p external fuel) {v : Int}
    (hr : t.trace fuel points v p.1 p.2 external h = .ok (t', points') h') :
    ∃ mk, Marked h h' bg lab mk (OnBoundary r S p (startWhite p external)) v ∧
      ∀ c, mk c → ¬S c ∧ ∃ q, OnBoundary r S p (startWhite p external) q ∧ Adjacent r q c := by
  obtain ⟨t1, ps1, h1, path, mk, a1, a2, a3, a4, a5⟩ := tracing_run hc v
  rw [a1] at hr
  cases hr
  have : (fun q => q ∈ path) = OnBoundary r S p (startWhite p external) := by
    funext q; exact propext (a2.pixels q)
  rw [this] at a4
  refine ⟨mk, a4, fun c hc => ?_⟩
  obtain ⟨h1, q, h2, h3⟩ := a5 c hc
  exact ⟨h1, q, (a2.pixels q).1 h2, h3⟩

/-- Tracing appends to the current set the points of a closed path which starts at the start pixel and goes once around the
boundary, as far as the maximal size of the contour permits; the other sets are not changed. -/
theorem C61_trace_closed_path {h h' : Heap Int} {bg lab : Gray} {w ht : Nat} {S : Nat × Nat → Prop} {r : ConnectRule} {t t' : Tracer}
    {points points' : PackedSet Point2D} {sets : List (List Point2D)} {last : List Point2D} {p : Nat × Nat} {external : Bool} {fuel : Nat}
    (hc : Tracing h bg lab w ht S r t points sets last p external fuel) {v : Int}
    (hr : t.trace fuel points v p.1 p.2 external h = .ok (t', points') h') :
    ∃ path, Around r S (p, startWhite p external) path ∧
      Observes points' (sets ++ [last ++ (path.map pointOf).take (t.maxContourSize - last.length)]) := by
  obtain ⟨t1, ps1, h1, path, mk, a1, a2, a3, -⟩ := tracing_run hc v
  rw [a1] at hr
  cases hr
  exact ⟨path, a2, a3⟩

/-- The hypotheses are met: a single pixel, traced with the 4-connect rule. -/
example : Tracing ⟨[some [0, 0, 0, 0, 1, 0, 0, 0, 0], some [0]]⟩ ⟨0, 9, 3, 3, 0, 3, false⟩ ⟨1, 1, 1, 1, 0, 1, false⟩ 1 1 (fun p => p = (1, 1)) .four
    { Tracer.new .four demoJunk with
      binary := some ⟨0, 9, 3, 3, 0, 3, false⟩, labeled := some ⟨1, 1, 1, 1, 0, 1, false⟩,
      offsetsBinary := [1, 3, -1, -3], offsetsLabeled := [1, 1, -1, -1], maxContourSize := 5 }
    { PackedSet.new (⟨0, 0⟩ : Point2D) 10 with setInfo := [⟨0, 0, 0⟩] } [] [] (1, 1) true 100 where
  canvas :=
    { frameShape := ⟨rfl, rfl⟩
      labelShape := ⟨rfl, rfl⟩
      frameValid := by decide
      labelValid := by decide
      apart := fun _ _ _ _ _ _ _ _ h => absurd h (by decide)
      strides := by decide
      inside := by rintro p rfl; decide
      black := by
        have h : ∀ x, x < 3 → ∀ y, y < 3 → ((x, y) = (1, 1) ↔ (⟨[some [0, 0, 0, 0, 1, 0, 0, 0, 0], some [0]]⟩ : Heap Int).px
          ⟨0, 9, 3, 3, 0, 3, false⟩ x y = some 1) := by decide
        exact fun x y hx hy => h x hx y hy }
  tracer := ⟨demoJunk, _, 5, rfl, rfl⟩
  points := ⟨10, [.start], by decide, by intro n; rcases n with _ | n <;> simp [specRun, POp.spec, P32], rfl, rfl⟩
  room := by decide
  black := rfl
  white := by decide
  fuelEnough := by decide

end Boof
