import Verif.Proofs.Starts
/-
The scan of `LinearContourLabelChang2004::process`: state of the images and of the labeller after each pixel.
-/
namespace Boof
open M

variable {e : Bool} {B : Pix → Bool} {w ht : Nat} {bg lab : Gray} {h0 h h1 : Heap Int} {v : Int}

/-- Marking keeps images valid. -/
theorem Marked.valid {Mk Lb : Pix → Prop} (hm : Marked h h1 bg lab Mk Lb v) (hb : bg.Valid h) (hl : lab.Valid h) {g : Gray}
    (hg : g.Valid h) : g.Valid h1 := by
  refine hg.transfer (by rw [hm.alive]; exact hg.live) (fun i hi => ?_)
  by_cases c1 : ∃ x y, x < bg.width ∧ y < bg.height ∧ g.buf = bg.buf ∧ i = bg.addr x y
  · obtain ⟨x, y, hx, hy, e1, e2⟩ := c1
    obtain ⟨m1, m2⟩ := hm.mark x y hx hy
    rw [e1, e2]
    by_cases hk : Mk (x, y)
    · exact ⟨_, m1 hk⟩
    · obtain ⟨u, hu⟩ := hb.px_some hx hy
      exact ⟨u, (m2 hk).trans hu⟩
  · by_cases c2 : ∃ x y, x < lab.width ∧ y < lab.height ∧ g.buf = lab.buf ∧ i = lab.addr x y
    · obtain ⟨x, y, hx, hy, e1, e2⟩ := c2
      obtain ⟨m1, m2⟩ := hm.label x y hx hy
      rw [e1, e2]
      by_cases hk : Lb (x + 1, y + 1)
      · exact ⟨_, m1 hk⟩
      · obtain ⟨u, hu⟩ := hl.px_some hx hy
        exact ⟨u, (m2 hk).trans hu⟩
    · rw [hm.frame g.buf i (fun x y hx hy hh => c1 ⟨x, y, hx, hy, hh⟩) (fun x y hx hy hh => c2 ⟨x, y, hx, hy, hh⟩)]
      exact hg.cells i hi

/-- The images during the scan.  `T`: the states of boundaries traced so far, `Q`: the white pixels at which the tracing of
these started, `Sc`: the pixels scanned so far. -/
structure HInv (e : Bool) (B : Pix → Bool) (w ht : Nat) (bg lab : Gray) (h0 h : Heap Int) (T : St → Prop) (Q Sc : Pix → Prop) :
    Prop where
  fr : Framed h bg lab w ht B
  lbl : ∀ p, p ∈ raster w ht → B p = true → (Sc p ∨ ∃ j, T (p, j)) → h.px lab (p.1 - 1) (p.2 - 1) = some (idOf e B w ht p : Int)
  unl : ∀ p, p ∈ raster w ht → ¬(B p = true ∧ (Sc p ∨ ∃ j, T (p, j))) → h.px lab (p.1 - 1) (p.2 - 1) = some 0
  m0 : ∀ c, c ∈ raster w ht → B c = false → h.px bg c.1 c.2 = some 0 ∨ h.px bg c.1 c.2 = some 255
  m1 : ∀ c, c ∈ raster w ht → h.px bg c.1 c.2 = some 255 → ∃ r j, T (r, j) ∧ nb e r j = c
  m2 : ∀ r j, T (r, j) → B (nb e r j) = false → h.px bg (nb e r j).1 (nb e r j).2 = some 255 ∨ Q (nb e r j)
  good : ∀ s, T s → Good e B s
  frame : ∀ b i, (∀ x y, x < bg.width → y < bg.height → ¬(b = bg.buf ∧ i = bg.addr x y)) →
    (∀ x y, x < lab.width → y < lab.height → ¬(b = lab.buf ∧ i = lab.addr x y)) → h.cell b i = h0.cell b i
  alive : ∀ b, (h.get b).isSome = (h0.get b).isSome
  next : h.next = h0.next

theorem HInv.marked {T T' : St → Prop} {Q Q' Sc Sc' Mk Lb : Pix → Prop} (hH : HInv e B w ht bg lab h0 h T Q Sc)
    (hm : Marked h h1 bg lab Mk Lb v) (hT : ∀ s, T s → T' s) (hg : ∀ s, T' s → Good e B s) (hQ : ∀ c, Q c → Q' c)
    (hL : ∀ q, Lb q → B q = true ∧ v = idOf e B w ht q)
    (hS : ∀ q, B q = true → ((Sc' q ∨ ∃ j, T' (q, j)) ↔ ((Sc q ∨ ∃ j, T (q, j)) ∨ Lb q)))
    (hM : ∀ c, Mk c → B c = false ∧ ∃ r j, T' (r, j) ∧ nb e r j = c)
    (hM' : ∀ r j, T' (r, j) → B (nb e r j) = false → T (r, j) ∨ Mk (nb e r j) ∨ Q' (nb e r j)) :
    HInv e B w ht bg lab h0 h1 T' Q' Sc' := by
  obtain ⟨fr, lbl, unl, m0, m1, m2, good, frame, alive, next⟩ := hH
  have mkb : ∀ c : Pix, c ∈ raster w ht → (Mk c → h1.px bg c.1 c.2 = some 255) ∧ (¬Mk c → h1.px bg c.1 c.2 = h.px bg c.1 c.2) := by
    intro c hc
    rw [mem_raster] at hc
    exact hm.mark c.1 c.2 (by rw [fr.bw]; omega) (by rw [fr.bh]; omega)
  have lb : ∀ p : Pix, p ∈ raster w ht → (Lb p → h1.px lab (p.1 - 1) (p.2 - 1) = some v) ∧
      (¬Lb p → h1.px lab (p.1 - 1) (p.2 - 1) = h.px lab (p.1 - 1) (p.2 - 1)) := by
    intro p hp
    rw [mem_raster] at hp
    have := hm.label (p.1 - 1) (p.2 - 1) (by rw [fr.lw]; omega) (by rw [fr.lh]; omega)
    rwa [show (p.1 - 1 + 1, p.2 - 1 + 1) = p from Prod.ext (by show p.1 - 1 + 1 = p.1; omega) (by show p.2 - 1 + 1 = p.2; omega)] at this
  refine ⟨⟨fr.bw, fr.bh, fr.lw, fr.lh, hm.valid fr.bv fr.lv fr.bv, hm.valid fr.bv fr.lv fr.lv, fr.dis, fr.fr, ?_, ?_, fr.bs, fr.ls⟩,
    ?_, ?_, ?_, ?_, ?_, hg, ?_, ?_, ?_⟩
  · intro p hp
    obtain ⟨p1, p2, p3, p4⟩ := fr.fr p hp
    rw [(hm.mark p.1 p.2 (by rw [fr.bw]; omega) (by rw [fr.bh]; omega)).2 (fun hc => by rw [(hM p hc).1] at hp; cases hp)]
    exact fr.black p hp
  · intro x y hx hy hb
    obtain ⟨k1, k2⟩ := hm.mark x y (by rw [fr.bw]; omega) (by rw [fr.bh]; omega)
    by_cases hk : Mk (x, y)
    · exact ⟨255, k1 hk, by decide⟩
    · rw [k2 hk]; exact fr.white x y hx hy hb
  · intro p hp hb hc
    rcases (hS p hb).1 hc with h2 | h2
    · by_cases hl : Lb p
      · rw [(lb p hp).1 hl, (hL p hl).2]
      · rw [(lb p hp).2 hl]; exact lbl p hp hb h2
    · rw [(lb p hp).1 h2, (hL p h2).2]
  · intro p hp hc
    have hl : ¬Lb p := fun hl => hc ⟨(hL p hl).1, (hS p (hL p hl).1).2 (Or.inr hl)⟩
    rw [(lb p hp).2 hl]
    exact unl p hp (fun hh => hc ⟨hh.1, (hS p hh.1).2 (Or.inl hh.2)⟩)
  · intro c hc hb
    by_cases hk : Mk c
    · exact Or.inr ((mkb c hc).1 hk)
    · rw [(mkb c hc).2 hk]; exact m0 c hc hb
  · intro c hc h255
    by_cases hk : Mk c
    · exact (hM c hk).2
    · rw [(mkb c hc).2 hk] at h255
      obtain ⟨r, j, a, b⟩ := m1 c hc h255
      exact ⟨r, j, hT _ a, b⟩
  · intro r j ht' hb
    have hr := (hg _ ht').1
    obtain ⟨nx, ny⟩ := nb_in (e := e) fr.fr hr j
    have := hm.mark (nb e r j).1 (nb e r j).2 (by rw [fr.bw]; exact nx) (by rw [fr.bh]; exact ny)
    by_cases hk : Mk (nb e r j)
    · exact Or.inl (this.1 hk)
    · rcases hM' r j ht' hb with h2 | h2 | h2
      · rcases m2 r j h2 hb with h3 | h3
        · left; rw [this.2 hk]; exact h3
        · exact Or.inr (hQ _ h3)
      · exact absurd h2 hk
      · exact Or.inr h2
  · intro b i f1 f2
    rw [hm.frame b i f1 f2]; exact frame b i f1 f2
  · intro b; rw [hm.alive, alive]
  · rw [hm.next, next]

theorem HInv.congr {T T' : St → Prop} {Q Q' Sc Sc' : Pix → Prop} (hH : HInv e B w ht bg lab h0 h T Q Sc)
    (hT : ∀ s, T s ↔ T' s) (hQ : ∀ c, Q c → Q' c) (hS : ∀ q, B q = true → (Sc q ↔ Sc' q)) :
    HInv e B w ht bg lab h0 h T' Q' Sc' := by
  refine hH.marked (Marked.refl h bg lab 0) (fun s => (hT s).1) (fun s hs => hH.good s ((hT s).2 hs)) hQ (fun _ hf => hf.elim)
    (fun q hq => ?_) (fun _ hf => hf.elim) (fun r j ht' _ => Or.inl ((hT _).2 ht'))
  simp only [hS q hq, hT, or_false]

/-! ### The labeller -/

/-- What tracers keep from their construction. -/
structure Base (t : Tracer) (e : Bool) : Prop where
  rule : t.rule = ruleOf e
  ruleN : t.ruleN = cnt e
  nd : t.nextDirection = (List.range (cnt e)).map (nxt e)

theorem Tuned.base {t : Tracer} (hT : Tuned t e bg lab) : Base t e := ⟨hT.rule, hT.ruleN, hT.nd⟩

/-- The set of points stored for a start. -/
noncomputable def stored (c : Limits) (e : Bool) (B : Pix → Bool) (s : Pix × Bool) : List Point2D :=
  if c.Keeps s.2 (chain e B (startSt e s)).length then (chain e B (startSt e s)).map conv else []

/-- The labeller during the scan, with the contours `done` started. -/
structure LInv (c : Limits) (e : Bool) (B : Pix → Bool) (w ht : Nat) (bg lab : Gray) (l : Labeller)
    (done : List (Pix × Bool)) : Prop where
  mn : l.minContourSize = c.min
  mx : l.maxContourSize = c.max
  save : l.saveInternalContours = c.internal
  rule : l.rule = ruleOf e
  border : l.border = bg
  tuned : Tuned l.tracer e bg lab
  base4 : Base l.tracer4 false
  base8 : Base l.tracer8 true
  rep : PackedSet.Rep l.packedPoints (done.map (stored c e B))
  cont : l.contours = book (done.map (fun s => (idOf e B w ht s.1, s.2)))
  good : ∀ s ∈ done, Good e B (startSt e s)
  apart : (done.map (startSt e)).Pairwise (fun a b => ¬Orb e B a b)
  tagsA : ∀ k < done.countP (fun s => s.2), (k + 1, true) ∈ done.map (fun s => (idOf e B w ht s.1, s.2))
  tagsB : ∀ s ∈ done, idOf e B w ht s.1 ≤ done.countP (fun s => s.2)
  block : l.packedPoints.sizeOfBlock = 2000

section setTracer
variable (l : Labeller) (t : Tracer)
theorem setTracer_tracer : (l.setTracer t).tracer = t := by
  unfold Labeller.setTracer; cases hr : l.rule <;> simp [Labeller.tracer, hr]
theorem setTracer_min : (l.setTracer t).minContourSize = l.minContourSize := by unfold Labeller.setTracer; split <;> rfl
theorem setTracer_max : (l.setTracer t).maxContourSize = l.maxContourSize := by unfold Labeller.setTracer; split <;> rfl
theorem setTracer_save : (l.setTracer t).saveInternalContours = l.saveInternalContours := by
  unfold Labeller.setTracer; split <;> rfl
theorem setTracer_rule : (l.setTracer t).rule = l.rule := by unfold Labeller.setTracer; split <;> rfl
theorem setTracer_border : (l.setTracer t).border = l.border := by unfold Labeller.setTracer; split <;> rfl
theorem setTracer_points : (l.setTracer t).packedPoints = l.packedPoints := by unfold Labeller.setTracer; split <;> rfl
theorem setTracer_contours : (l.setTracer t).contours = l.contours := by unfold Labeller.setTracer; split <;> rfl
theorem setTracer_with (p : PackedSet Point2D) :
    { l.setTracer t with packedPoints := p } = { l with packedPoints := p }.setTracer t := by
  unfold Labeller.setTracer; cases hr : l.rule <;> simp
theorem setTracer_base4 (hr : l.rule = ruleOf e) (hb : Base l.tracer4 false) (ht : Base t e) :
    Base (l.setTracer t).tracer4 false := by
  unfold Labeller.setTracer
  cases e
  · rw [hr]; exact ht
  · rw [hr]; exact hb
theorem setTracer_base8 (hr : l.rule = ruleOf e) (hb : Base l.tracer8 true) (ht : Base t e) :
    Base (l.setTracer t).tracer8 true := by
  unfold Labeller.setTracer
  cases e
  · rw [hr]; exact hb
  · rw [hr]; exact ht
end setTracer

theorem limitTail_spec {l : Labeller} {L : List (List Point2D)} {a : List Point2D} (hr : PackedSet.Rep l.packedPoints (L ++ [a]))
    (h : Heap Int) : ∃ ps', l.limitTail h = .ok { l with packedPoints := ps' } h ∧
      PackedSet.Rep ps' (L ++ [if l.maxContourSize ≤ a.length ∨ a.length < l.minContourSize then [] else a]) ∧
      ps'.sizeOfBlock = l.packedPoints.sizeOfBlock := by
  unfold Labeller.limitTail
  rw [sizeOfTail_rep hr]
  by_cases hc : l.maxContourSize ≤ a.length ∨ a.length < l.minContourSize
  · obtain ⟨p1, a1, a2, a3, -⟩ := PackedSet.remove_rep hr
    obtain ⟨p2, b1, b2, b3⟩ := PackedSet.start_rep a2
    refine ⟨p2, ?_, by rw [if_pos hc]; exact b2, b3.trans a3⟩
    rw [if_pos hc, a1, M.bind_ok (show liftPoints (Res.ok () p1) h = .ok p1 h from rfl), b1,
      M.bind_ok (show liftPoints (Res.ok () p2) h = .ok p2 h from rfl)]
    rfl
  · exact ⟨l.packedPoints, by rw [if_neg hc]; rfl, by rw [if_neg hc]; exact hr, rfl⟩

/-- There is room for one more contour. -/
theorem LInv.room {c : Limits} {l : Labeller} {done : List (Pix × Bool)} (hL : LInv c e B w ht bg lab l done)
    (hB : InFrame w ht B) {s : Pix × Bool} (hs : Good e B (startSt e s)) (hn : ∀ d ∈ done, ¬Orb e B (startSt e d) (startSt e s)) :
    (done.map (stored c e B)).flatten.length + (chain e B (startSt e s)).length ≤ 8 * (w * ht) ∧
    done.length + 1 ≤ 8 * (w * ht) ∧ Function.minimalPeriod (mu e B) (startSt e s) ≤ 8 * (w * ht) := by
  have key := cycles_length (S := done.map (startSt e) ++ [startSt e s]) hB (by
      intro u hu
      rcases List.mem_append.1 hu with hu | hu
      · obtain ⟨d, hd, rfl⟩ := List.mem_map.1 hu
        exact hL.good d hd
      · rw [List.mem_singleton.1 hu]; exact hs) (by
      rw [List.pairwise_append]
      refine ⟨hL.apart, List.pairwise_singleton _ _, ?_⟩
      intro a ha b hb
      obtain ⟨d, hd, rfl⟩ := List.mem_map.1 ha
      rw [List.mem_singleton.1 hb]; exact hn d hd)
  rw [List.map_append, List.sum_append] at key
  simp only [List.map_cons, List.map_nil, List.sum_cons, List.sum_nil, Nat.add_zero] at key
  have a1 := chain_length hB hs
  have a2 := per_pos hB hs
  have a3 : ∀ done : List (Pix × Bool), (∀ s ∈ done, Good e B (startSt e s)) →
      (done.map (stored c e B)).flatten.length ≤ ((done.map (startSt e)).map (fun s => Function.minimalPeriod (mu e B) s)).sum ∧
      done.length ≤ ((done.map (startSt e)).map (fun s => Function.minimalPeriod (mu e B) s)).sum := by
    intro done
    induction done with
    | nil => intro _; simp
    | cons d done ih =>
      intro hg
      obtain ⟨i1, i2⟩ := ih (fun s hs => hg s (List.mem_cons_of_mem _ hs))
      have hd := hg d (List.mem_cons_self ..)
      have b1 := chain_length hB hd
      have b2 := per_pos hB hd
      have b3 : (stored c e B d).length ≤ (chain e B (startSt e d)).length := by
        unfold stored; split <;> simp
      simp only [List.map_cons, List.flatten_cons, List.length_append, List.length_cons, List.sum_cons]
      omega
  obtain ⟨b1, b2⟩ := a3 done hL.good
  omega

/-- Tracing one contour. -/
theorem runTrace {c : Limits} {l : Labeller} {done : List (Pix × Bool)} (hL : LInv c e B w ht bg lab l done)
    (hF : Framed h bg lab w ht B) (hsz : 8 * (w * ht) < P32) {fuel : Nat} (hf : 8 * (w * ht) ≤ fuel)
    {p : Pix} {external : Bool} (hp : B p = true) (hq : B (nbA p (startAx external)) = false)
    (hn : ∀ d ∈ done, ¬Orb e B (startSt e d) (startSt e (p, external))) (cs : List ContourPacked) (v : Int) {m : Nat}
    (hm : m = if external = true ∨ c.internal = true then c.max else 0) :
    ∃ ps' t' h' Mk, (do
        let p' ← liftPoints l.packedPoints.startNewSet
        let (t, p') ← { l.tracer with maxContourSize := m }.trace fuel p' v p.1 p.2 external
        Labeller.limitTail ({ l with contours := cs, packedPoints := p' }.setTracer t) : M Int Labeller) h =
        .ok ({ l with contours := cs, packedPoints := ps' }.setTracer t') h' ∧
      Tuned t' e bg lab ∧ PackedSet.Rep ps' ((done ++ [(p, external)]).map (stored c e B)) ∧
      Marked h h' bg lab Mk (fun q => q ∈ chain e B (startSt e (p, external))) v ∧
      (∀ c, Mk c → Faces e B (startSt e (p, external)) c) ∧
      (∀ c, Faces e B (startSt e (p, external)) c → Mk c ∨ c = nbA p (startAx external)) ∧
      ps'.sizeOfBlock = l.packedPoints.sizeOfBlock := by
  have hs : Good e B (startSt e (p, external)) := ⟨hp, ax_lt (show startAx external < 4 by cases external <;> decide)⟩
  obtain ⟨r1, -, r3⟩ := hL.room hF.fr hs hn
  obtain ⟨p1, a1, a2, a3⟩ := PackedSet.start_rep hL.rep
  have hT : Tuned { l.tracer with maxContourSize := m } e bg lab := { hL.tuned with }
  obtain ⟨t', p2, h', Mk, b1, b2, b3, b4, b5, b6, b7⟩ := trace_spec hF hp hq hT a2 (fuel := fuel)
    (by show _ + 0 + (chain e B (startSt e (p, external))).length < _; omega)
    (by show Function.minimalPeriod (mu e B) (startSt e (p, external)) ≤ _; omega) v
  obtain ⟨p3, c1, c2, c3⟩ := limitTail_spec (l := { l with contours := cs, packedPoints := p2 }.setTracer t')
    (L := done.map (stored c e B)) (a := (((chain e B (startSt e (p, external))).map conv).take m))
    (by rw [setTracer_points]; simpa [startSt] using b3) h'
  refine ⟨p3, t', h', Mk, ?_, b2, ?_, b5, b6, b7, by rw [setTracer_points] at c3; rw [c3]; exact b4.trans a3⟩
  · rw [a1, M.bind_ok (show liftPoints (Res.ok () p1) h = .ok p1 h from rfl), M.bind_ok b1]
    show Labeller.limitTail _ _ = _
    rw [c1, setTracer_with]
  · rw [List.map_append]
    convert c2 using 3
    simp only [List.map_cons, List.map_nil]
    congr 1
    rw [setTracer_max, setTracer_min]
    show stored c e B (p, external) = if l.maxContourSize ≤ _ ∨ _ < l.minContourSize then _ else _
    rw [hL.mx, hL.mn, List.length_take, List.length_map]
    unfold stored
    show (if c.Keeps external (chain e B (startSt e (p, external))).length then _ else _) = _
    by_cases hk : external = true ∨ c.internal = true
    · rw [if_pos hk] at hm
      subst hm
      by_cases hl : c.min ≤ (chain e B (startSt e (p, external))).length ∧ (chain e B (startSt e (p, external))).length < c.max
      · have K : c.Keeps external (chain e B (startSt e (p, external))).length := ⟨hk, hl⟩
        rw [if_pos K, if_neg (by omega), List.take_of_length_le (by rw [List.length_map]; omega)]
      · have K : ¬c.Keeps external (chain e B (startSt e (p, external))).length := fun hh => hl hh.2
        rw [if_neg K, if_pos (by omega)]
    · rw [if_neg hk] at hm
      subst hm
      have K : ¬c.Keeps external (chain e B (startSt e (p, external))).length := fun hh => hk hh.1
      rw [if_neg K]
      split <;> simp

theorem count_tags (done : List (Pix × Bool)) (f : Pix → Nat) :
    (done.map (fun s => (f s.1, s.2))).countP (fun s => s.2) = done.countP (fun s => s.2) := by
  rw [List.countP_map]; rfl

theorem idOf_small (p : Pix) : idOf e B w ht p ≤ w * ht := by
  unfold idOf
  refine Nat.le_trans (List.length_filter_le _ _) ?_
  rw [raster_length]

theorem LInv.sets {c : Limits} {l : Labeller} {done : List (Pix × Bool)} (hL : LInv c e B w ht bg lab l done) :
    l.packedPoints.setInfo.length = done.length := by
  rw [hL.rep.info, PackedSet.infos_length, List.length_map]

theorem LInv.numContours {c : Limits} {l : Labeller} {done : List (Pix × Bool)} (hL : LInv c e B w ht bg lab l done) :
    l.contours.length = done.countP (fun s => s.2) := by
  rw [hL.cont, book_length, count_tags]

theorem trace_marks {T : St → Prop} {Q Sc Mk : Pix → Prop} {s : St} {q0 : Pix} (hB : InFrame w ht B)
    (hH : HInv e B w ht bg lab h0 h T Q Sc)
    (hs : Good e B s) (hm : Marked h h1 bg lab Mk (fun q => q ∈ chain e B s) (idOf e B w ht s.1))
    (h2 : ∀ c, Mk c → Faces e B s c) (h3 : ∀ c, Faces e B s c → Mk c ∨ c = q0) :
    HInv e B w ht bg lab h0 h1 (fun u => T u ∨ Orb e B s u) (fun c => Q c ∨ c = q0) Sc := by
  refine hH.marked hm (fun _ => Or.inl) ?_ (fun _ => Or.inl) ?_ ?_ ?_ ?_
  · rintro u (hu | hu)
    · exact hH.good u hu
    · exact hu.good hs
  · intro q hq
    obtain ⟨j, hj⟩ := (chain_mem hB hs).1 hq
    exact ⟨(hj.good hs).1, by rw [idOf_conn hB (Orb.conn hs hj)]⟩
  · intro q _
    rw [chain_mem hB hs]
    constructor
    · rintro (a | ⟨j, a | a⟩)
      · exact Or.inl (Or.inl a)
      · exact Or.inl (Or.inr ⟨j, a⟩)
      · exact Or.inr ⟨j, a⟩
    · rintro ((a | ⟨j, a⟩) | ⟨j, a⟩)
      · exact Or.inl a
      · exact Or.inr ⟨j, Or.inl a⟩
      · exact Or.inr ⟨j, Or.inr a⟩
  · intro c hc
    have hf := h2 c hc
    refine ⟨hf.white, ?_⟩
    obtain ⟨⟨r, j⟩, a, -, rfl⟩ := hf
    exact ⟨r, j, Or.inr a, rfl⟩
  · rintro r j (a | a) hb
    · exact Or.inl a
    · right
      rcases h3 _ ⟨(r, j), a, hb, rfl⟩ with hk | hk
      · exact Or.inl hk
      · exact Or.inr (Or.inr hk)

theorem step1_spec {c : Limits} {l : Labeller} {done : List (Pix × Bool)} {T : St → Prop} {Q Sc : Pix → Prop}
    (hL : LInv c e B w ht bg lab l done) (hH : HInv e B w ht bg lab h0 h T Q Sc) (hsz : 8 * (w * ht) < P32) {fuel : Nat}
    (hf : 8 * (w * ht) ≤ fuel) {p : Pix} (hp : IsFirst e B p) (hid : idOf e B w ht p = done.countP (fun s => s.2) + 1)
    (hn : ∀ d ∈ done, ¬Orb e B (startSt e d) (startSt e (p, true))) :
    ∃ l' h', Labeller.handleStep1 fuel l p.1 p.2 h = .ok l' h' ∧ LInv c e B w ht bg lab l' (done ++ [(p, true)]) ∧
      HInv e B w ht bg lab h0 h' (fun u => T u ∨ Orb e B (p, ax e 3) u) (fun c => Q c ∨ c = nbA p 3) Sc ∧
      l'.contours.length = idOf e B w ht p := by
  have hB := hH.fr.fr
  have P : P32 = 4294967296 := rfl
  have hs : Good e B (startSt e (p, true)) := ⟨hp.1, ax_lt (show 3 < 4 by omega)⟩
  obtain ⟨-, r2, -⟩ := hL.room hB hs hn
  have hid2 : wrap32 (l.contours.length + 1) = idOf e B w ht p := by
    rw [hL.numContours, ← hid, wrap32_of_lt]
    have := idOf_small (e := e) (B := B) (w := w) (ht := ht) p
    omega
  have hs32 : toS32 (idOf e B w ht p) = (idOf e B w ht p : Int) := by
    have := idOf_small (e := e) (B := B) (w := w) (ht := ht) p
    exact toS32_of_lt (by omega)
  have hns : l.packedPoints.numberOfSets = done.length := by
    unfold PackedSet.numberOfSets
    rw [hL.sets, wrap32_of_lt (by omega)]
  obtain ⟨ps', t', h', Mk, a1, a2, a3, a4, a5, a6, a7⟩ := runTrace hL hH.fr hsz hf (external := true) hp.1 (hp.above hB) hn
    (l.contours ++ [{ id := idOf e B w ht p, externalIndex := done.length, internalIndexes := [] }]) (idOf e B w ht p)
    (m := l.maxContourSize) (by rw [if_pos (Or.inl rfl)]; exact hL.mx)
  refine ⟨Labeller.setTracer { l with contours := l.contours ++ [{ id := idOf e B w ht p, externalIndex := done.length, internalIndexes := [] }], packedPoints := ps' } t',
    h', ?_, ?_, trace_marks hB hH hs a4 a5 a6, ?_⟩
  · unfold Labeller.handleStep1
    rw [hid2, hns, hs32]
    exact a1
  · have tags : (done ++ [(p, true)]).map (fun s => (idOf e B w ht s.1, s.2)) =
        done.map (fun s => (idOf e B w ht s.1, s.2)) ++ [(done.countP (fun s => s.2) + 1, true)] := by
      rw [List.map_append, ← hid]; rfl
    have cnt' : (done ++ [(p, true)]).countP (fun s => s.2) = done.countP (fun s => s.2) + 1 := by
      rw [List.countP_append]; rfl
    refine ⟨by rw [setTracer_min]; exact hL.mn, by rw [setTracer_max]; exact hL.mx, by rw [setTracer_save]; exact hL.save,
      by rw [setTracer_rule]; exact hL.rule, by rw [setTracer_border]; exact hL.border, by rw [setTracer_tracer]; exact a2,
      setTracer_base4 _ _ hL.rule hL.base4 a2.base, setTracer_base8 _ _ hL.rule hL.base8 a2.base,
      by rw [setTracer_points]; exact a3, ?_, ?_, ?_, ?_, ?_, by rw [setTracer_points]; exact a7.trans hL.block⟩
    · rw [setTracer_contours, tags, book_ext (n := done.countP (fun s => s.2)) (by rw [count_tags]) hL.tagsA]
      · show l.contours ++ _ = _
        rw [hL.cont, hid, List.length_map]
      · intro b hm
        obtain ⟨d, hd, he⟩ := List.mem_map.1 hm
        have := hL.tagsB d hd
        rw [Prod.mk.injEq] at he
        omega
    · intro s hs'
      rcases List.mem_append.1 hs' with hs' | hs'
      · exact hL.good s hs'
      · rw [List.mem_singleton.1 hs']; exact hs
    · rw [List.map_append, List.pairwise_append]
      refine ⟨hL.apart, List.pairwise_singleton _ _, ?_⟩
      intro a ha b hb
      obtain ⟨d, hd, rfl⟩ := List.mem_map.1 ha
      rw [List.mem_singleton.1 hb]; exact hn d hd
    · intro k hk
      rw [cnt'] at hk
      rw [tags, List.mem_append]
      rcases Nat.lt_or_ge k (done.countP (fun s => s.2)) with hk' | hk'
      · exact Or.inl (hL.tagsA k hk')
      · right
        have : k = done.countP (fun s => s.2) := by omega
        rw [this]; exact List.mem_singleton.2 rfl
    · intro s hs'
      rw [cnt']
      rcases List.mem_append.1 hs' with hs' | hs'
      · have := hL.tagsB s hs'; omega
      · rw [List.mem_singleton.1 hs']; show idOf e B w ht p ≤ _; omega
  · rw [setTracer_contours]
    show (l.contours ++ _).length = _
    rw [List.length_append, hL.numContours, hid]; rfl

theorem step2_spec {c : Limits} {l : Labeller} {done : List (Pix × Bool)} {T : St → Prop} {Q Sc : Pix → Prop}
    (hL : LInv c e B w ht bg lab l done) (hH : HInv e B w ht bg lab h0 h T Q Sc) (hsz : 8 * (w * ht) < P32) {fuel : Nat}
    (hf : 8 * (w * ht) ≤ fuel) {p : Pix} (hp : B p = true) (hq : B (nbA p 1) = false)
    (hid : idOf e B w ht p ≤ done.countP (fun s => s.2))
    (hn : ∀ d ∈ done, ¬Orb e B (startSt e d) (startSt e (p, false))) {label : Nat}
    (hlab : label = idOf e B w ht p ∨ (label = 0 ∧ h.cell lab.buf (lab.addr (p.1 - 1) (p.2 - 1) - 1) =
      some (idOf e B w ht p : Int) ∧ 0 < lab.addr (p.1 - 1) (p.2 - 1))) :
    ∃ l' h', Labeller.handleStep2 fuel l lab p.1 p.2 (lab.addr (p.1 - 1) (p.2 - 1)) label h = .ok l' h' ∧
      LInv c e B w ht bg lab l' (done ++ [(p, false)]) ∧
      HInv e B w ht bg lab h0 h' (fun u => T u ∨ Orb e B (p, ax e 1) u) (fun c => Q c ∨ c = nbA p 1) Sc := by
  have hB := hH.fr.fr
  have P : P32 = 4294967296 := rfl
  obtain ⟨p1, p2, p3, p4⟩ := hB p hp
  have hs : Good e B (startSt e (p, false)) := ⟨hp, ax_lt (show 1 < 4 by omega)⟩
  obtain ⟨-, r2, -⟩ := hL.room hB hs hn
  have pos := idOf_pos (e := e) hB hp
  have small := idOf_small (e := e) (B := B) (w := w) (ht := ht) p
  have hs32 : toS32 (idOf e B w ht p) = (idOf e B w ht p : Int) := toS32_of_lt (by omega)
  have hlb : (if label = 0 then do
      let v ← M.rd lab.buf (sub32 (lab.addr (p.1 - 1) (p.2 - 1)) 1)
      pure (toU32 v)
    else pure label : M Int Nat) h = .ok (idOf e B w ht p) h := by
    rcases hlab with rfl | ⟨rfl, h2, h3⟩
    · rw [if_neg (by omega)]; rfl
    · have al : lab.addr (p.1 - 1) (p.2 - 1) < P32 := hH.fr.lv.addr_lt32 (by rw [hH.fr.lw]; omega) (by rw [hH.fr.lh]; omega)
      rw [if_pos rfl, sub32_of_le (by omega) al, M.bind_ok (M.rd_run h2), toU32_of_nonneg (by omega) (by omega)]
      rfl
  have hsub : sub32 (idOf e B w ht p) 1 = idOf e B w ht p - 1 := sub32_of_le (by omega) (by omega)
  have hk : idOf e B w ht p - 1 < (done.map (fun s => (idOf e B w ht s.1, s.2))).countP (fun s => s.2) := by
    rw [count_tags]; omega
  obtain ⟨ct, c1, c2⟩ := book_int hk (by rw [count_tags]; exact hL.tagsA)
  have tags : (done ++ [(p, false)]).map (fun s => (idOf e B w ht s.1, s.2)) =
      done.map (fun s => (idOf e B w ht s.1, s.2)) ++ [(idOf e B w ht p - 1 + 1, false)] := by
    rw [List.map_append, Nat.sub_add_cancel pos]; rfl
  have cnt' : (done ++ [(p, false)]).countP (fun s => s.2) = done.countP (fun s => s.2) := by
    rw [List.countP_append]; rfl
  have hns : wrap32 l.packedPoints.setInfo.length = done.length := by rw [hL.sets, wrap32_of_lt (by omega)]
  obtain ⟨ps', t', h', Mk, a1, a2, a3, a4, a5, a6, a7⟩ := runTrace hL hH.fr hsz hf (external := false) hp hq hn
    (l.contours.set (idOf e B w ht p - 1) { ct with internalIndexes := ct.internalIndexes ++ [done.length] }) (idOf e B w ht p)
    (m := if l.saveInternalContours = true then l.maxContourSize else 0)
    (by rw [hL.save, hL.mx]; simp)
  refine ⟨Labeller.setTracer { l with contours := l.contours.set (idOf e B w ht p - 1) { ct with internalIndexes := ct.internalIndexes ++ [done.length] }, packedPoints := ps' } t',
    h', ?_, ?_, trace_marks hB hH hs a4 a5 a6⟩
  · unfold Labeller.handleStep2
    rw [M.bind_ok hlb, hsub, hL.cont, c1, hs32, hns, ← hL.cont]
    exact a1
  · refine ⟨by rw [setTracer_min]; exact hL.mn, by rw [setTracer_max]; exact hL.mx, by rw [setTracer_save]; exact hL.save,
      by rw [setTracer_rule]; exact hL.rule, by rw [setTracer_border]; exact hL.border, by rw [setTracer_tracer]; exact a2,
      setTracer_base4 _ _ hL.rule hL.base4 a2.base, setTracer_base8 _ _ hL.rule hL.base8 a2.base,
      by rw [setTracer_points]; exact a3, ?_, ?_, ?_, ?_, ?_, by rw [setTracer_points]; exact a7.trans hL.block⟩
    · rw [setTracer_contours, tags, c2, List.length_map]
      show l.contours.set _ _ = _
      rw [hL.cont]
    · intro s hs'
      rcases List.mem_append.1 hs' with hs' | hs'
      · exact hL.good s hs'
      · rw [List.mem_singleton.1 hs']; exact hs
    · rw [List.map_append, List.pairwise_append]
      refine ⟨hL.apart, List.pairwise_singleton _ _, ?_⟩
      intro a ha b hb
      obtain ⟨d, hd, rfl⟩ := List.mem_map.1 ha
      rw [List.mem_singleton.1 hb]; exact hn d hd
    · intro k hk
      rw [cnt'] at hk
      rw [List.map_append, List.mem_append]
      exact Or.inl (hL.tagsA k hk)
    · intro s hs'
      rw [cnt']
      rcases List.mem_append.1 hs' with hs' | hs'
      · exact hL.tagsB s hs'
      · rw [List.mem_singleton.1 hs']; exact hid

end Boof
