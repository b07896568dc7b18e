import Verif.Proofs.ContourMemory
import Verif.Spec.ContourMemory
import Verif.Props.Contour
/-
Invariant of contour finders in memory, over their histories.
-/
namespace Boof
open M

theorem loop_store (b : Nat) (f : Nat → Int) (L : List Int) : ∀ (n : Nat) (h : Heap Int), h.get b = some L → n ≤ L.length →
    ∃ h', M.loop n (fun i => wr b i (f i)) h = .ok () h' ∧ h'.next = h.next ∧ (∀ c, c ≠ b → h'.get c = h.get c) ∧
      h'.get b = some ((List.range n).map f ++ L.drop n) := by
  intro n
  induction n with
  | zero => intro h hb _; exact ⟨h, rfl, rfl, fun _ _ => rfl, by simpa using hb⟩
  | succ n ih =>
    intro h hb hn
    obtain ⟨h1, e1, e2, e3, e4⟩ := ih h hb (by omega)
    have hlen : n < ((List.range n).map f ++ L.drop n).length := by simp; omega
    have hcell : h1.cell b n = some (((List.range n).map f ++ L.drop n)[n]) := by
      unfold Heap.cell
      rw [e4]
      exact List.getElem?_eq_getElem hlen
    refine ⟨h1.setCell b n (f n), ?_, ?_, ?_, ?_⟩
    · show (M.loop n (fun i => wr b i (f i)) >>= fun _ => wr b n (f n)) h = _
      rw [M.bind_ok e1]
      unfold M.wr
      rw [hcell]
    · rw [Heap.next_setCell, e2]
    · intro c hc
      rw [Heap.get_setCell_ne hc, e3 c hc]
    · rw [Heap.get_setCell_same e4]
      congr 1
      have hd : L.drop n = L[n] :: L.drop (n + 1) := List.drop_eq_getElem_cons (by omega)
      rw [hd, List.set_append, if_neg (by simp), List.range_succ, List.map_append]
      simp only [List.length_map, List.length_range, Nat.sub_self, List.set_cons_zero, List.map_cons, List.map_nil, List.append_assoc,
        List.cons_append, List.nil_append]

/-- The contents of the tables of a new tracer. -/
def freshTables (rule : ConnectRule) : Tables :=
  ⟨List.replicate rule.size 0, List.replicate rule.size 0,
    match rule with
      | .eight => (List.range 8).map (fun i => ((i + 4) % 8 + 2) % 8)
      | .four => (List.range 4).map (fun i => ((i + 2) % 4 + 1) % 4), rule⟩

theorem tracer_new (rule : ConnectRule) (junk : TracerObj) (h : Heap Int) : ∃ o h', TracerObj.new rule junk h = .ok o h' ∧
    h'.next = h.next + 3 ∧ (∀ b, b < h.next → h'.get b = h.get b) ∧
    (∀ p ∈ o.tabs (freshTables rule), h'.get p.1 = some p.2) ∧
    o.tables = [h.next + 1, h.next + 2, h.next] ∧
    o.value (freshTables rule) = Tracer.new rule (junk.value (freshTables rule)) ∧ o.rule = rule ∧ o.binary = none ∧ o.labeled = none := by
  have key : ∀ (n : Nat) (f : Nat → Int), ∃ h1, M.loop n (fun i => wr h.next i (f i)) (h.alloc (List.replicate n 0)) = .ok () h1 ∧
      h1.next = h.next + 1 ∧ (∀ b, b < h.next → h1.get b = h.get b) ∧ h1.get h.next = some ((List.range n).map f) := by
    intro n f
    obtain ⟨h1, e1, e2, e3, e4⟩ := loop_store h.next f (List.replicate n 0) n (h.alloc (List.replicate n 0))
      (by rw [Heap.get_alloc, if_pos rfl]) (by simp)
    refine ⟨h1, e1, by rw [e2, Heap.next_alloc], ?_, by rw [e4]; simp⟩
    intro b hb
    rw [e3 b (by omega), Heap.get_alloc, if_neg (by omega)]
  have fin : ∀ (n : Nat) (h1 : Heap Int) (N : List Int), h1.next = h.next + 1 → (∀ b, b < h.next → h1.get b = h.get b) →
      h1.get h.next = some N →
      ((h1.alloc (List.replicate n 0)).alloc (List.replicate n 0)).next = h.next + 3 ∧
      (∀ b, b < h.next → ((h1.alloc (List.replicate n 0)).alloc (List.replicate n 0)).get b = h.get b) ∧
      ((h1.alloc (List.replicate n 0)).alloc (List.replicate n 0)).get h1.next = some (List.replicate n 0) ∧
      ((h1.alloc (List.replicate n 0)).alloc (List.replicate n 0)).get (h1.alloc (List.replicate n (0 : Int))).next = some (List.replicate n 0) ∧
      ((h1.alloc (List.replicate n 0)).alloc (List.replicate n 0)).get h.next = some N := by
    intro n h1 N e1 e2 e3
    refine ⟨by rw [Heap.next_alloc, Heap.next_alloc, e1], ?_, ?_, ?_, ?_⟩
    · intro b hb
      rw [Heap.get_alloc, Heap.next_alloc, if_neg (by omega), Heap.get_alloc, if_neg (by omega), e2 b hb]
    · rw [Heap.get_alloc, Heap.next_alloc, if_neg (by omega), Heap.get_alloc, if_pos rfl]
    · rw [Heap.get_alloc, if_pos rfl]
    · rw [Heap.get_alloc, Heap.next_alloc, if_neg (by omega), Heap.get_alloc, if_neg (by omega), e3]
  cases rule with
  | four =>
    obtain ⟨h1, e1, e2, e3, e4⟩ := key 4 (fun i => (((i + 2) % 4 + 1) % 4 : Nat))
    obtain ⟨f1, f2, f3, f4, f5⟩ := fin 4 h1 _ e2 e3 e4
    refine ⟨{ junk with maxContourSize := 4294967295, rule := .four, ruleN := 4, binary := none, labeled := none, offsetsBinary := h1.next, offsetsLabeled := (h1.alloc (List.replicate 4 (0 : Int))).next, nextDirection := h.next }, _, ?_,
        f1, f2, ?_, ?_, rfl, rfl, rfl, rfl⟩
    · unfold TracerObj.new
      rw [M.bind_ok (rfl : newArr 4 (0 : Int) h = .ok h.next _), M.bind_ok e1, M.bind_ok (rfl : newArr 4 (0 : Int) h1 = .ok h1.next _),
        M.bind_ok (rfl : newArr 4 (0 : Int) (h1.alloc (List.replicate 4 0)) = .ok _ _)]
      rfl
    · intro p hp
      simp only [TracerObj.tabs, List.mem_cons, List.not_mem_nil, or_false] at hp
      rcases hp with rfl | rfl | rfl
      · exact f3
      · exact f4
      · exact f5.trans rfl
    · simp only [TracerObj.tables, Heap.next_alloc, e2]
  | eight =>
    obtain ⟨h1, e1, e2, e3, e4⟩ := key 8 (fun i => (((i + 4) % 8 + 2) % 8 : Nat))
    obtain ⟨f1, f2, f3, f4, f5⟩ := fin 8 h1 _ e2 e3 e4
    refine ⟨{ junk with maxContourSize := 4294967295, rule := .eight, ruleN := 8, binary := none, labeled := none, offsetsBinary := h1.next, offsetsLabeled := (h1.alloc (List.replicate 8 (0 : Int))).next, nextDirection := h.next }, _, ?_,
        f1, f2, ?_, ?_, rfl, rfl, rfl, rfl⟩
    · unfold TracerObj.new
      rw [M.bind_ok (rfl : newArr 8 (0 : Int) h = .ok h.next _), M.bind_ok e1, M.bind_ok (rfl : newArr 8 (0 : Int) h1 = .ok h1.next _),
        M.bind_ok (rfl : newArr 8 (0 : Int) (h1.alloc (List.replicate 8 0)) = .ok _ _)]
      rfl
    · intro p hp
      simp only [TracerObj.tabs, List.mem_cons, List.not_mem_nil, or_false] at hp
      rcases hp with rfl | rfl | rfl
      · exact f3
      · exact f4
      · exact f5.trans rfl
    · simp only [TracerObj.tables, Heap.next_alloc, e2]

/-- The tables with their contents, in the heap `h`. -/
def Ix.of (h : Heap Int) (TT : Tables2) : Ix := ⟨TT.A4 ++ TT.A8, fun b => (h.get b).isSome = true, h.next⟩

/-- Class invariant: the tables are in memory, and with their contents the finder is a value with a history. -/
structure LabellerObj.Inv (h : Heap Int) (o : LabellerObj) (TT : Tables2) : Prop where
  inn : TT.In (Ix.of h TT)
  rel : FRel (Ix.of h TT) TT o (o.value TT.t4 TT.t8)
  mem : ∀ p ∈ TT.A4 ++ TT.A8, h.get p.1 = some p.2
  value : Labeller.Reachable h (o.value TT.t4 TT.t8)

theorem LabellerObj.Inv.heaps {h : Heap Int} {o : LabellerObj} {TT : Tables2} (hi : o.Inv h TT) : RelH (Ix.of h TT) h h :=
  ⟨rfl, rfl, fun _ _ => rfl, hi.mem, fun _ => Iff.rfl⟩

theorem LabellerObj.Inv.keys {h : Heap Int} {o : LabellerObj} {TT : Tables2} (hi : o.Inv h TT) : (Ix.of h TT).keys = o.tables := by
  have e4 := hi.rel.t4.addr
  have e8 := hi.rel.t8.addr
  unfold Ix.keys Ix.of
  rw [← e4, ← e8]
  rfl

theorem LabellerObj.Inv.nodup {h : Heap Int} {o : LabellerObj} {TT : Tables2} (hi : o.Inv h TT) : o.arrays.Nodup := by
  have h1 := hi.inn.nodup
  have h2 := hi.rel.border.2
  rw [hi.keys] at h1 h2
  unfold LabellerObj.arrays
  rw [List.nodup_append]
  refine ⟨h1, by simp, ?_⟩
  intro a ha b hb e
  rw [List.mem_singleton] at hb
  exact h2 (hb ▸ e ▸ ha)

theorem LabellerObj.Inv.alive {h : Heap Int} {o : LabellerObj} {TT : Tables2} (hi : o.Inv h TT) : ∀ b ∈ o.arrays, (h.get b).isSome = true := by
  intro b hb
  unfold LabellerObj.arrays at hb
  rcases List.mem_append.1 hb with hb | hb
  · rw [← hi.keys] at hb
    obtain ⟨p, hp, rfl⟩ := List.mem_map.1 hb
    rw [hi.mem p hp]; rfl
  · rw [List.mem_singleton] at hb
    subst hb
    exact hi.value.ready.valid.live

theorem LabellerObj.Inv.accepts {h : Heap Int} {o : LabellerObj} {TT : Tables2} {binary labeled : Gray} {f : Nat → Nat → Int} {fuel : Nat}
    (_ : o.Inv h TT) (ha : o.Accepts h binary labeled f fuel) : (o.value TT.t4 TT.t8).Accepts h binary labeled f fuel := by
  have hb : o.border.buf ∈ o.arrays := by simp [LabellerObj.arrays]
  exact ⟨ha.valid, ha.shows, ha.bits, ha.size, ha.labelValid, ha.labelShape, ha.labelStride, ha.apart,
    ⟨fun e => ha.foreign.1 (e ▸ hb), fun e => ha.foreign.2 (e ▸ hb)⟩, ha.fuelEnough⟩

/-- The two runs, side by side. -/
theorem LabellerObj.Inv.process {h : Heap Int} {o : LabellerObj} {TT : Tables2} {binary labeled : Gray} {f : Nat → Nat → Int} {fuel : Nat}
    (hi : o.Inv h TT) (ha : o.Accepts h binary labeled f fuel) :
    ∃ o' l' lab h' hv TT', o.process fuel binary labeled h = .ok (o', lab) h' ∧
      (o.value TT.t4 TT.t8).process fuel binary labeled h = .ok (l', lab) hv ∧ l' = o'.value TT'.t4 TT'.t8 ∧
      o'.Inv h' TT' ∧ o'.tables = o.tables ∧ (∀ b, b ∉ o.tables → h'.get b = hv.get b) ∧
      ∃ P, Swap (fun b => (h.get b).isSome = true) P labeled.buf lab.buf ∧
        Swap P (fun b => (h'.get b).isSome = true) o.border.buf o'.border.buf := by
  have ha' := hi.accepts ha
  obtain ⟨l', lab, hv, ev, -⟩ := C67_process_succeeds hi.value ha'
  have hk := hi.keys
  have sub : ∀ b, b ∈ o.tables → b ∈ o.arrays := fun b hb => List.mem_append_left _ hb
  have hs := sim_process hi.inn hi.rel fuel (binary := binary) (labeled := labeled) (by rw [hk]; exact fun e => ha.foreign.2 (sub _ e))
    (by rw [hk]; exact fun e => ha.foreign.1 (sub _ e)) h h hi.heaps
  rw [ev] at hs
  cases em : o.process fuel binary labeled h with
  | ok a h' =>
    rw [em] at hs
    obtain ⟨ix', ⟨⟨TT', hT', hF'⟩, hlab, hoff, hkeys, P, hs1, hs2⟩, hr⟩ := hs
    obtain ⟨o', lab'⟩ := a
    dsimp only at hlab
    subst hlab
    have hval := hF'.val
    dsimp only at hval
    have hRv : Labeller.Reachable hv l' := .process hi.value ha' ev
    have hbor : o'.border.buf ∉ ix'.keys := hF'.border.2
    have htab : ix'.tab = TT'.A4 ++ TT'.A8 := hT'.tab
    have hix : ix'.keys = (Ix.of h' TT').keys := by unfold Ix.keys Ix.of; rw [htab]
    have hinv : o'.Inv h' TT' := by
      refine ⟨⟨rfl, by rw [← hix]; exact hT'.nodup, hT'.rl4, hT'.rl8, hT'.len4, hT'.len8⟩,
        ⟨rfl, hF'.t4.retab hix.symm, hF'.t8.retab hix.symm, hF'.border.1, by rw [← hix]; exact hbor⟩, ?_, ?_⟩
      · intro p hp; exact hr.tables p (by rw [htab]; exact hp)
      · rw [← hval]
        have hb' : l'.border = o'.border := by rw [hval]; rfl
        refine .elsewhere hRv ?_ ?_
        · intro i; rw [hb']; exact hr.cell hbor i
        · rw [hb', hr.same _ hbor]
    refine ⟨o', l', lab', h', hv, TT', rfl, ev, hval, hinv, ?_, ?_, P, hs1, ?_⟩
    · rw [← hinv.keys, ← hix, hkeys, hk]
    · intro b hb
      exact hr.same b (by rw [hkeys, hk]; exact hb)
    · convert hs2 using 1
      funext b
      exact propext (hr.alive b)
  | throw _ => rw [em] at hs; exact hs.elim
  | ub => rw [em] at hs; exact hs.elim
  | timeout => rw [em] at hs; exact hs.elim

theorem labeller_new (rule : ConnectRule) (junk : TracerObj) (h : Heap Int) : ∃ o h' TT, LabellerObj.new rule junk h = .ok o h' ∧
    o.Inv h' TT ∧ h'.next = h.next + 7 ∧ (∀ b, b < h.next → h'.get b = h.get b) ∧ (∀ b ∈ o.arrays, h.next ≤ b) ∧
    o.rule = rule ∧ o.limits = ⟨0, 4294967295, true⟩ := by
  obtain ⟨a, h1, a1, a2, a3, a4, a5, a6, a7, a8, a9⟩ := tracer_new .four junk h
  obtain ⟨b, h2, b1, b2, b3, b4, b5, b6, b7, b8, b9⟩ := tracer_new .eight junk h1
  rw [a2] at b2 b5
  let border : Gray := { buf := h2.next, dataLength := wrap32 (0 * 0), width := 0, height := 0, offset := 0, stride := 0, subimage := false }
  let o : LabellerObj :=
    { minContourSize := 0, maxContourSize := 4294967295, saveInternalContours := true, tracer4 := a, tracer8 := b, rule := rule,
      border := border, packedPoints := PackedSet.new ⟨0, 0⟩ 2000, contours := [] }
  have eb : Gray.new (0 : Int) 0 0 h2 = .ok border (h2.alloc []) := rfl
  let TT : Tables2 := ⟨freshTables .four, freshTables .eight, a.tabs (freshTables .four), b.tabs (freshTables .eight), border⟩
  have hk : (Ix.of (h2.alloc []) TT).keys = a.tables ++ b.tables := rfl
  have ta : ∀ c ∈ a.tables, h.next ≤ c ∧ c < h.next + 3 := by rw [a5]; intro c hc; simp at hc; omega
  have tb : ∀ c ∈ b.tables, h.next + 3 ≤ c ∧ c < h.next + 6 := by rw [b5]; intro c hc; simp at hc; omega
  refine ⟨o, h2.alloc [], TT, ?_, ⟨⟨rfl, ?_, rfl, rfl, ⟨rfl, rfl⟩, ⟨rfl, rfl⟩⟩, ⟨rfl, ⟨rfl, rfl, ?_, ?_, a7⟩, ⟨rfl, rfl, ?_, ?_, b7⟩, rfl, ?_⟩, ?_, ?_⟩,
    ?_, ?_, ?_, rfl, rfl⟩
  · unfold LabellerObj.new
    rw [M.bind_ok a1, M.bind_ok b1, M.bind_ok eb]
    rfl
  · rw [hk, a5, b5]
    simp only [List.cons_append, List.nil_append, List.nodup_cons, List.mem_cons, List.not_mem_nil, or_false, not_or, not_false_eq_true,
      List.nodup_nil, and_true]
    omega
  · intro g hg; rw [a8] at hg; cases hg
  · intro g hg; rw [a9] at hg; cases hg
  · intro g hg; rw [b8] at hg; cases hg
  · intro g hg; rw [b9] at hg; cases hg
  · rw [hk]
    show h2.next ∉ _
    intro hc
    rcases List.mem_append.1 hc with hc | hc
    · have := ta _ hc; omega
    · have := tb _ hc; omega
  · intro p hp
    rcases List.mem_append.1 hp with hp | hp
    · have e := a4 p hp
      have hlt := Heap.lt_next_of_get e
      rw [Heap.get_alloc, if_neg (by omega), b3 _ hlt, e]
    · have e := b4 p hp
      have hlt := Heap.lt_next_of_get e
      rw [Heap.get_alloc, if_neg (by omega), e]
  · refine .new (rule := rule) (junk := junk.value (freshTables .four)) (h := h2) ?_
    unfold Labeller.new
    rw [M.bind_ok eb]
    show Res.ok _ _ = Res.ok (o.value (freshTables .four) (freshTables .eight)) _
    congr 1
    unfold LabellerObj.value
    rw [show o.tracer4 = a from rfl, show o.tracer8 = b from rfl, a6, b6]
    rfl
  · rw [Heap.next_alloc]; omega
  · intro c hc
    rw [Heap.get_alloc, if_neg (by omega), b3 c (by omega), a3 c hc]
  · intro c hc
    simp only [LabellerObj.arrays, LabellerObj.tables, List.mem_append, List.mem_singleton] at hc
    rcases hc with (hc | hc) | hc
    · exact (ta c hc).1
    · have := tb c hc; omega
    · have : c = h2.next := hc
      omega

theorem obj_refused {h : Heap Int} {o : LabellerObj} {binary labeled : Gray} (fuel : Nat)
    (hc : ¬labeled.CanBe binary.width binary.height) : o.process fuel binary labeled h = .throw h := by
  have hs : labeled.subimage = true := by
    cases hs : labeled.subimage
    · exact absurd (Or.inl hs) hc
    · rfl
  unfold LabellerObj.process
  rw [M.bind_throw (reshape_throws 0 hs (fun h => hc (Or.inr h)))]

theorem LabellerObj.Reachable.inv {h : Heap Int} {o : LabellerObj} (ho : LabellerObj.Reachable h o) : ∃ TT, o.Inv h TT := by
  induction ho with
  | @new rule junk h h' o hr =>
    obtain ⟨o1, h1, TT, e, hi, -⟩ := labeller_new rule junk h
    rw [e] at hr
    cases hr
    exact ⟨TT, hi⟩
  | @process h h' o o' binary labeled lab f fuel _ ha hr ih =>
    obtain ⟨TT, hi⟩ := ih
    obtain ⟨o1, l1, lab1, h1, hv, TT', e, -, -, hi', -⟩ := hi.process ha
    rw [e] at hr
    cases hr
    exact ⟨TT', hi'⟩
  | @refused h h' o binary labeled fuel _ hc hr ih =>
    rw [obj_refused fuel hc] at hr
    cases hr
    exact ih
  | setConnectRule rule _ ih =>
    obtain ⟨TT, hi⟩ := ih
    exact ⟨TT, hi.inn, ⟨rfl, hi.rel.t4, hi.rel.t8, hi.rel.border⟩, hi.mem, .setConnectRule rule hi.value⟩
  | setLimits a b c _ ih =>
    obtain ⟨TT, hi⟩ := ih
    exact ⟨TT, hi.inn, ⟨rfl, hi.rel.t4, hi.rel.t8, hi.rel.border⟩, hi.mem, .setLimits a b c hi.value⟩
  | @elsewhere h h' o _ hg ih =>
    obtain ⟨TT, hi⟩ := ih
    have hb : o.border.buf ∈ o.arrays := by simp [LabellerObj.arrays]
    refine ⟨TT, ⟨rfl, hi.inn.nodup, hi.inn.rl4, hi.inn.rl8, hi.inn.len4, hi.inn.len8⟩, ⟨rfl, hi.rel.t4.retab rfl, hi.rel.t8.retab rfl, hi.rel.border⟩,
      ?_, ?_⟩
    · intro p hp
      rw [hg, hi.mem p hp]
      apply List.mem_append_left
      rw [← hi.keys]
      exact List.mem_map.2 ⟨p, hp, rfl⟩
    · refine .elsewhere hi.value ?_ ?_
      · intro i
        show h'.cell o.border.buf i = h.cell o.border.buf i
        unfold Heap.cell; rw [hg _ hb]
      · show (h'.get o.border.buf).isSome = (h.get o.border.buf).isSome
        rw [hg _ hb]

end Boof
