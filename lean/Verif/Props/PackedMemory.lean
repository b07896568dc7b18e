import Verif.Proofs.PackedMemory
import Verif.Props.PackedSet
/-
C111: the memory of packed sets.
-/
namespace Boof
variable {V : Type}
open PackedSet (Rep elem_pos cell_eq info_none info_some load_rep new_rep)

/-- The object in memory stands for the list of lists. -/
structure MemCore (h : Heap (Slot V)) (o : PackedObj) (p : PackedSet V) (L : List (List V)) (A : List Nat) : Prop where
  rep : Rep p L
  mirrors : Mirrors h o p A

/-- The object's state in a history which started with the memory `h0`. -/
structure MemRep (h0 h : Heap (Slot V)) (o : PackedObj) (p : PackedSet V) (L : List (List V)) (A : List Nat) : Prop
    extends MemCore h o p L A where
  old : ∀ b, b < h0.next → h.get b = h0.get b
  mine : ∀ b ∈ o.blocks :: A, h0.next ≤ b
  all : ∀ b, h0.next ≤ b → (h.get b).isSome → b ∈ o.blocks :: A
  next : h0.next ≤ h.next

theorem MemRep.kept {h0 h h' : Heap (Slot V)} {o o' : PackedObj} {p q : PackedSet V} {L L' : List (List V)} {A A' : List Nat}
    (r : MemRep h0 h o p L A) (hr : Rep q L') (hm : Mirrors h' o' q A') (k : KeptBlocks h h' (o.blocks :: A) (o'.blocks :: A')) :
    MemRep h0 h' o' q L' A' := by
  have hn := r.next
  have hk := k.next
  refine ⟨⟨hr, hm⟩, ?_, ?_, ?_, by omega⟩
  · intro b hb
    rw [k.other b (by omega) (fun c => by have := r.mine b c; omega), r.old b hb]
  · intro b hb
    rcases k.fresh b hb with c | c
    · exact r.mine b c
    · omega
  · intro b hb hs
    by_cases c : b < h.next
    · by_cases c1 : b ∈ o.blocks :: A
      · by_cases c2 : b ∈ o'.blocks :: A'
        · exact c2
        · rw [k.gone b c1 c2] at hs; cases hs
      · rw [k.other b c c1] at hs
        exact absurd (r.all b hb hs) c1
    · exact k.live b (by omega) hs

/-- Where the element is. -/
theorem MemCore.at_run {h : Heap (Slot V)} {o : PackedObj} {p : PackedSet V} {L : List (List V)} {A : List Nat}
    (r : MemCore h o p L A) {k e : Nat} {l : List V} {v : V} (hk : L[k]? = some l) (he : l[e]? = some v) :
    ∃ a, A[((L.take k).flatten.length + e) / p.sizeOfBlock]? = some a ∧
      (o.at' k e : M (Slot V) (Nat × Nat)) h = .ok (a, ((L.take k).flatten.length + e) % p.sizeOfBlock) h ∧
      h.cell a (((L.take k).flatten.length + e) % p.sizeOfBlock) = some (.elem v) := by
  have hlt : e < l.length := by
    rcases Nat.lt_or_ge e l.length with c | c
    · exact c
    · rw [List.getElem?_eq_none c] at he; cases he
  obtain ⟨s, e1, e2, e3, e4, e5⟩ := elem_pos r.rep hk hlt
  obtain ⟨a, ea, er, ec, -⟩ := r.mirrors.place_run (s := s) (i := e) (v := v) (by rw [cell_eq r.rep, e3, e5, he])
  rw [e3] at ea er ec
  refine ⟨a, ea, ?_, ec⟩
  unfold PackedObj.at'
  rw [r.mirrors.info, e1]
  simp only
  rw [if_neg (by omega)]
  exact er

theorem MemCore.at_throw {h : Heap (Slot V)} {o : PackedObj} {p : PackedSet V} {L : List (List V)} {A : List Nat}
    (r : MemCore h o p L A) {k e : Nat} (hv : (L[k]?).bind (fun l => l[e]?) = none) :
    (o.at' k e : M (Slot V) (Nat × Nat)) h = .throw h := by
  unfold PackedObj.at'
  rw [r.mirrors.info]
  rcases hl : L[k]? with _ | l
  · rw [info_none r.rep (by simpa using hl)]; rfl
  · rw [hl] at hv
    simp only [Option.bind_some, List.getElem?_eq_none_iff] at hv
    obtain ⟨s, e1, e2⟩ := info_some r.rep hl
    rw [e1]
    simp only
    rw [if_pos (by omega)]; rfl

theorem MemCore.observes {h : Heap (Slot V)} {o : PackedObj} {p : PackedSet V} {L : List (List V)} {A : List Nat}
    (r : MemCore h o p L A) : MemObserves o h L := by
  have ob := observes_of_rep r.rep
  refine ⟨by rw [r.mirrors.info]; exact ob.number, ?_, ?_, fun k e hv => r.at_throw hv, ?_, ?_⟩
  · have := ob.tail
    unfold PackedSet.sizeOfTail at this
    unfold PackedObj.sizeOfTail
    rw [r.mirrors.info]; exact this
  · intro k e v hv
    rcases hl : L[k]? with _ | l
    · rw [hl] at hv; cases hv
    · rw [hl] at hv
      obtain ⟨a, -, e1, e2⟩ := r.at_run hl hv
      exact ⟨_, _, e1, e2⟩
  · intro k l out hl
    obtain ⟨s, e1, e2⟩ := info_some r.rep hl
    have := load_rep r.rep hl e1 out l.length (Nat.le_refl _)
    rw [List.take_length] at this
    unfold PackedObj.loadSet
    rw [r.mirrors.info, e1]
    simp only
    rw [e2]
    exact r.mirrors.loadLoop_run this
  · intro k out hl
    unfold PackedObj.loadSet
    rw [r.mirrors.info, info_none r.rep (by simpa using hl)]; rfl

theorem MemRep.releases {h0 h : Heap (Slot V)} {o : PackedObj} {p : PackedSet V} {L : List (List V)} {A : List Nat}
    (r : MemRep h0 h o p L A) : Releases o h0 h := by
  obtain ⟨h', e, g, n⟩ := r.mirrors.destroy_run
  refine ⟨h', e, ?_, ?_⟩
  · intro b hb
    rw [g, if_neg (fun c => by have := r.mine b c; omega), r.old b hb]
  · intro b hb
    rw [g]
    split
    · rfl
    · rename_i hc
      rcases hs : h.get b with _ | l
      · rfl
      · exact absurd (r.all b hb (by rw [hs]; rfl)) hc

/-- One operation. -/
theorem MemCore.step (junk : V) {h : Heap (Slot V)} {o : PackedObj} {p : PackedSet V} {L : List (List V)} {A : List Nat}
    (r : MemCore h o p L A) (op : MOp V) (hb : ((op.spec L).getD L).flatten.length < P32) :
    match op.spec L with
    | some L' => ∃ o' h' q A', op.run junk o h = .ok o' h' ∧ MemCore h' o' q L' A' ∧ KeptBlocks h h' (o.blocks :: A) (o'.blocks :: A') ∧ A <+: A' ∧ q.sizeOfBlock = p.sizeOfBlock
    | none => op.run junk o h = .throw h := by
  have m := r.mirrors
  have hdiv : ∀ n s : Nat, n + 1 < P32 → n / s + 1 < P32 := fun n s hn => by have := Nat.div_le_self n s; omega
  -- pushing an element
  have push : ∀ (v : V) (e : ElemRef V), e.Is h v → (pushLast v L).flatten.length < P32 →
      ∃ o' h' q A', o.pushTail junk e h = .ok o' h' ∧ MemCore h' o' q (pushLast v L) A' ∧
        KeptBlocks h h' (o.blocks :: A) (o'.blocks :: A') ∧ A <+: A' ∧ q.sizeOfBlock = p.sizeOfBlock := by
    intro v e he hlen
    have hs := step_rep junk r.rep (.push v) (by simpa [POp.spec] using hlen)
    simp only [POp.spec, POp.run] at hs
    obtain ⟨q, e1, e2, e3⟩ := hs
    rw [length_pushLast, ← r.rep.total] at hlen
    obtain ⟨o', h', A', f1, f2, f3, f4⟩ := m.pushTail_run junk he e1 (hdiv _ _ hlen)
    exact ⟨o', h', q, A', f1, ⟨e2, f2⟩, f3, f4, e3⟩
  cases op with
  | pushOwn k e =>
    simp only [MOp.spec] at hb ⊢
    rcases hv : (L[k]?).bind (fun l => l[e]?) with _ | v
    · simp only [Option.map_none, MOp.run]
      rw [M.bind_throw (r.at_throw hv)]
    · rw [hv] at hb
      simp only [Option.map_some, Option.getD_some] at hb ⊢
      rcases hl : L[k]? with _ | l
      · rw [hl] at hv; cases hv
      rw [hl] at hv
      obtain ⟨a, -, e1, e2⟩ := r.at_run hl hv
      obtain ⟨o', h', q, A', f⟩ := push v (.place a (((L.take k).flatten.length + e) % p.sizeOfBlock)) e2 hb
      refine ⟨o', h', q, A', ?_, f.2⟩
      simp only [MOp.run]
      rw [M.bind_ok e1]
      exact f.1
  | op op =>
    have hs := step_rep junk r.rep op (by simpa [MOp.spec] using hb)
    simp only [MOp.spec] at hb ⊢
    cases op with
    | clear =>
      simp only [POp.spec, POp.run, PackedSet.clear] at hs ⊢
      obtain ⟨q, e1, e2, e3⟩ := hs
      cases e1
      exact ⟨_, h, _, A, rfl, ⟨e2, (m.congr rfl rfl rfl m.size rfl rfl)⟩, KeptBlocks.refl _ _, List.prefix_rfl, rfl⟩
    | start =>
      simp only [POp.spec, POp.run, PackedSet.startNewSet] at hs ⊢
      obtain ⟨q, e1, e2, e3⟩ := hs
      have h0' : p.sizeOfBlock ≠ 0 := by have := r.rep.pos; omega
      rw [if_neg h0'] at e1
      cases e1
      refine ⟨{ o with setInfo := o.setInfo ++ [{ block := o.total / o.sizeOfBlock, offset := o.total % o.sizeOfBlock, size := 0 }] },
        h, _, A, ?_, ⟨e2, (m.congr rfl rfl rfl m.size m.total ?_)⟩, KeptBlocks.refl _ _, List.prefix_rfl, rfl⟩
      · simp only [MOp.run, PackedObj.startNewSet]
        rw [if_neg (by rw [m.size]; exact h0')]; rfl
      · show o.setInfo ++ _ = p.setInfo ++ _
        rw [m.info, m.total, m.size]
    | push v => exact push v (.value v) rfl (by simpa [POp.spec] using hb)
    | remove =>
      simp only [POp.spec, POp.run, PackedSet.removeTail] at hs ⊢
      obtain ⟨q, e1, e2, e3⟩ := hs
      simp only [MOp.run, PackedObj.removeTail]
      rw [m.info]
      rcases hl : p.setInfo.getLast? with _ | s
      · rw [hl] at e1; cases e1
        exact ⟨o, h, _, A, rfl, ⟨e2, m⟩, KeptBlocks.refl _ _, List.prefix_rfl, rfl⟩
      · rw [hl] at e1; cases e1
        refine ⟨_, h, _, A, rfl, ⟨e2, (m.congr rfl rfl rfl m.size ?_ rfl)⟩, KeptBlocks.refl _ _, List.prefix_rfl, rfl⟩
        show sub32 _ _ = sub32 _ _
        rw [m.total]
    | write k v =>
      simp only [POp.spec, POp.run, PackedSet.writeSet] at hs ⊢
      simp only [MOp.run, PackedObj.writeSet]
      rw [m.info]
      by_cases hc : L[k]?.map List.length = some v.length
      · rw [if_pos hc] at hs ⊢
        obtain ⟨q, e1, e2, e3⟩ := hs
        rcases hk : p.setInfo[k]? with _ | s
        · rw [hk] at e1; cases e1
        rw [hk] at e1
        simp only at e1 ⊢
        by_cases hl : v.length ≠ s.size
        · rw [if_pos hl] at e1; cases e1
        rw [if_neg hl] at e1 ⊢
        rcases hw : PackedSet.writeLoop s v p s.size with _ | q1
        · rw [hw] at e1; cases e1
        rw [hw] at e1; cases e1
        obtain ⟨h', f1, f2, f3⟩ := m.writeLoop_run hw _ (fun _ => rfl)
        exact ⟨o, h', q, A, M.bind_ok (f := fun _ => pure o) f1, ⟨e2, f2⟩, f3, List.prefix_rfl, e3⟩
      · rw [if_neg hc] at hs ⊢
        simp only
        rcases hk : p.setInfo[k]? with _ | s
        · rfl
        · rw [hk] at hs
          simp only at hs ⊢
          by_cases hl : v.length ≠ s.size
          · rw [if_pos hl]; rfl
          · rw [if_neg hl] at hs
            rcases hw : PackedSet.writeLoop s v p s.size with _ | q1
            · rw [hw] at hs; cases hs
            · rw [hw] at hs; cases hs

theorem MemRep.step (junk : V) {h0 h : Heap (Slot V)} {o : PackedObj} {p : PackedSet V} {L : List (List V)} {A : List Nat}
    (r : MemRep h0 h o p L A) (op : MOp V) (hb : ((op.spec L).getD L).flatten.length < P32) :
    match op.spec L with
    | some L' => ∃ o' h' q A', op.run junk o h = .ok o' h' ∧ MemRep h0 h' o' q L' A' ∧ A <+: A' ∧ q.sizeOfBlock = p.sizeOfBlock
    | none => op.run junk o h = .throw h := by
  have hs := r.toMemCore.step junk op hb
  rcases ho : op.spec L with _ | L'
  · rw [ho] at hs; exact hs
  · rw [ho] at hs
    obtain ⟨o', h', q, A', e, c, k, x⟩ := hs
    exact ⟨o', h', q, A', e, r.kept c.rep c.mirrors k, x⟩

theorem memSpec_append (a b : List (MOp V)) (L : List (List V)) : memSpec (a ++ b) L = memSpec b (memSpec a L) := by
  unfold memSpec; rw [List.foldl_append]

/-- A history. -/
theorem MemRep.run (junk : V) {h0 : Heap (Slot V)} (ops : List (MOp V)) {h : Heap (Slot V)} {o : PackedObj} {p : PackedSet V}
    {L : List (List V)} {A : List Nat} (r : MemRep h0 h o p L A) (hb : MemBounded ops L) :
    ∃ o' h' q A', memRun junk ops (o, h) = some (o', h') ∧ MemRep h0 h' o' q (memSpec ops L) A' ∧ A <+: A' ∧ q.sizeOfBlock = p.sizeOfBlock := by
  induction ops generalizing h o p L A with
  | nil => exact ⟨o, h, p, A, rfl, r, List.prefix_rfl, rfl⟩
  | cons op ops ih =>
    have h1 : ((op.spec L).getD L).flatten.length < P32 := hb 1
    have h2 : MemBounded ops ((op.spec L).getD L) := fun n => hb (n + 1)
    have hs := r.step junk op h1
    rcases ho : op.spec L with _ | L'
    · rw [ho] at hs h2
      obtain ⟨o', h', q, A', e, f1, f2, f3⟩ := ih r h2
      refine ⟨o', h', q, A', ?_, ?_, f2, f3⟩
      · unfold memRun; rw [hs]; exact e
      · simpa [memSpec, ho] using f1
    · rw [ho] at hs h2
      obtain ⟨o1, h1', q1, A1, e1, r1, x1, s1⟩ := hs
      obtain ⟨o', h', q, A', e, f1, f2, f3⟩ := ih r1 h2
      refine ⟨o', h', q, A', ?_, ?_, x1.trans f2, f3.trans s1⟩
      · unfold memRun; rw [e1]; exact e
      · simpa [memSpec, ho] using f1

theorem MemRep.new (junk : V) {s : Nat} (hs : 0 < s) (h0 : Heap (Slot V)) :
    ∃ o h A, PackedObj.new junk s h0 = .ok o h ∧ MemRep h0 h o (PackedSet.new junk s) [] A := by
  obtain ⟨o, h, e, m, eb, k⟩ := new_mirrors junk s h0
  refine ⟨o, h, _, e, ⟨new_rep junk hs, m⟩, fun b hb => k.other b hb List.not_mem_nil, ?_, k.live, k.next⟩
  intro b hb
  rcases k.fresh b hb with c | c
  · exact absurd c List.not_mem_nil
  · exact c

/-- Construct an object and run a history on it, in the memory `h0`. -/
def packedLife (junk : V) (s : Nat) (ops : List (MOp V)) (h0 : Heap (Slot V)) : Option (PackedObj × Heap (Slot V)) :=
  match PackedObj.new junk s h0 with
  | .ok o h => memRun junk ops (o, h)
  | _ => none

/-- After any history no operation of which is undefined behaviour, every query answers as for the list of lists, also when
elements of the collection itself are appended by reference; the memory of others is as it was; and destroying the object
releases all it ever made, each array once. -/
theorem C111_life (junk : V) {s : Nat} (hs : 0 < s) (ops : List (MOp V)) (hb : MemBounded ops []) (h0 : Heap (Slot V)) :
    ∃ o h, packedLife junk s ops h0 = some (o, h) ∧ MemObserves o h (memSpec ops []) ∧
      (∀ b, b < h0.next → h.get b = h0.get b) ∧ Releases o h0 h := by
  obtain ⟨o, h, A, e, r⟩ := MemRep.new junk hs h0
  obtain ⟨o', h', q, A', e', r', -, -⟩ := r.run junk ops hb
  exact ⟨o', h', by unfold packedLife; rw [e]; exact e', r'.observes, r'.old, r'.releases⟩

theorem take_lengths_pushLast (v : V) (L : List (List V)) {k : Nat} (hk : k < L.length) :
    ((pushLast v L).take k).map List.length = (L.take k).map List.length := by
  rcases List.eq_nil_or_concat L with rfl | ⟨L, l, rfl⟩
  · simp at hk
  · rw [List.concat_eq_append] at *
    rw [pushLast_concat]
    simp only [List.length_append, List.length_cons, List.length_nil] at hk
    rw [List.take_append_of_le_length (by omega), List.take_append_of_le_length (by omega)]

theorem set_before (op : MOp V) {L : List (List V)} {k : Nat} (hk : k < L.length) (hk' : k < ((op.spec L).getD L).length) :
    ((((op.spec L).getD L).take k).map List.length) = (L.take k).map List.length := by
  cases op with
  | pushOwn i e =>
    simp only [MOp.spec]
    rcases (L[i]?).bind (fun l => l[e]?) with _ | v
    · rfl
    · exact take_lengths_pushLast v L hk
  | op op =>
    cases op with
    | clear => simp [MOp.spec, POp.spec] at hk'
    | start =>
      show ((L ++ [[]]).take k).map List.length = _
      rw [List.take_append_of_le_length (by omega)]
    | push v => exact take_lengths_pushLast v L hk
    | remove =>
      simp only [MOp.spec, POp.spec, Option.getD_some, List.length_dropLast] at hk' ⊢
      rw [List.dropLast_eq_take, List.take_take, Nat.min_eq_left (by omega)]
    | write i v =>
      simp only [MOp.spec, POp.spec]
      split
      · rename_i hc
        simp only [Option.getD_some]
        rw [List.map_take, List.map_take, List.map_set]
        congr 1
        apply List.ext_getElem?
        intro j
        rw [List.getElem?_set]
        split
        · rename_i hij
          subst hij
          rw [List.getElem?_map, hc]
          split
          · rfl
          · rename_i hlt
            rw [List.length_map] at hlt
            rw [List.getElem?_eq_none (by omega)] at hc
            cases hc
        · rfl
      · rfl

theorem before_kept (ops : List (MOp V)) {L : List (List V)} {k : Nat} (hk : ∀ n, k < (memSpec (ops.take n) L).length) :
    ((memSpec ops L).take k).map List.length = (L.take k).map List.length := by
  induction ops generalizing L with
  | nil => rfl
  | cons op ops ih =>
    have h0 : k < L.length := hk 0
    have h1 : k < ((op.spec L).getD L).length := hk 1
    have := ih (L := (op.spec L).getD L) (fun n => hk (n + 1))
    rw [set_before op h0 h1] at this
    exact this

theorem flatten_length_eq {L L' : List (List V)} (h : L.map List.length = L'.map List.length) : L.flatten.length = L'.flatten.length := by
  rw [List.length_flatten, List.length_flatten, h]

/-- A reference to an element stays good: whatever is done to the collection while the element's set is kept, the reference
got before stands for the same place as one got afterwards, which holds the element. -/
theorem C111_references (junk : V) {s : Nat} (hs : 0 < s) (ops ops' : List (MOp V)) (hb : MemBounded (ops ++ ops') [])
    (h0 : Heap (Slot V)) {k e : Nat} (hkept : ∀ n, k < (memSpec (ops ++ ops'.take n) []).length)
    {v v' : V} (hv : ((memSpec ops [])[k]?).bind (fun l => l[e]?) = some v)
    (hv' : ((memSpec (ops ++ ops') [])[k]?).bind (fun l => l[e]?) = some v') :
    ∃ o h o' h' b i, packedLife junk s ops h0 = some (o, h) ∧ o.at' k e h = .ok (b, i) h ∧ h.cell b i = some (.elem v) ∧
      memRun junk ops' (o, h) = some (o', h') ∧ o'.at' k e h' = .ok (b, i) h' ∧ h'.cell b i = some (.elem v') := by
  have hb1 : MemBounded ops ([] : List (List V)) := by
    intro n
    rcases Nat.le_total n ops.length with c | c
    · have := hb n
      rw [List.take_append_of_le_length c] at this; exact this
    · rw [List.take_of_length_le c]
      have := hb ops.length
      rw [List.take_append_of_le_length (Nat.le_refl _), List.take_length] at this; exact this
  have hb2 : MemBounded ops' (memSpec ops ([] : List (List V))) := by
    intro n
    have := hb (ops.length + n)
    rw [List.take_length_add_append, memSpec_append] at this
    exact this
  obtain ⟨o, h, A, e0, r0⟩ := MemRep.new junk hs h0
  obtain ⟨o1, h1, p1, A1, e1, r1, -, s1⟩ := r0.run junk ops hb1
  obtain ⟨o2, h2, p2, A2, e2, r2, x2, s2⟩ := r1.run junk ops' hb2
  have hpre := before_kept ops' (L := memSpec ops []) (k := k) (fun n => by have := hkept n; rw [memSpec_append] at this; exact this)
  rw [memSpec_append] at hv'
  rcases hl : (memSpec ops ([] : List (List V)))[k]? with _ | l
  · rw [hl] at hv; cases hv
  rcases hl' : (memSpec ops' (memSpec ops ([] : List (List V))))[k]? with _ | l'
  · rw [hl'] at hv'; cases hv'
  rw [hl] at hv
  rw [hl'] at hv'
  obtain ⟨a, a1, a2, a3⟩ := r1.at_run hl hv
  obtain ⟨b, b1, b2, b3⟩ := r2.at_run hl' hv'
  rw [flatten_length_eq hpre, s2] at b1 b2 b3
  have hab : b = a := by
    obtain ⟨t, rfl⟩ := x2
    have hlt : ((List.take k (memSpec ops [])).flatten.length + e) / p1.sizeOfBlock < A1.length := by
      rcases Nat.lt_or_ge (((List.take k (memSpec ops [])).flatten.length + e) / p1.sizeOfBlock) A1.length with c | c
      · exact c
      · rw [List.getElem?_eq_none c] at a1; cases a1
    rw [List.getElem?_append_left hlt, a1] at b1
    exact (Option.some.inj b1).symm
  subst hab
  exact ⟨o1, h1, o2, h2, b, _, by unfold packedLife; rw [e0]; exact e1, a2, a3, e2, b2, b3⟩

/-- An object must not be copied, although the class lets a client do it: both objects then release the same arrays. -/
theorem C112_packed_copy_refuted (junk : V) (s : Nat) (h0 : Heap (Slot V)) :
    (do let o ← PackedObj.new junk s
        let c := o.copyConstruct
        c.destroy
        o.destroy) h0 = Res.ub := by
  obtain ⟨o, h, e, m, -, -⟩ := new_mirrors junk s h0
  rw [M.bind_ok e]
  obtain ⟨h', e', g, -⟩ := m.destroy_run
  show (o.destroy >>= fun _ => o.destroy) h = .ub
  rw [M.bind_ok e']
  unfold PackedObj.destroy
  rw [m.count]
  apply M.bind_ub
  apply M.loop_ub_first
  unfold rdAddr
  apply M.bind_ub
  apply M.bind_ub
  apply M.rd_ub
  unfold Heap.cell
  rw [g, if_pos (List.mem_cons_self ..)]
  rfl

/-- A copy of a set, made after any history, answers as the set does; but destroying both is undefined behaviour, in either
order (the two objects have the same members). -/
theorem C112_packed_copied_refuted (junk : V) {s : Nat} (hs : 0 < s) (ops : List (MOp V)) (hb : MemBounded ops []) (h0 : Heap (Slot V)) :
    ∃ o h, packedLife junk s ops h0 = some (o, h) ∧ MemObserves o.copyConstruct h (memSpec ops []) ∧
      Releases o.copyConstruct h0 h ∧ (do o.copyConstruct.destroy; o.destroy) h = Res.ub ∧
      (do o.destroy; o.copyConstruct.destroy) h = Res.ub := by
  obtain ⟨o, h, A, e, r⟩ := MemRep.new junk hs h0
  obtain ⟨o', h', q, A', e', r', -, -⟩ := r.run junk ops hb
  have m := r'.mirrors
  have twice : (o'.destroy >>= fun _ => o'.destroy) h' = .ub := by
    obtain ⟨h2, e2, g, -⟩ := m.destroy_run
    rw [M.bind_ok e2]
    have hgone : h2.get o'.blocks = none := by rw [g, if_pos (List.mem_cons_self ..)]
    unfold PackedObj.destroy
    rcases hc : o'.count with _ | n
    · show (M.bind _ _) h2 = _
      have : M.delArr o'.blocks h2 = Res.ub := by unfold M.delArr; rw [hgone]
      unfold M.bind
      exact this
    apply M.bind_ub
    apply M.loop_ub_first
    unfold rdAddr
    apply M.bind_ub
    apply M.bind_ub
    apply M.rd_ub
    unfold Heap.cell
    rw [g, if_pos (List.mem_cons_self ..)]
    rfl
  exact ⟨o', h', by unfold packedLife; rw [e]; exact e', r'.observes, r'.releases, twice, twice⟩

/-- A history over blocks of two elements in which an element of the collection itself is appended when the block is full
(the pointer array is then replaced), and a set removed. -/
example : MemBounded [MOp.op (.push 1), .op (.push 2), .pushOwn 0 1, .op .start, .op (.push (4:Int)), .op .remove, .pushOwn 0 7] [] ∧
    memSpec [MOp.op (.push 1), .op (.push 2), .pushOwn 0 1, .op .start, .op (.push (4:Int)), .op .remove, .pushOwn 0 7] [] = [[1, 2, 2]] ∧
    (∀ n, 0 < (memSpec ([MOp.op (.push (1:Int))] ++ [MOp.op (.push 2), .pushOwn 0 1, .op .start, .op .remove].take n) []).length) := by
  refine ⟨fun n => ?_, by decide, fun n => ?_⟩
  · rcases n with _ | _ | _ | _ | _ | _ | _ | n <;> simp [memSpec, MOp.spec, POp.spec, pushLast, P32]
  · rcases n with _ | _ | _ | _ | n <;> simp [memSpec, MOp.spec, POp.spec, pushLast]

end Boof
