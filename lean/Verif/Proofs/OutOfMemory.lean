import Verif.Spec.OutOfMemory
import Verif.Proofs.Image
import Verif.Props.ArrayMemory
import Verif.Props.PackedMemory
/-
Lemmas on the functions which allocate when memory may run out.
-/
namespace Boof
open M
variable {V : Type}

/-- The function returns. -/
def M.returns {α : Type} (m : M V α) : M V (Left α) := do
  let a ← m
  pure (.done a)

theorem M.assoc {α β γ : Type} (m : M V α) (f : α → M V β) (g : β → M V γ) :
    ((m >>= f) >>= g) = (m >>= fun a => f a >>= g) := by
  funext h
  simp only [M.bind_run]
  rcases m h with ⟨a, h'⟩ | _ | _ | _ <;> rfl

theorem M.pure_then {α β : Type} (a : α) (f : α → M V β) : ((pure a : M V α) >>= f) = f a := rfl

theorem M.throw_then {α β : Type} (f : α → M V β) : ((M.throw : M V α) >>= f) = M.throw := rfl

theorem M.ub_then {α β : Type} (f : α → M V β) : ((M.ub : M V α) >>= f) = M.ub := rfl

theorem M.returns_next {α β : Type} (m : M V α) (u : α → β) (f : α → M V (Left β)) :
    (m.returns >>= fun r => r.next u f) = (m >>= f) := by
  unfold M.returns
  rw [M.assoc]
  rfl

namespace Gray

theorem reshape_enough (z : V) (g : Gray) (w ht : Nat) : g.reshapeOom true z w ht = (g.reshape z w ht).returns := by
  unfold reshapeOom reshape M.returns
  split
  · rfl
  · split
    · rfl
    · simp only
      by_cases c : wrap32 (w * ht) > g.dataLength
      · simp only [if_pos c, if_true, M.assoc]; rfl
      · simp only [if_neg c]; rfl

theorem reshape_fits (mem : Bool) (z : V) (g : Gray) {w ht : Nat} (hf : wrap32 (w * ht) ≤ g.dataLength) :
    g.reshapeOom mem z w ht = (g.reshape z w ht).returns := by
  unfold reshapeOom reshape M.returns
  split
  · rfl
  · split
    · rfl
    · simp only [if_neg (Nat.not_lt.mpr hf)]; rfl

theorem copy_of_reshape (mem : Bool) (z : V) (g src : Gray)
    (hr : g.reshapeOom mem z src.width src.height = (g.reshape z src.width src.height).returns) :
    g.copyOom mem z src = (g.copy z src).returns := by
  unfold copyOom copy
  rw [hr]
  by_cases c : g.subimage ∧ (g.width ≠ src.width ∨ g.height ≠ src.height)
  · rw [if_pos c, if_pos c]; rfl
  · rw [if_neg c, if_neg c, M.returns_next]
    unfold M.returns
    rw [M.assoc]
    simp only [M.assoc, M.pure_then]

end Gray

namespace Interleaved

theorem ensure_enough (z : V) (g : Interleaved) (n : Nat) : g.ensureOom true z n = (g.ensure z n).returns := by
  unfold ensureOom ensure M.returns
  split
  · simp only [if_true, M.assoc]; rfl
  · rfl

theorem ensure_fits (mem : Bool) (z : V) (g : Interleaved) {n : Nat} (hf : n ≤ g.dataLength) :
    g.ensureOom mem z n = (g.ensure z n).returns := by
  unfold ensureOom ensure M.returns
  rw [if_neg (Nat.not_lt.mpr hf), if_neg (Nat.not_lt.mpr hf)]; rfl

theorem reshape3_of (mem : Bool) (z : V) (g : Interleaved) (w ht b : Nat)
    (hr : g.ensureOom mem z (wrap32 (w * ht * b)) = (g.ensure z (wrap32 (w * ht * b))).returns) :
    g.reshape3Oom mem z w ht b = (g.reshape3 z w ht b).returns := by
  unfold reshape3Oom reshape3
  rw [hr]
  split
  · rfl
  · split
    · rfl
    · rw [M.returns_next]
      unfold M.returns
      simp only [M.assoc, M.pure_then]

theorem reshape_of (mem : Bool) (z : V) (g : Interleaved) (w ht : Nat)
    (hr : g.ensureOom mem z (wrap32 (w * ht * g.numBands)) = (g.ensure z (wrap32 (w * ht * g.numBands))).returns) :
    g.reshapeOom mem z w ht = (g.reshape z w ht).returns := by
  unfold reshapeOom reshape
  rw [hr]
  split
  · rfl
  · split
    · rfl
    · rw [M.returns_next]
      unfold M.returns
      simp only [M.assoc, M.pure_then]

theorem bands_of (mem : Bool) (z : V) (g : Interleaved) (b : Nat)
    (hr : g.ensureOom mem z (wrap32 (g.width * g.height * b)) = (g.ensure z (wrap32 (g.width * g.height * b))).returns) :
    g.setNumberOfBandsOom mem z b = (g.setNumberOfBands z b).returns := by
  unfold setNumberOfBandsOom setNumberOfBands
  rw [hr]
  split
  · rfl
  · split
    · rfl
    · rw [M.returns_next]
      unfold M.returns
      simp only [M.assoc, M.pure_then]

end Interleaved

namespace ArrObj

theorem grow_enough (E : GrowArray.Elem V) (n : Nat) (a : ArrObj V) : a.growArrayOom true E n = (a.growArray E n).returns := by
  unfold growArrayOom growArray M.returns
  split
  · rfl
  · split
    · simp only [if_true, M.assoc]; rfl
    · rfl

theorem resize_enough (E : GrowArray.Elem V) (n : Nat) (a : ArrObj V) : a.resizeOom true E n = (a.resize E n).returns := by
  unfold resizeOom resize M.returns
  split
  · rfl
  · split
    · simp only [if_true, M.assoc]; rfl
    · rfl

theorem resize_fits (mem : Bool) (E : GrowArray.Elem V) {n : Nat} {a : ArrObj V} (hf : n ≤ a.arrayLength) :
    a.resizeOom mem E n = (a.resize E n).returns := by
  unfold resizeOom resize M.returns
  split
  · rfl
  · rw [if_neg (Nat.not_lt.mpr hf), if_neg (Nat.not_lt.mpr hf)]; rfl

theorem grow_fits (mem : Bool) (E : GrowArray.Elem V) {n : Nat} {a : ArrObj V} (hf : n ≤ a.arrayLength) :
    a.growArrayOom mem E n = (a.growArray E n).returns := by
  unfold growArrayOom growArray M.returns
  split
  · rfl
  · rw [if_neg (Nat.not_lt.mpr hf), if_neg (Nat.not_lt.mpr hf)]; rfl

theorem assign_of (mem : Bool) (E : GrowArray.Elem V) (a b : ArrObj V)
    (hr : growArrayOom mem E b.size { a with default := b.default } = (growArray E b.size { a with default := b.default }).returns) :
    a.assignOom mem E b = (a.assign E b).returns := by
  unfold assignOom assign
  rw [hr, M.returns_next]
  unfold M.returns
  simp only [M.assoc, M.pure_then]

theorem setTo_of (mem : Bool) (E : GrowArray.Elem V) (l : List V) (a : ArrObj V)
    (hr : a.resizeOom mem E l.length = (a.resize E l.length).returns) :
    a.setToOom mem E l = (a.setTo E l).returns := by
  unfold setToOom setTo
  rw [hr, M.returns_next]
  unfold M.returns
  simp only [M.assoc, M.pure_then]

theorem set_of (mem : Bool) (E : GrowArray.Elem V) (s i n : Nat) (a : ArrObj V)
    (hr : a.growArrayOom mem E n = (a.growArray E n).returns) :
    a.setOom mem E s i n = (a.set E s i n).returns := by
  unfold setOom set
  rw [hr, M.returns_next]
  unfold M.returns
  simp only [M.assoc, M.pure_then]

end ArrObj

namespace PackedObj

theorem start_enough {s : Supply} (hs : s.info = true) (o : PackedObj) :
    (o.startNewSetOom s : M (Slot V) _) = (o.startNewSet).returns := by
  unfold startNewSetOom startNewSet M.returns
  rw [if_pos hs]
  split
  · rfl
  · rfl

theorem addBlock_enough {s : Supply} (h1 : s.ptrs = true) (h2 : s.block = true) (junk : V) (b : Nat) (o : PackedObj) :
    o.addBlockOom s junk b = (o.addBlock junk b).returns := by
  unfold addBlockOom addBlock M.returns
  rw [if_pos h1]
  simp only [h2, if_true, M.assoc, M.pure_then]

theorem addElement_enough {s : Supply} (junk : V) (e : ElemRef V) (o : PackedObj)
    (hb : o.total / o.sizeOfBlock = o.count → s.ptrs = true ∧ s.block = true) :
    o.addElementOom s junk e = (o.addElement junk e).returns := by
  unfold addElementOom addElement
  split
  · rfl
  · simp only
    have : (if o.total / o.sizeOfBlock = o.count then o.addBlockOom s junk (o.total / o.sizeOfBlock) else pure (Left.done o)) =
        M.returns (if o.total / o.sizeOfBlock = o.count then o.addBlock junk (o.total / o.sizeOfBlock) else pure o) := by
      split
      · rename_i c
        obtain ⟨c1, c2⟩ := hb c
        exact addBlock_enough c1 c2 junk _ o
      · rfl
    rw [this, M.returns_next]
    unfold M.returns
    simp only [M.assoc, M.pure_then]

theorem startNewSet_run {o : PackedObj} (h0 : o.sizeOfBlock ≠ 0) (h : Heap (Slot V)) :
    o.startNewSet h = .ok { o with setInfo := o.setInfo ++
      [{ block := o.total / o.sizeOfBlock, offset := o.total % o.sizeOfBlock, size := 0 }] } h := by
  unfold startNewSet
  rw [if_neg h0]; rfl

/-- `push_tail` when there is memory for what it needs. -/
theorem push_enough {s : Supply} (junk : V) (e : ElemRef V) (o : PackedObj) (hi : o.setInfo.length = 0 → s.info = true)
    (hb : o.total / o.sizeOfBlock = o.count → s.ptrs = true ∧ s.block = true) (h : Heap (Slot V)) :
    o.pushTailOom s junk e h = (o.pushTail junk e).returns h := by
  have tail : ∀ o1 : PackedObj, o1.total / o1.sizeOfBlock = o.total / o.sizeOfBlock → o1.count = o.count →
      (o1.addElementOom s junk e >>= fun r => r.next id (fun o =>
        match o.setInfo.getLast? with
        | none => M.ub
        | some s => pure (.done { o with setInfo := o.setInfo.dropLast ++ [{ s with size := wrap32 (s.size + 1) }] }))) =
      (M.returns (o1.addElement junk e >>= fun o => match o.setInfo.getLast? with
        | none => M.ub
        | some s => pure { o with setInfo := o.setInfo.dropLast ++ [{ s with size := wrap32 (s.size + 1) }] })) := by
    intro o1 e1 e2
    rw [addElement_enough junk e o1 (by rw [e1, e2]; exact hb), M.returns_next]
    unfold M.returns
    rw [M.assoc]
    congr 1
    funext o'
    rcases o'.setInfo.getLast? with _ | x <;> rfl
  unfold pushTailOom pushTail
  by_cases c : o.setInfo.length = 0
  · rw [if_pos c, if_pos c, start_enough (hi c), M.returns_next]
    by_cases h0 : o.sizeOfBlock = 0
    · have : (o.startNewSet : M (Slot V) PackedObj) = M.ub := by unfold startNewSet; rw [if_pos h0]
      rw [this]; rfl
    · unfold M.returns
      rw [M.assoc, M.bind_ok (startNewSet_run h0 h), M.bind_ok (startNewSet_run h0 h)]
      exact congrFun (tail { o with setInfo := o.setInfo ++
        [{ block := o.total / o.sizeOfBlock, offset := o.total % o.sizeOfBlock, size := 0 }] } rfl rfl) h
  · rw [if_neg c, if_neg c]
    exact congrFun (tail o rfl rfl) h

end PackedObj

/-! ### A packed set which runs out of memory -/

/-- From `h` to `h'` nothing was changed or released, and what is new is in `G`. -/
structure Extra (h h' : Heap (Slot V)) (G : List Nat) : Prop where
  old : ∀ b, b < h.next → h'.get b = h.get b
  new : ∀ b, h.next ≤ b → (h'.get b).isSome → b ∈ G
  next : h.next ≤ h'.next

theorem Extra.refl (h : Heap (Slot V)) : Extra h h [] :=
  ⟨fun _ _ => rfl, fun _ hb hs => (no_live_beyond hb hs).elim, Nat.le_refl _⟩

theorem Mirrors.extra {h h' : Heap (Slot V)} {o : PackedObj} {p : PackedSet V} {A G : List Nat} (m : Mirrors h o p A)
    (x : Extra h h' G) : Mirrors h' o p A := by
  have hl := m.lt
  refine ⟨?_, m.count, m.len, ?_, m.apart, m.size, m.total, m.info⟩
  · rw [x.old _ (hl _ (List.mem_cons_self ..))]; exact m.ptrs
  · intro i row a e1 e2
    rw [x.old _ (hl _ (List.mem_cons_of_mem _ (List.mem_iff_getElem?.mpr ⟨i, e2⟩)))]
    exact m.data i row a e1 e2

/-- Growing the pointer array fails: at most the new pointer array is left behind. -/
theorem Mirrors.addBlock_fails {h : Heap (Slot V)} {o : PackedObj} {p : PackedSet V} {A : List Nat} (m : Mirrors h o p A) (junk : V)
    {s : Supply} (hs : ¬ (s.ptrs = true ∧ s.block = true)) (hb : p.blocks.length + 1 < P32) :
    ∃ h' G, o.addBlockOom s junk o.count h = .ok (.failed o) h' ∧ Extra h h' G ∧ G.length ≤ 1 := by
  unfold PackedObj.addBlockOom
  by_cases c : s.ptrs = true
  · have c2 : s.block = false := by
      rcases hc : s.block with _ | _
      · rfl
      · exact absurd ⟨c, hc⟩ hs
    have hlen := m.len
    have hcnt := m.count
    obtain ⟨h1, e1, g1, g2, g3⟩ := m.copyPtrs junk (n := A.length) (Nat.le_refl _) (t := o.count + 1) (by omega)
    refine ⟨h1, [h.next], ?_, ⟨fun b hb => g2 b (by omega), ?_, by omega⟩, by simp⟩
    · rw [if_pos c, wrap32_of_lt (by omega)]
      have : (M.newArr (o.count + 1) (.elem junk) : M (Slot V) Nat) h = .ok h.next (h.alloc (List.replicate (o.count + 1) (.elem junk))) := rfl
      rw [M.bind_ok this, hcnt]
      rw [hcnt] at e1
      rw [M.bind_ok e1, c2]
      rfl
    · intro b hb hl
      obtain ⟨l, e⟩ := Option.isSome_iff_exists.mp hl
      have := Heap.lt_next_of_get e
      rw [List.mem_singleton]; omega
  · rw [if_neg c]
    exact ⟨h, [], rfl, Extra.refl h, by simp⟩

/-- `push_tail` when memory is short: either all it needs is there, or it fails and the collection is as before (or has its
first set, empty). -/
theorem MemCore.push_short (junk : V) {h : Heap (Slot V)} {o : PackedObj} {p : PackedSet V} {L : List (List V)} {A : List Nat}
    (r : MemCore h o p L A) (s : Supply) (e : ElemRef V) (hlen : L.flatten.length + 1 < P32) :
    o.pushTailOom s junk e h = (o.pushTail junk e).returns h ∨
    (s ≠ Supply.full ∧ ∃ o' h' q L' G, o.pushTailOom s junk e h = .ok (.failed o') h' ∧ (L' = L ∨ L = [] ∧ L' = [[]]) ∧
      MemCore h' o' q L' A ∧ o'.blocks = o.blocks ∧ Extra h h' G ∧ G.length ≤ 1 ∧ q.sizeOfBlock = p.sizeOfBlock) := by
  have m := r.mirrors
  have h0 : o.sizeOfBlock ≠ 0 := by have := r.rep.pos; have := m.size; omega
  by_cases hi : o.setInfo.length = 0 ∧ s.info = false
  · right
    refine ⟨by rintro rfl; exact absurd hi.2 (by decide), o, h, p, L, [], ?_, Or.inl rfl, r, rfl, Extra.refl h, by simp, rfl⟩
    unfold PackedObj.pushTailOom PackedObj.startNewSetOom
    rw [if_pos hi.1, if_neg h0, hi.2]
    rfl
  by_cases hb : o.total / o.sizeOfBlock = o.count ∧ ¬ (s.ptrs = true ∧ s.block = true)
  · right
    have hinfo : o.setInfo.length = 0 → s.info = true := by
      intro c
      rcases hc : s.info with _ | _
      · exact absurd ⟨c, hc⟩ hi
      · rfl
    refine ⟨by rintro rfl; exact hb.2 ⟨rfl, rfl⟩, ?_⟩
    -- the failing part, for the object with at least one set
    have fails : ∀ (o1 : PackedObj) (q : PackedSet V) (L1 : List (List V)), MemCore h o1 q L1 A → o1.total = o.total →
        o1.sizeOfBlock = o.sizeOfBlock → o1.count = o.count →
        ∃ h' G, (o1.addElementOom s junk e >>= fun r => r.next id (fun o =>
          match o.setInfo.getLast? with
          | none => M.ub
          | some s => pure (.done { o with setInfo := o.setInfo.dropLast ++ [{ s with size := wrap32 (s.size + 1) }] }))) h =
            .ok (.failed o1) h' ∧ Extra h h' G ∧ G.length ≤ 1 := by
      intro o1 q L1 r1 et es ec
      have m1 := r1.mirrors
      have hl1 := m1.len
      have hc1 := m1.count
      have hq : q.blocks.length + 1 < P32 := by
        have h1 : o.total = p.total := m.total
        have h2 := r.rep.total
        have h3 := Nat.div_le_self o.total o.sizeOfBlock
        omega
      obtain ⟨h', G, f1, f2, f3⟩ := m1.addBlock_fails junk hb.2 hq
      refine ⟨h', G, ?_, f2, f3⟩
      have : o1.addElementOom s junk e h = .ok (.failed o1) h' := by
        unfold PackedObj.addElementOom
        rw [if_neg (by rw [es]; exact h0)]
        rw [if_pos (by rw [et, es, ec]; exact hb.1), show o1.total / o1.sizeOfBlock = o1.count by rw [et, es, ec]; exact hb.1,
          M.bind_ok f1]
        rfl
      rw [M.bind_ok this]
      rfl
    by_cases hz : o.setInfo.length = 0
    · have hL : L = [] := by
        have := r.observes.number
        rw [hz] at this
        exact List.length_eq_zero_iff.mp this.symm
      subst hL
      have hst := r.step junk (.op .start) (by simp [MOp.spec, POp.spec, P32])
      simp only [MOp.spec, POp.spec, List.nil_append, MOp.run] at hst
      obtain ⟨o1, h1, q, A1, e1, c1, k1, x1, z1⟩ := hst
      rw [PackedObj.startNewSet_run h0] at e1
      cases e1
      have hA : A1 = A := by
        have h1 := c1.mirrors.count
        have h2 := m.count
        have h3 : A.length = A1.length := by rw [← h1, ← h2]
        obtain ⟨t, rfl⟩ := x1
        rw [List.length_append] at h3
        have : t = [] := List.length_eq_zero_iff.mp (by omega)
        rw [this, List.append_nil]
      subst hA
      obtain ⟨h', G, f1, f2, f3⟩ := fails _ q _ c1 rfl rfl rfl
      refine ⟨_, h', q, [[]], G, ?_, Or.inr ⟨rfl, rfl⟩, ⟨c1.rep, c1.mirrors.extra f2⟩, rfl, f2, f3, z1⟩
      unfold PackedObj.pushTailOom
      rw [if_pos hz, PackedObj.start_enough (hinfo hz), M.returns_next, M.bind_ok (PackedObj.startNewSet_run h0 h)]
      exact f1
    · obtain ⟨h', G, f1, f2, f3⟩ := fails o p L r rfl rfl rfl
      refine ⟨o, h', p, L, G, ?_, Or.inl rfl, ⟨r.rep, m.extra f2⟩, rfl, f2, f3, rfl⟩
      unfold PackedObj.pushTailOom
      rw [if_neg hz]
      exact f1
  · left
    refine PackedObj.push_enough junk e o ?_ ?_ h
    · intro c
      rcases hc : s.info with _ | _
      · exact absurd ⟨c, hc⟩ hi
      · rfl
    · intro c
      by_cases hc : s.ptrs = true ∧ s.block = true
      · exact hc
      · exact absurd ⟨c, hc⟩ hb
end Boof
