import Verif.Spec.NativeContour
import Verif.Proofs.Native
import Verif.Props.Contour
import Verif.Props.Jni
namespace Boof

/-- The loop which fills the array of a queue. -/
theorem fill_run {p : Nat} (input : List Nat) (n : Nat) {h : Heap Int} {l : List Int} (hl : h.get p = some l) (hn : n ≤ l.length)
    (hi : n ≤ input.length) :
    ∃ h2, M.forRange 0 n (fun i => match input[i]? with | none => M.ub | some v => M.wr p i (toS32 v)) h = .ok () h2 ∧
      h2.get p = some ((input.take n).map toS32 ++ l.drop n) ∧ h2.next = h.next ∧ ∀ b, b ≠ p → h2.get b = h.get b := by
  unfold M.forRange M.loop
  simp only [Nat.sub_zero, Nat.zero_add]
  induction n with
  | zero => exact ⟨h, rfl, by simpa using hl, rfl, fun _ _ => rfl⟩
  | succ n ih =>
    obtain ⟨h2, e, g, x, fr⟩ := ih (by omega) (by omega)
    have hv : input[n]? = some input[n] := List.getElem?_eq_getElem (by omega)
    have hlen : ((input.take n).map toS32).length = n := by rw [List.length_map, List.length_take]; omega
    have hc : h2.cell p n = some l[n] := by
      unfold Heap.cell
      rw [g]
      show ((input.take n).map toS32 ++ l.drop n)[n]? = _
      rw [List.getElem?_append_right (by omega), hlen, Nat.sub_self, List.getElem?_drop]
      exact List.getElem?_eq_getElem (by omega)
    refine ⟨h2.setCell p n (toS32 input[n]), ?_, ?_, by rw [Heap.next_setCell, x], fun b hb => by rw [Heap.get_setCell_ne hb, fr b hb]⟩
    · show M.bind _ _ _ = _
      refine (M.bind_ok e).trans ?_
      simp only [hv]
      exact M.wr_run hc
    · rw [Heap.get_setCell_same g]
      congr 1
      rw [List.set_append_right _ _ (by omega), hlen, Nat.sub_self, List.drop_eq_getElem_cons (by omega : n < l.length),
        List.set_cons_zero, List.take_succ_eq_append_getElem (by omega), List.map_append, List.append_assoc]
      rfl

/-- The wrapper knows its queue. -/
structure Sync (h : Heap Int) (w : WrapQueue) (q : JQueue) : Prop where
  array : w.array = q.data
  size : w.size = q.size
  length : ∃ l, h.get q.data = some l ∧ w.length = l.length ∧ l.length < 2147483648 ∧ q.size ≤ l.length
  pos : 0 ≤ q.size

/-- What the queue operations may do to the arrays. -/
structure QueueStep (h h' : Heap Int) (q q' : JQueue) : Prop where
  next : h.next ≤ h'.next
  frame : ∀ b, b < h.next → b ≠ q.data → h'.get b = h.get b
  alive : (h'.get q.data).isSome
  data : q'.data = q.data ∨ h.next ≤ q'.data

theorem QueueStep.trans {h h1 h2 : Heap Int} {q q1 q2 : JQueue} (a : QueueStep h h1 q q1) (b : QueueStep h1 h2 q1 q2)
    (hq : q.data < h.next) : QueueStep h h2 q q2 := by
  have n1 := a.next; have n2 := b.next
  refine ⟨by omega, fun x hx hne => ?_, ?_, ?_⟩
  · rw [b.frame x (by omega) (by rcases a.data with e | e <;> omega), a.frame x hx hne]
  · by_cases c : q.data = q1.data
    · rw [c]; exact b.alive
    · rw [b.frame _ (by omega) c]; exact a.alive
  · rcases b.data with e | e
    · rw [e]; exact a.data
    · exact Or.inr (by omega)

theorem resize_run {h : Heap Int} {w : WrapQueue} {q : JQueue} (hs : Sync h w q) (n : Nat) (hn : n < 2147483648) (pins : List Pin) :
    ∃ w' q' h', (if (n : Int) ≠ w.size % 18446744073709551616 then w.resize q (wrap32 n) else pure (w, q) : J Int _) ⟨h, pins⟩ =
        .ok (w', q') ⟨h', pins⟩ ∧ Sync h' w' q' ∧ q'.size = n ∧ QueueStep h h' q q' := by
  obtain ⟨l, hl, hwl, hll, hql⟩ := hs.length
  have hlt := Heap.lt_next_of_get hl
  have h0 := hs.pos
  have hsz := hs.size
  by_cases c : (n : Int) = w.size % 18446744073709551616
  · refine ⟨w, q, h, by rw [if_neg (by simpa using c)]; rfl, hs, by omega, Nat.le_refl _, fun _ _ _ => rfl, by rw [hl]; rfl, Or.inl rfl⟩
  · rw [if_pos c]
    have hne : (n : Int) ≠ q.size := by omega
    unfold WrapQueue.resize
    rw [wrap32_of_lt (by unfold P32; omega), if_neg (by rw [hsz, toU32_of_nonneg h0 (by unfold P32; omega)]; omega),
      toS32_of_lt hn]
    have ew : toU32 w.length = l.length := by rw [hwl, toU32_of_nonneg (by omega) (by unfold P32; omega)]; omega
    by_cases g : l.length < n
    · have e1 : (q.resize (n : Int) : J Int JQueue) ⟨h, pins⟩ = .ok ⟨h.next, n⟩ ⟨h.alloc (List.replicate n 0), pins⟩ := by
        unfold JQueue.resize
        simp only [hl]
        rw [if_pos (by omega), Int.toNat_natCast]
      have e2 : (J.arrayLength h.next : J Int Nat) ⟨h.alloc (List.replicate n 0), pins⟩ = .ok n ⟨h.alloc (List.replicate n 0), pins⟩ := by
        unfold J.arrayLength
        simp only [Heap.get_alloc, if_true, List.length_replicate]
      refine ⟨⟨h.next, n, n⟩, ⟨h.next, n⟩, h.alloc (List.replicate n 0), ?_, ⟨rfl, rfl, ⟨List.replicate n 0, ?_, by simp, by simpa using hn, by simp⟩, by
        show (0 : Int) ≤ n; omega⟩, rfl, ⟨by rw [Heap.next_alloc]; omega, fun b hb _ => by rw [Heap.get_alloc, if_neg (by omega)],
          by rw [Heap.get_alloc, if_neg (by omega), hl]; rfl, Or.inr (Nat.le_refl _)⟩⟩
      · refine (J.bind_ok e1).trans ?_
        simp only []
        rw [if_pos (by rw [ew]; exact g)]
        exact (J.bind_ok e2).trans rfl
      · show (h.alloc (List.replicate n 0)).get h.next = _
        rw [Heap.get_alloc, if_pos rfl]
    · have e1 : (q.resize (n : Int) : J Int JQueue) ⟨h, pins⟩ = .ok { q with size := n } ⟨h, pins⟩ := by
        unfold JQueue.resize
        simp only [hl]
        rw [if_neg (by omega)]
      refine ⟨{ w with size := n }, { q with size := n }, h, ?_, ⟨hs.array, rfl, ⟨l, hl, hwl, hll, by show (n : Int) ≤ _; omega⟩, by
        show (0 : Int) ≤ n; omega⟩, rfl, ⟨Nat.le_refl _, fun _ _ _ => rfl, by rw [hl]; rfl, Or.inl rfl⟩⟩
      refine (J.bind_ok e1).trans ?_
      simp only []
      rw [if_neg (by rw [ew]; exact g)]
      rfl

theorem setTo_run (copy : Bool) {h : Heap Int} {w : WrapQueue} {q : JQueue} (hs : Sync h w q) (input : List Nat)
    (hn : input.length < 2147483648) (pins : List Pin) :
    ∃ w' q' h' l, w.setTo copy q input ⟨h, pins⟩ = .ok (w', q') ⟨h', pins⟩ ∧ Sync h' w' q' ∧ q'.size = input.length ∧
      h'.get q'.data = some l ∧ l.take input.length = input.map toS32 ∧ QueueStep h h' q q' := by
  obtain ⟨l0, hl0, -, -, -⟩ := hs.length
  have hq0 := Heap.lt_next_of_get hl0
  obtain ⟨w', q', h1, e1, hs1, hsz, st⟩ := resize_run hs input.length hn pins
  obtain ⟨l, hl, hwl, hll, hql⟩ := hs1.length
  have hq1 := Heap.lt_next_of_get hl
  obtain ⟨p, h2, e2, hp⟩ := pin_run copy hl pins
  rw [← hs1.array] at e2
  have hp2 : h2.get p = some l := by rw [hp.same]; exact hl
  obtain ⟨h3, e3, g3, n3, f3⟩ := fill_run input input.length hp2 (by omega) (Nat.le_refl _)
  have hn2 : h1.next ≤ h2.next ∧ (p = q'.data ∨ h1.next ≤ p) := by
    rcases hp.place with ⟨c, d⟩ | ⟨c, d⟩ <;> omega
  have ga : ∃ m, h3.get q'.data = some m := by
    by_cases c : q'.data = p
    · rw [c]; exact ⟨_, g3⟩
    · rw [f3 _ c, hp.frame _ hq1]; exact ⟨_, hl⟩
  obtain ⟨m, ga⟩ := ga
  obtain ⟨h4, e4, r4⟩ := release_run ga g3 (pins := ⟨q'.data, p⟩ :: pins) (by simp) .commit
  rw [erase_first] at e4
  have g4 : h4.get q'.data = some ((input.take input.length).map toS32 ++ l.drop input.length) := by rw [r4.commit rfl]; exact g3
  rw [List.take_length] at g4
  refine ⟨w', q', h4, _, ?_, ?_, hsz, g4, ?_, ?_⟩
  · unfold WrapQueue.setTo
    refine (J.bind_ok e1).trans ?_
    simp only []
    refine (J.bind_ok e2).trans ?_
    rw [hs1.size, hsz, Int.toNat_natCast, hs1.array]
    refine (J.bind_ok (J.lift_ok e3)).trans ?_
    refine (J.bind_ok e4).trans rfl
  · refine ⟨hs1.array, hs1.size, ⟨_, g4, ?_, ?_, ?_⟩, hs1.pos⟩ <;>
      simp only [List.length_append, List.length_map, List.length_drop] <;> omega
  · rw [List.take_append_of_le_length (by simp), List.take_of_length_le (by simp)]
  · refine st.trans (q1 := q') ⟨?_, fun b hb hne => ?_, by rw [g4]; rfl, Or.inl rfl⟩ hq0
    · rw [r4.next]; omega
    · have : b ≠ p := by omega
      rw [r4.frame b this hne, f3 b this, hp.frame b hb]

/-- What Java gets of a contour. -/
def toJava (c : ContourPacked) : JContour := ⟨toS32 c.id, toS32 c.externalIndex, c.internalIndexes.map toS32⟩

theorem sendContours_run (copy : Nat → Bool) (cs : List ContourPacked) (hc : ∀ c ∈ cs, c.internalIndexes.length < 2147483648)
    {h : Heap Int} {w : WrapQueue} {q : JQueue} (hs : Sync h w q) (pins : List Pin) :
    ∃ q' h', sendContours copy cs w q ⟨h, pins⟩ = .ok (cs.map toJava, q') ⟨h', pins⟩ ∧ q'.Ok h' ∧ QueueStep h h' q q' := by
  induction cs generalizing h w q with
  | nil =>
    obtain ⟨l, hl, -, hll, hql⟩ := hs.length
    exact ⟨q, h, rfl, ⟨⟨l, hl, hll, hql⟩, hs.pos⟩, Nat.le_refl _, fun _ _ _ => rfl, by rw [hl]; rfl, Or.inl rfl⟩
  | cons c cs ih =>
    obtain ⟨l0, hl0, -, -, -⟩ := hs.length
    have hq0 := Heap.lt_next_of_get hl0
    obtain ⟨w1, q1, h1, l, e1, hs1, hsz, gl, htk, st1⟩ := setTo_run (copy cs.length) hs c.internalIndexes
      (hc c (List.mem_cons_self ..)) pins
    obtain ⟨l', hl', -, -, hql⟩ := hs1.length
    rw [gl] at hl'; cases hl'
    have e2 : addContour q1 (toS32 c.id) (toS32 c.externalIndex) ⟨h1, pins⟩ = .ok (toJava c) ⟨h1, pins⟩ := by
      unfold addContour
      simp only [gl]
      rw [if_pos hql, hsz, Int.toNat_natCast, htk]
      rfl
    obtain ⟨q2, h2, e3, ok, st2⟩ := ih (fun c h => hc c (List.mem_cons_of_mem _ h)) hs1
    refine ⟨q2, h2, ?_, ok, st1.trans st2 hq0⟩
    unfold sendContours
    refine (J.bind_ok e1).trans ?_
    refine (J.bind_ok e2).trans ?_
    exact (J.bind_ok e3).trans rfl

/-- The images of a call. -/
theorem changImages_run {h : Heap Int} {ji jo : JImage} (hji : ji.Ok h) (hjo : jo.Ok h) (hne : ji.data ≠ jo.data)
    (hw : jo.width = ji.width) (hh : jo.height = ji.height) {own : Nat → Prop} (hownLt : ∀ b, own b → b < h.next)
    (hown : ∀ b, own b → ji.data ≠ some b ∧ jo.data ≠ some b) {f : Nat → Nat → Int} {P : (Nat → Nat → Int) → Prop}
    (hf : ji.Shows h f) {fuel : Nat} {l : Labeller} {Q : Labeller → Heap Int → Prop}
    (hop : ∀ (h1 : Heap Int) (i o : Gray), o.stride = jo.stride.toNat →
      Op2At h own ji.width.toNat ji.height.toNat f P (fun i o => l.process fuel i o) Q h1 i o) (c1 c2 : Bool) (pins : List Pin) :
    ∃ l' h' F, P F ∧ nativeChangImages fuel l ji jo c1 c2 ⟨h, pins⟩ = .ok l' ⟨h', pins⟩ ∧
      JavaEffect ⟨h, pins⟩ ⟨h', pins⟩ own jo F ∧ Q l' h' ∧ h.next ≤ h'.next := by
  obtain ⟨ai, li, hai, hli, -⟩ := hji.array
  obtain ⟨ao, lo, hao, hlo, -⟩ := hjo.array
  have hne' : ai ≠ ao := fun c => hne (by rw [hai, hao, c])
  have a1 := Heap.lt_next_of_get hli
  have a2 := Heap.lt_next_of_get hlo
  have w1 := hji.wrap 0 hai hli pins
  have hlo1 : (h.alloc []).get ao = some lo := by rw [Heap.get_alloc, if_neg (by omega), hlo]
  have w2 := (hjo.alloc []).wrap 0 hao hlo1 pins
  have f0 : ∀ b, b < h.next → ((h.alloc []).alloc []).get b = h.get b := fun b hb => by
    rw [Heap.get_alloc, if_neg (by rw [Heap.next_alloc]; omega), Heap.get_alloc, if_neg (by omega)]
  have n0 : h.next ≤ ((h.alloc []).alloc []).next := by rw [Heap.next_alloc, Heap.next_alloc]; omega
  obtain ⟨p, h2, e1, p1⟩ := pin_run c1 (h := (h.alloc []).alloc []) (a := ai) (by rw [f0 ai a1]; exact hli) pins
  obtain ⟨q, h3, e2, p2⟩ := pin_run c2 (h := h2) (a := ao)
    (by rw [p1.frame ao (by omega), f0 ao a2]; exact hlo) (⟨ai, p⟩ :: pins)
  obtain ⟨r, hB, F, hPF, e3, hv, l1, l2, l3, l4, nB, hend⟩ := native_run2R 0 hji hjo hai hao hli hlo hne' hw hh hownLt
    (fun c => (hown ai c).1 hai) (fun c => (hown ao c).2 hao) hf hop (fun _ _ => rfl) n0 f0 p1 p2
  obtain ⟨hM, hC, r1, r2, hfin⟩ := finish_inputFirst hv hli hlo hne' l1 l2 l3 l4 pins
  obtain ⟨hJ, hQ⟩ := hend hC hfin pins
  have e3' : J.lift (l.process fuel { ji.view li.length 0 with buf := p } { jo.view lo.length 0 with buf := q })
      ⟨h3, ⟨ao, q⟩ :: ⟨ai, p⟩ :: pins⟩ = .ok (r, jo.view lo.length q) ⟨hB, ⟨ao, q⟩ :: ⟨ai, p⟩ :: pins⟩ := J.lift_ok e3
  refine ⟨r, hC, F, hPF, ?_, hJ, hQ, by rw [hfin.next]; exact nB⟩
  unfold nativeChangImages
  refine (J.bind_ok w1).trans ((J.bind_ok w2).trans ?_)
  simp only [hai, hao, Option.getD_some]
  refine (J.bind_ok e1).trans ((J.bind_ok e2).trans ((J.bind_ok e3').trans ?_))
  exact (J.bind_ok r1).trans ((J.bind_ok r2).trans rfl)

end Boof
