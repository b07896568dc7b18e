import Verif.Spec.ArrayMemory
import Verif.Cpp.Logic
/-
The memory of growable arrays mirrors the value model.
-/
namespace Boof
variable {V : Type}

/-- From `h` to `h'` only the array `b` was written. -/
structure Wrote (h h' : Heap V) (b : Nat) (l : List V) : Prop where
  get : h'.get b = some l
  other : ∀ x, x ≠ b → h'.get x = h.get x
  next : h'.next = h.next

/-- Storing one value to consecutive elements. -/
theorem setLoop_run {h : Heap V} {b : Nat} {l : List V} (hb : h.get b = some l) (off : Nat) (v : V) {n : Nat} (hn : off + n ≤ l.length) :
    ∃ h', (M.loop n (fun i => M.wr b (off + i) v) : M V Unit) h = .ok () h' ∧ Wrote h h' b (l.take off ++ List.replicate n v ++ l.drop (off + n)) := by
  induction n with
  | zero => exact ⟨h, rfl, by simp [hb], fun _ _ => rfl, rfl⟩
  | succ n ih =>
    obtain ⟨h1, e1, w⟩ := ih (by omega)
    have hl : (l.take off ++ List.replicate n v).length = off + n := by simp; omega
    have hc : h1.cell b (off + n) = some (l[off + n]'(by omega)) := by
      unfold Heap.cell
      rw [w.get]
      simp only [Option.bind_some]
      rw [List.getElem?_append_right (by omega), hl, Nat.sub_self, List.getElem?_drop, Nat.add_zero]
      exact List.getElem?_eq_getElem _
    refine ⟨h1.setCell b (off + n) v, ?_, ?_, ?_, by rw [Heap.next_setCell]; exact w.next⟩
    · show M.bind (M.loop n _) _ h = _
      unfold M.bind
      rw [e1]
      exact M.wr_run hc
    · rw [Heap.get_setCell_same w.get]
      congr 1
      rw [List.set_append_right _ _ (by omega), hl, Nat.sub_self, List.drop_eq_getElem_cons (by omega), List.set_cons_zero,
        List.replicate_succ']
      simp [Nat.add_assoc]
    · intro x hx
      rw [Heap.get_setCell_ne hx]; exact w.other x hx

/-- Storing a list. -/
theorem writeSpan_run {h : Heap V} {b : Nat} {l : List V} (hb : h.get b = some l) {src : List V} (hn : src.length ≤ l.length) :
    ∃ h', writeSpan b src h = .ok () h' ∧ Wrote h h' b (src ++ l.drop src.length) := by
  suffices hs : ∀ n, n ≤ src.length → ∃ h', (M.loop n (fun k =>
      match src[k]? with
      | some v => M.wr b k v
      | none => M.ub) : M V Unit) h = .ok () h' ∧ Wrote h h' b (src.take n ++ l.drop n) by
    obtain ⟨h', e, w⟩ := hs src.length (Nat.le_refl _)
    rw [List.take_length] at w
    exact ⟨h', e, w⟩
  intro n hn'
  induction n with
  | zero => exact ⟨h, rfl, by simp [hb], fun _ _ => rfl, rfl⟩
  | succ n ih =>
    obtain ⟨h1, e1, w⟩ := ih (by omega)
    have hl : (src.take n).length = n := by simp; omega
    have hc : h1.cell b n = some (l[n]'(by omega)) := by
      unfold Heap.cell
      rw [w.get]
      simp only [Option.bind_some]
      rw [List.getElem?_append_right (by omega), hl, Nat.sub_self, List.getElem?_drop, Nat.add_zero]
      exact List.getElem?_eq_getElem _
    have hv : src[n]? = some (src[n]'(by omega)) := List.getElem?_eq_getElem _
    refine ⟨h1.setCell b n (src[n]'(by omega)), ?_, ?_, ?_, by rw [Heap.next_setCell]; exact w.next⟩
    · show M.bind (M.loop n _) _ h = _
      unfold M.bind
      rw [e1]
      simp only [hv]
      exact M.wr_run hc
    · rw [Heap.get_setCell_same w.get]
      congr 1
      rw [List.set_append_right _ _ (by omega), hl, Nat.sub_self, List.drop_eq_getElem_cons (by omega), List.set_cons_zero,
        List.take_add_one, hv, List.append_assoc]
      rfl
    · intro x hx
      rw [Heap.get_setCell_ne hx]; exact w.other x hx

theorem readSpan_run {h : Heap V} {b : Nat} {l : List V} (hb : h.get b = some l) (i : Nat) {n : Nat} (hn : i + n ≤ l.length) :
    readSpan b i n h = .ok ((l.drop i).take n) h := by
  unfold readSpan
  induction n with
  | zero => rfl
  | succ n ih =>
    show M.bind _ _ h = _
    unfold M.bind
    rw [ih (by omega)]
    simp only
    have hc : h.cell b (i + n) = some (l[i + n]'(by omega)) := by
      unfold Heap.cell; rw [hb]; exact List.getElem?_eq_getElem _
    rw [M.bind_ok (M.rd_run hc), List.take_add_one, List.getElem?_drop, List.getElem?_eq_getElem (by omega)]
    rfl

theorem memMove_run {h : Heap V} {b s : Nat} {l src : List V} (hb : h.get b = some l) (hs : h.get s = some src) (i : Nat) {n : Nat}
    (hn : i + n ≤ src.length) (hl : n ≤ l.length) :
    ∃ h', memMove b s i n h = .ok () h' ∧ Wrote h h' b ((src.drop i).take n ++ l.drop n) := by
  have hlen : ((src.drop i).take n).length = n := by simp; omega
  obtain ⟨h', e, w⟩ := writeSpan_run hb (src := (src.drop i).take n) (by omega)
  rw [hlen] at w
  refine ⟨h', ?_, w⟩
  unfold memMove
  rw [M.bind_ok (readSpan_run hs i hn)]
  exact e

/-- A function has changed the object whose array was `d` and now is `d'`, and no other memory. -/
structure Changed (h h' : Heap V) (d d' : Nat) : Prop where
  other : ∀ b, b ≠ d → b < h.next → h'.get b = h.get b
  moved : d' = d ∨ (h.next ≤ d' ∧ h'.get d = none)
  live : ∀ b, h.next ≤ b → (h'.get b).isSome → b = d'
  next : h.next ≤ h'.next

theorem no_live_beyond {h : Heap V} {b : Nat} (hb : h.next ≤ b) (hs : (h.get b).isSome) : False := by
  obtain ⟨l, e⟩ := Option.isSome_iff_exists.mp hs
  have := Heap.lt_next_of_get e
  omega

theorem Changed.refl (h : Heap V) (d : Nat) : Changed h h d d :=
  ⟨fun _ _ _ => rfl, Or.inl rfl, fun _ hb hs => (no_live_beyond hb hs).elim, Nat.le_refl _⟩

theorem Wrote.changed {h h' : Heap V} {d : Nat} {l : List V} (w : Wrote h h' d l) : Changed h h' d d :=
  ⟨fun b hb _ => w.other b hb, Or.inl rfl, fun b hb hs => (no_live_beyond (h := h') (by rw [w.next]; exact hb) hs).elim, by rw [w.next]; exact Nat.le_refl _⟩

theorem Changed.wrote {h h1 h' : Heap V} {d d' : Nat} {l : List V} (c : Changed h h1 d d') (hd : d < h.next) (w : Wrote h1 h' d' l) : Changed h h' d d' := by
  have hn := c.next
  refine ⟨?_, ?_, ?_, by rw [w.next]; exact hn⟩
  · intro b hb hlt
    rw [w.other b ?_, c.other b hb hlt]
    rcases c.moved with e | ⟨e, -⟩
    · omega
    · omega
  · rcases c.moved with e | ⟨e, e'⟩
    · exact Or.inl e
    · right
      refine ⟨e, ?_⟩
      rw [w.other d (by omega)]; exact e'
  · intro b hb hs
    by_cases e : b = d'
    · exact e
    · rw [w.other b e] at hs; exact c.live b hb hs

namespace ArrObj.Is
variable {h : Heap V} {o : ArrObj V} {a : GrowArray V}

theorem lt (i : ArrObj.Is h o a) : o.data < h.next := Heap.lt_next_of_get i.data

theorem fill_run (E : GrowArray.Elem V) (i : ArrObj.Is h o a) (v : V) {a' : GrowArray V} (hv : a.fill E v = .ok () a') :
    ∃ h', o.fill E v h = .ok () h' ∧ ArrObj.Is h' o a' ∧ Wrote h h' o.data a'.data := by
  unfold GrowArray.fill at hv
  by_cases hs : a.size ≤ a.data.length
  · rw [if_pos hs] at hv
    cases hv
    obtain ⟨h', e, w⟩ := setLoop_run i.data 0 (E.ms v) (n := a.size) (by omega)
    simp only [Nat.zero_add, List.take_zero, List.nil_append] at e w
    refine ⟨h', ?_, ⟨w.get, i.size, ?_, i.default, i.canResize⟩, w⟩
    · unfold ArrObj.fill; rw [i.size]; exact e
    · rw [i.length]; simp; omega
  · rw [if_neg hs] at hv; cases hv

theorem growArray_run (E : GrowArray.Elem V) (i : ArrObj.Is h o a) (hr : a.canResize = true) (n : Nat) {a' : GrowArray V}
    (hv : a.growArray E n = .ok () a') :
    ∃ o' h', o.growArray E n h = .ok o' h' ∧ ArrObj.Is h' o' a' ∧ Changed h h' o.data o'.data ∧ (n ≤ a.data.length → o'.data = o.data ∧ h' = h) := by
  unfold GrowArray.growArray GrowArray.arrayLength at hv
  unfold ArrObj.growArray
  rw [if_neg (by rw [hr]; exact Bool.noConfusion)] at hv
  rw [if_neg (show ¬ o.canResize = false by rw [i.canResize, hr]; exact Bool.noConfusion)]
  by_cases hn : n > a.data.length
  · rw [if_pos hn] at hv
    rw [if_pos (show n > o.arrayLength by rw [i.length]; exact hn)]
    cases hv
    have hd : M.delArr o.data h = .ok () (h.free o.data) := by unfold M.delArr; rw [i.data]
    have hg : ((h.free o.data).alloc ((List.range n).map E.junk)).get h.next = some ((List.range n).map E.junk) := by
      rw [Heap.get_alloc, if_pos (by rw [Heap.next_free])]
    obtain ⟨h', e, w⟩ := setLoop_run hg 0 (E.ms a.default) (n := n / E.sz) (by simp; exact Nat.div_le_self _ _)
    simp only [Nat.zero_add, List.take_zero, List.nil_append] at e w
    have hlist : List.replicate (n / E.sz) (E.ms a.default) ++ List.drop (n / E.sz) (List.map E.junk (List.range n)) =
        (List.range n).map (fun i => if i < n / E.sz then E.ms a.default else E.junk i) := by
      have hle := Nat.div_le_self n E.sz
      apply List.ext_getElem?
      intro k
      rw [List.getElem?_map, List.getElem?_append, List.getElem?_drop, List.getElem?_map, List.getElem?_replicate]
      simp only [List.length_replicate]
      by_cases h1 : k < n / E.sz
      · rw [if_pos h1, if_pos h1, List.getElem?_range (by omega)]
        simp [h1]
      · rw [if_neg h1, show n / E.sz + (k - n / E.sz) = k by omega]
        rcases Nat.lt_or_ge k n with h2 | h2
        · rw [List.getElem?_range h2]; simp [h1]
        · rw [List.getElem?_eq_none (by simpa using h2)]; rfl
    rw [hlist] at w
    have hlt := i.lt
    have hnx : h'.next = h.next + 1 := by rw [w.next, Heap.next_alloc, Heap.next_free]
    refine ⟨{ o with data := h.next, arrayLength := n, size := 0 }, h', ?_, ⟨w.get, rfl, by simp, i.default, i.canResize⟩, ?_, fun hc => by omega⟩
    · rw [M.bind_ok hd]
      have : newJunk E n (h.free o.data) = .ok h.next ((h.free o.data).alloc ((List.range n).map E.junk)) := by
        unfold newJunk; rw [Heap.next_free]
      rw [M.bind_ok this, i.default]
      rw [M.bind_ok e]
      rfl
    · refine ⟨?_, Or.inr ⟨Nat.le_refl _, ?_⟩, ?_, by omega⟩
      · intro b hb hbl
        rw [w.other b (by omega), Heap.get_alloc, if_neg (by rw [Heap.next_free]; omega), Heap.get_free, if_neg hb]
      · rw [w.other _ (by omega), Heap.get_alloc, if_neg (by rw [Heap.next_free]; omega), Heap.get_free, if_pos rfl]
      · intro b hb hs
        obtain ⟨l, e⟩ := Option.isSome_iff_exists.mp hs
        have := Heap.lt_next_of_get e
        show b = h.next
        omega
  · rw [if_neg hn] at hv
    rw [if_neg (show ¬ n > o.arrayLength by rw [i.length]; exact hn)]
    cases hv
    exact ⟨{ o with size := 0 }, h, rfl, ⟨i.data, rfl, i.length, i.default, i.canResize⟩, Changed.refl _ _, fun _ => ⟨rfl, rfl⟩⟩

theorem resize_run (E : GrowArray.Elem V) (i : ArrObj.Is h o a) (hr : a.canResize = true) (n : Nat) {a' : GrowArray V}
    (hv : a.resize E n = .ok () a') :
    ∃ o' h', o.resize E n h = .ok o' h' ∧ ArrObj.Is h' o' a' ∧ Changed h h' o.data o'.data := by
  unfold GrowArray.resize GrowArray.arrayLength at hv
  unfold ArrObj.resize
  rw [if_neg (by rw [hr]; exact Bool.noConfusion)] at hv
  rw [if_neg (show ¬ o.canResize = false by rw [i.canResize, hr]; exact Bool.noConfusion)]
  by_cases hn : n > a.data.length
  · rw [if_pos hn] at hv
    rw [if_pos (show n > o.arrayLength by rw [i.length]; exact hn)]
    by_cases hs : a.size ≤ a.data.length
    · rw [if_pos hs] at hv
      cases hv
      have hlt := i.lt
      have hg : (h.alloc ((List.range n).map E.junk)).get h.next = some ((List.range n).map E.junk) := by
        rw [Heap.get_alloc, if_pos rfl]
      have hsrc : (h.alloc ((List.range n).map E.junk)).get o.data = some a.data := by
        rw [Heap.get_alloc, if_neg (by omega)]; exact i.data
      obtain ⟨h1, e1, w1⟩ := memMove_run hg hsrc 0 (n := a.size) (by omega) (by simp; omega)
      rw [List.drop_zero] at w1
      have hl1 : (List.take a.size a.data).length = a.size := by simp; omega
      obtain ⟨h2, e2, w2⟩ := setLoop_run w1.get a.size (E.ms a.default) (n := n - a.size) (by simp; omega)
      have hlist : List.take a.size (List.take a.size a.data ++ List.drop a.size (List.map E.junk (List.range n))) ++
            List.replicate (n - a.size) (E.ms a.default) ++
          List.drop (a.size + (n - a.size)) (List.take a.size a.data ++ List.drop a.size (List.map E.junk (List.range n))) =
          a.data.take a.size ++ List.replicate (n - a.size) (E.ms a.default) := by
        rw [List.take_append_of_le_length (by omega), List.take_take, Nat.min_self, List.drop_eq_nil_of_le (by simp; omega), List.append_nil]
      rw [hlist] at w2
      have hd : M.delArr o.data h2 = .ok () (h2.free o.data) := by
        unfold M.delArr
        rw [w2.other _ (by omega), w1.other _ (by omega), hsrc]
      have hnx : h2.next = h.next + 1 := by rw [w2.next, w1.next, Heap.next_alloc]
      refine ⟨{ o with data := h.next, arrayLength := n, size := n }, h2.free o.data, ?_, ⟨?_, rfl, ?_, i.default, i.canResize⟩, ?_⟩
      · have : newJunk E n h = .ok h.next (h.alloc ((List.range n).map E.junk)) := rfl
        rw [M.bind_ok this, i.size, M.bind_ok e1, i.default, M.bind_ok e2, M.bind_ok hd]
        rfl
      · rw [Heap.get_free, if_neg (by show h.next ≠ _; omega)]; exact w2.get
      · simp; omega
      · refine ⟨?_, Or.inr ⟨Nat.le_refl _, by rw [Heap.get_free, if_pos rfl]⟩, ?_, by rw [Heap.next_free]; omega⟩
        · intro b hb hbl
          rw [Heap.get_free, if_neg hb, w2.other b (by omega), w1.other b (by omega), Heap.get_alloc, if_neg (by omega)]
        · intro b hb hs
          obtain ⟨l, e⟩ := Option.isSome_iff_exists.mp hs
          have := Heap.lt_next_of_get e
          rw [Heap.next_free] at this
          show b = h.next
          omega
    · rw [if_neg hs] at hv; cases hv
  · rw [if_neg hn] at hv
    rw [if_neg (show ¬ n > o.arrayLength by rw [i.length]; exact hn)]
    cases hv
    exact ⟨{ o with size := n }, h, rfl, ⟨i.data, rfl, i.length, i.default, i.canResize⟩, Changed.refl _ _⟩

theorem setTo_run (E : GrowArray.Elem V) (i : ArrObj.Is h o a) (hr : a.canResize = true) (l : List V) {a' : GrowArray V}
    (hv : a.setTo E l = .ok () a') :
    ∃ o' h', o.setTo E l h = .ok o' h' ∧ ArrObj.Is h' o' a' ∧ Changed h h' o.data o'.data := by
  unfold GrowArray.setTo at hv
  rcases h1 : a.resize E l.length with ⟨_, a1⟩ | _ | _ | _
  · rw [h1] at hv
    simp only at hv
    obtain ⟨o1, h1', e1, i1, c1⟩ := i.resize_run E hr _ h1
    unfold GrowArray.blit at hv
    by_cases hl : l.length ≤ a1.data.length
    · rw [if_pos hl] at hv
      cases hv
      obtain ⟨h', e, w⟩ := writeSpan_run i1.data hl
      refine ⟨o1, h', ?_, ⟨w.get, i1.size, ?_, i1.default, i1.canResize⟩, c1.wrote i.lt w⟩
      · unfold ArrObj.setTo
        rw [M.bind_ok e1, M.bind_ok e]; rfl
      · rw [i1.length]; simp; omega
    · rw [if_neg hl] at hv; cases hv
  · rw [h1] at hv; cases hv
  · rw [h1] at hv; cases hv
  · rw [h1] at hv; cases hv

/-- `a = b` for two objects with arrays of their own. -/
theorem assign_run (E : GrowArray.Elem V) (i : ArrObj.Is h o a) (hr : a.canResize = true) {ob : ArrObj V} {b : GrowArray V} (ib : ArrObj.Is h ob b)
    (hne : ob.data ≠ o.data) {a' : GrowArray V} (hv : GrowArray.assign E a b = .ok () a') :
    ∃ o' h', o.assign E ob h = .ok o' h' ∧ ArrObj.Is h' o' a' ∧ Changed h h' o.data o'.data := by
  unfold GrowArray.assign at hv
  have i0 : ArrObj.Is h { o with default := ob.default } { a with default := b.default } :=
    ⟨i.data, i.size, i.length, ib.default, i.canResize⟩
  rcases h1 : GrowArray.growArray E b.size { a with default := b.default } with ⟨_, a1⟩ | _ | _ | _
  · rw [h1] at hv
    simp only at hv
    obtain ⟨o1, h1', e1, i1, c1, -⟩ := i0.growArray_run E hr _ h1
    by_cases hb : b.size ≤ b.data.length
    · rw [if_pos hb] at hv
      unfold GrowArray.blit at hv
      have hlen : (b.data.take b.size).length = b.size := by simp; omega
      rw [hlen] at hv
      by_cases hl : b.size ≤ a1.data.length
      · rw [if_pos hl] at hv
        cases hv
        have hbl := ib.lt
        have hgb : h1'.get ob.data = some b.data := by rw [c1.other _ hne hbl]; exact ib.data
        have hdn : o1.data ≠ ob.data := by
          rcases c1.moved with e | ⟨e, -⟩
          · rw [e]; exact fun c => hne c.symm
          · omega
        obtain ⟨h', e, w⟩ := memMove_run i1.data hgb 0 (n := b.size) (by omega) hl
        rw [List.drop_zero] at w
        refine ⟨{ o1 with size := ob.size }, h', ?_, ⟨w.get, ib.size, ?_, i1.default, i1.canResize⟩, c1.wrote i.lt w⟩
        · unfold ArrObj.assign
          rw [ib.size, M.bind_ok e1]
          simp only
          unfold memCopy
          rw [if_neg (fun c => hdn c.1), M.bind_ok e]
          rfl
        · rw [i1.length]; simp; omega
      · rw [if_neg hl] at hv; cases hv
    · rw [if_neg hb] at hv; cases hv
  · rw [h1] at hv; cases hv
  · rw [h1] at hv; cases hv
  · rw [h1] at hv; cases hv

/-- `a.set(&b.data[start],n)`, where `b` may be `a`. -/
theorem set_run (E : GrowArray.Elem V) (i : ArrObj.Is h o a) (hr : a.canResize = true) {ob : ArrObj V} {b : GrowArray V} (ib : ArrObj.Is h ob b)
    (start n : Nat) {a' : GrowArray V} (hv : GrowArray.set E (b.data.drop start) n a = .ok () a') :
    ∃ o' h', o.set E ob.data start n h = .ok o' h' ∧ ArrObj.Is h' o' a' ∧ Changed h h' o.data o'.data := by
  unfold GrowArray.set at hv
  rcases h1 : GrowArray.growArray E n a with ⟨_, a1⟩ | _ | _ | _
  · rw [h1] at hv
    simp only at hv
    obtain ⟨o1, h1', e1, i1, c1, stay⟩ := i.growArray_run E hr _ h1
    by_cases hb : n ≤ (b.data.drop start).length
    · rw [if_pos hb] at hv
      unfold GrowArray.blit at hv
      have hlen : ((b.data.drop start).take n).length = n := by simp at hb ⊢; omega
      rw [hlen] at hv
      by_cases hl : n ≤ a1.data.length
      · rw [if_pos hl] at hv
        cases hv
        have hbl := ib.lt
        have hgb : h1'.get ob.data = some b.data := by
          by_cases hne : ob.data = o.data
          · have hab : b.data = a.data := by
              have := ib.data
              rw [hne, i.data] at this
              exact (Option.some.inj this).symm
            obtain ⟨-, e⟩ := stay (by rw [← hab]; simp at hb; omega)
            rw [e]; exact ib.data
          · rw [c1.other _ hne hbl]; exact ib.data
        by_cases hn0 : n = 0
        · -- nothing is copied
          subst hn0
          refine ⟨{ o1 with size := 0 }, h1', ?_, ⟨i1.data, rfl, i1.length, i1.default, i1.canResize⟩, c1⟩
          unfold ArrObj.set
          rw [M.bind_ok e1]
          rfl
        obtain ⟨h', e, w⟩ := memMove_run i1.data hgb start (n := n) (by simp at hb; omega) hl
        refine ⟨{ o1 with size := n }, h', ?_, ⟨w.get, rfl, ?_, i1.default, i1.canResize⟩, c1.wrote i.lt w⟩
        · unfold ArrObj.set
          rw [M.bind_ok e1]
          simp only
          rw [M.bind_ok e]
          rfl
        · show o1.arrayLength = (((b.data.drop start).take n) ++ a1.data.drop n).length
          rw [i1.length, List.length_append, hlen, List.length_drop]; omega
      · rw [if_neg hl] at hv; cases hv
    · rw [if_neg hb] at hv; cases hv
  · rw [h1] at hv; cases hv
  · rw [h1] at hv; cases hv
  · rw [h1] at hv; cases hv

theorem setAt_run (i : ArrObj.Is h o a) (k : Nat) (v : V) {a' : GrowArray V} (hv : a.setAt k v = .ok () a') :
    ∃ h', o.setAt k v h = .ok () h' ∧ ArrObj.Is h' o a' ∧ Changed h h' o.data o.data := by
  unfold GrowArray.setAt at hv
  by_cases hk : k ≥ a.size
  · rw [if_pos hk] at hv; cases hv
  rw [if_neg hk] at hv
  by_cases hl : k < a.data.length
  · rw [if_pos hl] at hv
    cases hv
    have hc : h.cell o.data k = some a.data[k] := by
      unfold Heap.cell; rw [i.data]; exact List.getElem?_eq_getElem _
    have w : Wrote h (h.setCell o.data k v) o.data (a.data.set k v) :=
      ⟨Heap.get_setCell_same i.data, fun x hx => Heap.get_setCell_ne hx, Heap.next_setCell _ _ _⟩
    refine ⟨h.setCell o.data k v, ?_, ⟨w.get, i.size, ?_, i.default, i.canResize⟩, w.changed⟩
    · unfold ArrObj.setAt ArrObj.at'
      rw [i.size, if_neg hk, M.bind_ok (M.pure_run _ h)]
      exact M.wr_run hc
    · rw [i.length]; simp
  · rw [if_neg hl] at hv; cases hv

theorem setAt_throw (i : ArrObj.Is h o a) {k : Nat} (v : V) (hk : a.size ≤ k) : o.setAt k v h = .throw h := by
  unfold ArrObj.setAt ArrObj.at'
  rw [i.size, if_pos hk]
  rfl

/-- The rest of memory does not matter. -/
theorem mono {h' : Heap V} (i : ArrObj.Is h o a) (e : h'.get o.data = h.get o.data) : ArrObj.Is h' o a :=
  ⟨by rw [e]; exact i.data, i.size, i.length, i.default, i.canResize⟩

end ArrObj.Is

/-- A new array. -/
theorem arr_new_run (E : GrowArray.Elem V) (n : Nat) (h : Heap V) :
    ∃ a o h', GrowArray.new E n = .ok () a ∧ ArrObj.new E n h = .ok o h' ∧ ArrObj.Is h' o a ∧ a.canResize = true ∧ o.data = h.next ∧
      (∀ b, b < h.next → h'.get b = h.get b) ∧ h'.next = h.next + 1 := by
  have hg : (h.alloc ((List.range n).map E.junk)).get h.next = some ((List.range n).map E.junk) := by
    rw [Heap.get_alloc, if_pos rfl]
  let a0 : GrowArray V := { data := (List.range n).map E.junk, size := n, default := E.zero, canResize := true }
  let o : ArrObj V := { data := h.next, size := n, arrayLength := n, default := E.zero, canResize := true }
  have i0 : ArrObj.Is (h.alloc ((List.range n).map E.junk)) o a0 := ⟨hg, rfl, by simp [o, a0], rfl, rfl⟩
  obtain ⟨a, ha⟩ : ∃ a, a0.fill E E.zero = .ok () a := by
    unfold GrowArray.fill; rw [if_pos (by simp [a0])]; exact ⟨_, rfl⟩
  obtain ⟨h', e, i1, w⟩ := i0.fill_run E E.zero ha
  have hr : a.canResize = true := i1.canResize.symm
  refine ⟨a, o, h', ha, ?_, i1, hr, rfl, ?_, by rw [w.next, Heap.next_alloc]⟩
  · unfold ArrObj.new
    have : newJunk E n h = .ok h.next (h.alloc ((List.range n).map E.junk)) := rfl
    rw [M.bind_ok this]
    simp only
    rw [M.bind_ok e]
    rfl
  · intro b hb
    rw [w.other b (by show b ≠ h.next; omega), Heap.get_alloc, if_neg (by omega)]

theorem arr_ofList_run (E : GrowArray.Elem V) (l : List V) (h : Heap V) :
    ∃ o h', ArrObj.ofList E l h = .ok o h' ∧ ArrObj.Is h' o (GrowArray.ofList E l) ∧ o.data = h.next ∧
      (∀ b, b < h.next → h'.get b = h.get b) ∧ h'.next = h.next + 1 := by
  have hg : (h.alloc ((List.range l.length).map E.junk)).get h.next = some ((List.range l.length).map E.junk) := by
    rw [Heap.get_alloc, if_pos rfl]
  obtain ⟨h', e, w⟩ := writeSpan_run hg (src := l) (by simp)
  rw [List.drop_eq_nil_of_le (by simp), List.append_nil] at w
  refine ⟨{ data := h.next, size := l.length, arrayLength := l.length, default := E.zero, canResize := true }, h', ?_,
    ⟨w.get, rfl, rfl, rfl, rfl⟩, rfl, ?_, by rw [w.next, Heap.next_alloc]⟩
  · unfold ArrObj.ofList
    have : newJunk E l.length h = .ok h.next (h.alloc ((List.range l.length).map E.junk)) := rfl
    rw [M.bind_ok this, M.bind_ok e]
    rfl
  · intro b hb
    rw [w.other b (by omega), Heap.get_alloc, if_neg (by omega)]

end Boof
