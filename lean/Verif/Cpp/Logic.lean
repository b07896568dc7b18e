import Verif.Cpp.Core
/-
A small total-correctness logic for the outcome monad, and the algebra of heap cells.
-/
namespace Boof
variable {V α β γ : Type}

/-- `m` started in `h` completes normally and the result satisfies `Q`. -/
def Spec (m : M V α) (h : Heap V) (Q : α → Heap V → Prop) : Prop :=
  ∃ a h', m h = .ok a h' ∧ Q a h'

theorem M.pure_run (a : α) (h : Heap V) : (pure a : M V α) h = .ok a h := rfl

theorem M.bind_run (m : M V α) (f : α → M V β) (h : Heap V) :
    (m >>= f) h = match m h with
      | .ok a h' => f a h'
      | .throw h' => .throw h'
      | .ub => .ub
      | .timeout => .timeout := rfl

theorem M.bind_ok {m : M V α} {f : α → M V β} {h h' : Heap V} {a : α} (hm : m h = .ok a h') :
    (m >>= f) h = f a h' := by rw [M.bind_run, hm]

theorem M.bind_throw {m : M V α} {f : α → M V β} {h h' : Heap V} (hm : m h = .throw h') :
    (m >>= f) h = .throw h' := by rw [M.bind_run, hm]

theorem M.bind_ub {m : M V α} {f : α → M V β} {h : Heap V} (hm : m h = .ub) :
    (m >>= f) h = .ub := by rw [M.bind_run, hm]

namespace Spec

theorem pure {a : α} {h : Heap V} {Q : α → Heap V → Prop} (hq : Q a h) :
    Spec (pure a : M V α) h Q := ⟨a, h, rfl, hq⟩

theorem bind {m : M V α} {f : α → M V β} {h : Heap V} {P : α → Heap V → Prop}
    {Q : β → Heap V → Prop} (hm : Spec m h P) (hf : ∀ a h', P a h' → Spec (f a) h' Q) :
    Spec (m >>= f) h Q := by
  obtain ⟨a, h', e, p⟩ := hm
  obtain ⟨b, h'', e', q⟩ := hf a h' p
  exact ⟨b, h'', by rw [M.bind_ok e, e'], q⟩

theorem conseq {m : M V α} {h : Heap V} {P Q : α → Heap V → Prop} (hm : Spec m h P)
    (hpq : ∀ a h', P a h' → Q a h') : Spec m h Q := by
  obtain ⟨a, h', e, p⟩ := hm
  exact ⟨a, h', e, hpq _ _ p⟩

theorem of_eq {m : M V α} {h h' : Heap V} {a : α} {Q : α → Heap V → Prop}
    (e : m h = .ok a h') (q : Q a h') : Spec m h Q := ⟨a, h', e, q⟩

/-- Bind when the first program has a known outcome. -/
theorem bind_eq {m : M V α} {f : α → M V β} {h h' : Heap V} {a : α} {Q : β → Heap V → Prop}
    (e : m h = .ok a h') (hf : Spec (f a) h' Q) : Spec (m >>= f) h Q := by
  obtain ⟨b, h'', e', q⟩ := hf
  exact ⟨b, h'', by rw [M.bind_ok e, e'], q⟩

theorem loopS {n : Nat} {init : β} {body : Nat → β → M V β} {h : Heap V}
    (I : Nat → β → Heap V → Prop) (h0 : I 0 init h)
    (step : ∀ i s h', i < n → I i s h' → Spec (body i s) h' (I (i+1))) :
    Spec (M.loopS n init body) h (I n) := by
  induction n with
  | zero => exact ⟨init, h, rfl, h0⟩
  | succ n ih =>
    have := ih (fun i s h' hi => step i s h' (Nat.lt_succ_of_lt hi))
    exact Spec.bind (m := M.loopS n init body) this
      (fun a h' p => step n a h' (Nat.lt_succ_self n) p)

theorem loop {n : Nat} {body : Nat → M V Unit} {h : Heap V}
    (I : Nat → Heap V → Prop) (h0 : I 0 h)
    (step : ∀ i h', i < n → I i h' → Spec (body i) h' (fun _ => I (i+1))) :
    Spec (M.loop n body) h (fun _ => I n) :=
  Spec.loopS (I := fun i _ => I i) h0 (fun i _ h' hi p => step i h' hi p)

/-- Loop invariant indexed by the loop variable itself. -/
theorem forRange {lo hi : Nat} {body : Nat → M V Unit} {h : Heap V}
    (I : Nat → Heap V → Prop) (h0 : I lo h) (hle : lo ≤ hi)
    (step : ∀ i h', lo ≤ i → i < hi → I i h' → Spec (body i) h' (fun _ => I (i+1))) :
    Spec (M.forRange lo hi body) h (fun _ => I hi) := by
  have := Spec.loop (n := hi - lo) (body := fun k => body (lo + k)) (h := h)
    (fun k h' => I (lo + k) h') h0
    (fun i h' hi' p => step (lo + i) h' (by omega) (by omega) p)
  have e : lo + (hi - lo) = hi := by omega
  simpa only [M.forRange, e] using this

end Spec

theorem M.forRange_empty {lo hi : Nat} {body : Nat → M V Unit} (h : Heap V) (hle : hi ≤ lo) :
    M.forRange lo hi body h = .ok () h := by
  have : hi - lo = 0 := by omega
  simp only [M.forRange, this]; rfl

/-- A read-only loop computes a fold. -/
theorem M.loopS_congr {n : Nat} {s : β} {f g : Nat → β → M V β} (hfg : ∀ i, i < n → f i = g i) :
    M.loopS n s f = M.loopS n s g := by
  induction n with
  | zero => rfl
  | succ n ih =>
    have := ih (fun i hi => hfg i (by omega))
    unfold M.loopS
    rw [this, hfg n (by omega)]

theorem M.loop_congr {n : Nat} {f g : Nat → M V Unit} (hfg : ∀ i, i < n → f i = g i) :
    M.loop n f = M.loop n g :=
  M.loopS_congr (fun i hi => by funext _; exact hfg i hi)

/-- A loop whose first iteration is undefined is undefined. -/
theorem M.loop_ub_first {n : Nat} {body : Nat → M V Unit} {h : Heap V} (hb : body 0 h = .ub) :
    M.loop (n+1) body h = .ub := by
  induction n with
  | zero => exact hb
  | succ n ih =>
    unfold M.loop M.loopS
    unfold M.loop at ih
    exact M.bind_ub ih

theorem M.loopS_pure {n : Nat} {init : β} {body : Nat → β → M V β} {h : Heap V}
    (f : β → Nat → β) (hb : ∀ i s, i < n → body i s h = .ok (f s i) h) :
    M.loopS n init body h = .ok ((List.range n).foldl f init) h := by
  induction n with
  | zero => rfl
  | succ n ih =>
    have := ih (fun i s hi => hb i s (Nat.lt_succ_of_lt hi))
    show M.bind _ _ h = _
    rw [M.bind, this]
    simp only [List.range_succ, List.foldl_append, List.foldl_cons, List.foldl_nil]
    exact hb n _ (Nat.lt_succ_self n)

/-! ### Heap cells -/
namespace Heap

theorem get_setCell_ne {h : Heap V} {b b' i : Nat} {v : V} (hb : b' ≠ b) :
    (h.setCell b i v).get b' = h.get b' := by
  unfold setCell
  split
  · simp only [get, List.getElem?_set]
    rw [if_neg (fun e => hb e.symm)]
  · rfl

theorem get_setCell_same {h : Heap V} {b i : Nat} {v : V} {l : List V} (hl : h.get b = some l) :
    (h.setCell b i v).get b = some (l.set i v) := by
  unfold setCell
  rw [hl]
  simp only [get, List.getElem?_set] at *
  have : b < h.bufs.length := by
    rcases Nat.lt_or_ge b h.bufs.length with hlt | hge
    · exact hlt
    · rw [List.getElem?_eq_none hge] at hl; cases hl
  simp [this]

theorem cell_setCell {h : Heap V} {b i : Nat} {v w : V} (hc : h.cell b i = some w) (b' i' : Nat) :
    (h.setCell b i v).cell b' i' = if b' = b ∧ i' = i then some v else h.cell b' i' := by
  unfold cell at *
  by_cases hb : b' = b
  · subst hb
    rcases hl : h.get b' with _ | l
    · rw [hl] at hc; cases hc
    · rw [get_setCell_same hl]
      rw [hl] at hc
      simp only [Option.bind_some] at *
      rw [List.getElem?_set]
      by_cases hi : i' = i
      · subst hi
        have : i' < l.length := by
          rcases Nat.lt_or_ge i' l.length with hlt | hge
          · exact hlt
          · rw [List.getElem?_eq_none hge] at hc; cases hc
        simp [this]
      · rw [if_neg (fun e => hi e.symm)]; simp [hi]
  · rw [get_setCell_ne hb]; simp [hb]

theorem get_alloc {h : Heap V} {l : List V} (b : Nat) :
    (h.alloc l).get b = if b = h.next then some l else h.get b := by
  unfold alloc get next
  by_cases hb : b = h.bufs.length
  · subst hb; simp
  · simp only [hb, if_false]
    rcases Nat.lt_or_ge b h.bufs.length with hlt | hge
    · rw [List.getElem?_append_left hlt]
    · rw [List.getElem?_eq_none (by simp; omega), List.getElem?_eq_none hge]

theorem cell_alloc {h : Heap V} {l : List V} (b i : Nat) :
    (h.alloc l).cell b i = if b = h.next then l[i]? else h.cell b i := by
  unfold cell
  rw [get_alloc]
  split <;> simp

theorem get_next {h : Heap V} : h.get h.next = none := by simp [get, next]

theorem cell_next {h : Heap V} (i : Nat) : h.cell h.next i = none := by simp [cell, get_next]

theorem get_free {h : Heap V} (b b' : Nat) :
    (h.free b).get b' = if b' = b then none else h.get b' := by
  unfold free get
  simp only [List.getElem?_set]
  by_cases hb : b' = b
  · subst hb
    by_cases hl : b' < h.bufs.length
    · simp [hl]
    · simp [hl]
  · rw [if_neg (fun e => hb e.symm)]; simp [hb]

theorem cell_free {h : Heap V} (b b' i : Nat) :
    (h.free b).cell b' i = if b' = b then none else h.cell b' i := by
  unfold cell; rw [get_free]; split <;> simp

theorem next_free {h : Heap V} (b : Nat) : (h.free b).next = h.next := by
  simp [free, next]

theorem next_setCell {h : Heap V} (b i : Nat) (v : V) : (h.setCell b i v).next = h.next := by
  unfold setCell; split <;> simp [next]

theorem next_alloc {h : Heap V} (l : List V) : (h.alloc l).next = h.next + 1 := by
  simp [alloc, next]

theorem lt_next_of_get {h : Heap V} {b : Nat} {l : List V} (e : h.get b = some l) : b < h.next := by
  rcases Nat.lt_or_ge b h.next with hlt | hge
  · exact hlt
  · unfold get at e; rw [List.getElem?_eq_none hge] at e; cases e

theorem lt_next_of_cell {h : Heap V} {b i : Nat} {v : V} (e : h.cell b i = some v) : b < h.next := by
  unfold cell at e
  rcases hl : h.get b with _ | l
  · rw [hl] at e; cases e
  · exact lt_next_of_get hl

end Heap

theorem M.rd_run {h : Heap V} {b i : Nat} {v : V} (hc : h.cell b i = some v) :
    M.rd b i h = .ok v h := by simp [M.rd, hc]

theorem M.rd_ub {h : Heap V} {b i : Nat} (hc : h.cell b i = none) :
    M.rd b i h = .ub := by simp [M.rd, hc]

theorem M.wr_run {h : Heap V} {b i : Nat} {v w : V} (hc : h.cell b i = some w) :
    M.wr b i v h = .ok () (h.setCell b i v) := by simp [M.wr, hc]

theorem M.wr_ub {h : Heap V} {b i : Nat} {v : V} (hc : h.cell b i = none) :
    M.wr b i v h = .ub := by simp [M.wr, hc]

/-! ### Machine integers -/

theorem wrap32_of_lt {n : Nat} (h : n < P32) : wrap32 n = n := Nat.mod_eq_of_lt h

theorem sub32_of_le {a b : Nat} (hb : b ≤ a) (ha : a < P32) : sub32 a b = a - b := by
  unfold sub32 P32 at *; omega

theorem toU32_of_nonneg {v : Int} (h0 : 0 ≤ v) (h1 : v < P32) : toU32 v = v.toNat := by
  unfold toU32 P32 at *; omega

theorem toS32_of_lt {n : Nat} (h : n < 2147483648) : toS32 n = n := by
  unfold toS32 P32; simp only []; split <;> omega

end Boof
