import Verif.Cpp.Threads
import Verif.Cpp.Logic
import Mathlib.Tactic.Choose
import Mathlib.Tactic.ByContra
/-
Programs as trees of accesses: which programs of the model can be written like this, and what their interleavings do.
-/
namespace Boof
open M
variable {V α β ι : Type}

namespace Accesses

theorem run_bind (p : Accesses V α) (f : α → Accesses V β) (h : Heap V) : (p.bind f).run h = M.bind p.run (fun a => (f a).run) h := by
  induction p generalizing h with
  | done a => rfl
  | throw => rfl
  | ub => rfl
  | timeout => rfl
  | rd b i k ih =>
    show M.bind (M.rd b i) _ h = M.bind (M.bind (M.rd b i) _) _ h
    unfold M.bind M.rd
    cases h.cell b i with
    | none => rfl
    | some v => exact ih v h
  | wr b i v k ih =>
    show M.bind (M.wr b i v) _ h = M.bind (M.bind (M.wr b i v) _) _ h
    unfold M.bind M.wr
    cases h.cell b i with
    | none => rfl
    | some w => exact ih _

theorem writesIn_bind {W : Nat → Prop} {p : Accesses V α} {f : α → Accesses V β} (hp : p.WritesIn W) (hf : ∀ a, (f a).WritesIn W) :
    (p.bind f).WritesIn W := by
  induction p with
  | done a => exact hf a
  | throw => trivial
  | ub => trivial
  | timeout => trivial
  | rd b i k ih => exact fun v => ih v (hp v)
  | wr b i v k ih => exact ⟨hp.1, ih hp.2⟩

theorem readsIn_bind {R : Nat → Prop} {p : Accesses V α} {f : α → Accesses V β} (hp : p.ReadsIn R) (hf : ∀ a, (f a).ReadsIn R) :
    (p.bind f).ReadsIn R := by
  induction p with
  | done a => exact hf a
  | throw => trivial
  | ub => trivial
  | timeout => trivial
  | rd b i k ih => exact ⟨hp.1, fun v => ih v (hp.2 v)⟩
  | wr b i v k ih => exact ih hp

/-- The number of accesses when run alone. -/
def length : Accesses V α → Heap V → Nat
  | rd b i k, h => match h.cell b i with
    | some v => (k v).length h + 1
    | none => 0
  | wr b i v k, h => k.length (h.setCell b i v) + 1
  | _, _ => 0

end Accesses

/-- `m` is a program of single accesses which reads arrays in `R` and writes arrays in `W` only. -/
def Steps (R W : Nat → Prop) (m : M V α) : Prop := ∃ p : Accesses V α, (∀ h, p.run h = m h) ∧ p.ReadsIn R ∧ p.WritesIn W

namespace Steps
variable {R W : Nat → Prop}

theorem pure (a : α) : Steps R W (Pure.pure a : M V α) := ⟨.done a, fun _ => rfl, trivial, trivial⟩
theorem mpure (a : α) : Steps R W (M.pure a : M V α) := ⟨.done a, fun _ => rfl, trivial, trivial⟩
theorem throw : Steps R W (M.throw : M V α) := ⟨.throw, fun _ => rfl, trivial, trivial⟩
theorem ub : Steps R W (M.ub : M V α) := ⟨.ub, fun _ => rfl, trivial, trivial⟩
theorem timeout : Steps R W (M.timeout : M V α) := ⟨.timeout, fun _ => rfl, trivial, trivial⟩

theorem rd {b : Nat} (i : Nat) (hb : R b) : Steps R W (M.rd b i : M V V) := ⟨.rd b i .done, fun h => by
  show M.bind _ _ h = _
  unfold M.bind M.rd
  cases h.cell b i <;> rfl, ⟨hb, fun _ => trivial⟩, fun _ => trivial⟩

theorem wr {b : Nat} (i : Nat) (v : V) (hb : W b) : Steps R W (M.wr b i v) := ⟨.wr b i v (.done ()), fun h => by
  show M.bind _ _ h = _
  unfold M.bind M.wr
  cases h.cell b i <;> rfl, trivial, hb, trivial⟩

theorem mbind {m : M V α} {f : α → M V β} (hm : Steps R W m) (hf : ∀ a, Steps R W (f a)) : Steps R W (M.bind m f) := by
  obtain ⟨p, hp, rp, wp⟩ := hm
  choose q hq rq wq using hf
  refine ⟨p.bind q, fun h => ?_, Accesses.readsIn_bind rp rq, Accesses.writesIn_bind wp wq⟩
  rw [Accesses.run_bind]
  unfold M.bind
  rw [hp h]
  cases m h with
  | ok a h' => exact hq a h'
  | throw h' => rfl
  | ub => rfl
  | timeout => rfl

theorem bind {m : M V α} {f : α → M V β} (hm : Steps R W m) (hf : ∀ a, Steps R W (f a)) : Steps R W (m >>= f) := mbind hm hf

theorem loopS {n : Nat} {init : β} {body : Nat → β → M V β} (hb : ∀ i s, Steps R W (body i s)) : Steps R W (M.loopS n init body) := by
  induction n with
  | zero => exact mpure init
  | succ n ih => exact mbind ih (fun s => hb n s)

theorem loop {n : Nat} {body : Nat → M V Unit} (hb : ∀ i, Steps R W (body i)) : Steps R W (M.loop n body) := loopS (fun i _ => hb i)

theorem forRange {lo hi : Nat} {body : Nat → M V Unit} (hb : ∀ i, Steps R W (body i)) : Steps R W (M.forRange lo hi body) :=
  loop (fun _ => hb _)

theorem throwIf (c : Bool) : Steps R W (M.throwIf c : M V Unit) := by
  unfold M.throwIf; split
  · exact throw
  · exact mpure ()

theorem arith (t : IntTy) (v : Int) : Steps R W (t.arith v : M V Int) := by
  unfold IntTy.arith
  split
  · split
    · exact mpure _
    · exact ub
  · exact mpure _

theorem congr {m m' : M V α} (h : Steps R W m) (e : ∀ h, m' h = m h) : Steps R W m' := by
  obtain ⟨p, hp, wp⟩ := h
  exact ⟨p, fun h => (hp h).trans (e h).symm, wp⟩

theorem mono {W' : Nat → Prop} {m : M V α} (h : Steps R W m) (hw : ∀ b, W b → W' b) : Steps R W' m := by
  obtain ⟨p, hp, rp, wp⟩ := h
  refine ⟨p, hp, rp, ?_⟩
  clear hp rp
  induction p with
  | rd b i k ih => exact fun v => ih v (wp v)
  | wr b i v k ih => exact ⟨hw b wp.1, ih wp.2⟩
  | _ => trivial

end Steps

/-! ## Interleavings -/

/-- The arrays in `A` only; all others are gone. -/
noncomputable def Heap.only (A : Nat → Prop) (h : Heap V) : Heap V :=
  open Classical in ⟨h.bufs.mapIdx (fun b l => if A b then l else none)⟩

theorem Heap.get_only {A : Nat → Prop} {h : Heap V} {b : Nat} (hb : A b) : (h.only A).get b = h.get b := by
  unfold Heap.only Heap.get
  rw [List.getElem?_mapIdx]
  cases h.bufs[b]? with
  | none => rfl
  | some l => simp [hb]

theorem Heap.get_only_not {A : Nat → Prop} {h : Heap V} {b : Nat} (hb : ¬A b) : (h.only A).get b = none := by
  unfold Heap.only Heap.get
  rw [List.getElem?_mapIdx]
  cases h.bufs[b]? with
  | none => rfl
  | some l => simp [hb]

/-- What is left to do of a thread which ends with `a` in memory `e` when it is alone: `s` is its own view of the memory `h`. -/
structure Running (A W : Nat → Prop) (p : Accesses V α) (h s : Heap V) (a : α) (e : Heap V) : Prop where
  same : ∀ b, A b → s.get b = h.get b
  gone : ∀ b, ¬A b → s.get b = none
  run : p.run s = .ok a e
  writes : p.WritesIn W

theorem Running.has {A W : Nat → Prop} {p : Accesses V α} {h s : Heap V} {a : α} {e : Heap V} (r : Running A W p h s a e) {b i : Nat}
    {v : V} (hc : s.cell b i = some v) : A b ∧ h.cell b i = some v := by
  have hA : A b := by
    by_contra hb
    unfold Heap.cell at hc
    rw [r.gone b hb] at hc; cases hc
  refine ⟨hA, ?_⟩
  unfold Heap.cell at *
  rw [← r.same b hA]; exact hc

/-- A step of the thread itself. -/
theorem Running.step {A W : Nat → Prop} {p : Accesses V α} {h s : Heap V} {a : α} {e : Heap V} (r : Running A W p h s a e) :
    ∃ q h' s', p.step h = some (q, h') ∧ Running A W q h' s' a e ∧ q.length s' = p.length s - 1 ∧
      (∀ b, ¬W b → h'.get b = h.get b) := by
  cases p with
  | done x => exact ⟨_, h, s, rfl, r, rfl, fun _ _ => rfl⟩
  | throw => exact absurd r.run (by intro h; cases h)
  | ub => exact absurd r.run (by intro h; cases h)
  | timeout => exact absurd r.run (by intro h; cases h)
  | rd b i k =>
    have hr := r.run
    change M.bind (M.rd b i) _ s = _ at hr
    cases hc : s.cell b i with
    | none => unfold M.bind at hr; rw [M.rd_ub hc] at hr; cases hr
    | some v =>
      unfold M.bind at hr; rw [M.rd_run hc] at hr
      refine ⟨k v, h, s, ?_, ⟨r.same, r.gone, hr, r.writes v⟩, ?_, fun _ _ => rfl⟩
      · show (h.cell b i).map _ = _; rw [(r.has hc).2]; rfl
      · simp [Accesses.length, hc]
  | wr b i v k =>
    have hr := r.run
    change M.bind (M.wr b i v) _ s = _ at hr
    cases hc : s.cell b i with
    | none => unfold M.bind at hr; rw [M.wr_ub hc] at hr; cases hr
    | some w =>
      unfold M.bind at hr; rw [M.wr_run hc] at hr
      obtain ⟨hA, hch⟩ := r.has hc
      have hWb : W b := r.writes.1
      refine ⟨k, h.setCell b i v, s.setCell b i v, ?_, ⟨fun b' hb' => ?_, fun b' hb' => ?_, hr, r.writes.2⟩, ?_, fun b' hb' => ?_⟩
      · show (h.cell b i).map _ = _; rw [hch]; rfl
      · by_cases e : b' = b
        · subst e
          have := r.same b' hb'
          cases hl : s.get b' with
          | none => unfold Heap.cell at hc; rw [hl] at hc; cases hc
          | some l => rw [Heap.get_setCell_same hl, Heap.get_setCell_same (this ▸ hl)]
        · rw [Heap.get_setCell_ne e, Heap.get_setCell_ne e]; exact r.same b' hb'
      · have e : b' ≠ b := fun e => hb' (e ▸ hA)
        rw [Heap.get_setCell_ne e]; exact r.gone b' hb'
      · simp [Accesses.length]
      · have e : b' ≠ b := fun e => hb' (e ▸ hWb)
        rw [Heap.get_setCell_ne e]

/-- A step of another thread. -/
theorem Running.other {A W W' : Nat → Prop} {p : Accesses V α} {h h' s : Heap V} {a : α} {e : Heap V} (r : Running A W p h s a e)
    (hk : ∀ b, ¬W' b → h'.get b = h.get b) (hd : ∀ b, W' b → ¬A b) : Running A W p h' s a e :=
  ⟨fun b hb => (r.same b hb).trans (hk b (fun hw => hd b hw hb)).symm, r.gone, r.run, r.writes⟩

theorem Running.ended {A W : Nat → Prop} {p : Accesses V α} {h s : Heap V} {a : α} {e : Heap V} (r : Running A W p h s a e)
    (hl : p.length s = 0) : p = .done a ∧ s = e := by
  cases p with
  | done x => have := r.run; cases this; exact ⟨rfl, rfl⟩
  | throw => exact absurd r.run (by intro h; cases h)
  | ub => exact absurd r.run (by intro h; cases h)
  | timeout => exact absurd r.run (by intro h; cases h)
  | rd b i k =>
    have hr := r.run
    change M.bind (M.rd b i) _ s = _ at hr
    cases hc : s.cell b i with
    | none => unfold M.bind at hr; rw [M.rd_ub hc] at hr; cases hr
    | some v => simp [Accesses.length, hc] at hl
  | wr b i v k => simp [Accesses.length] at hl

/-- The next access is to an array of the thread, and to one of those it may write if it is a write. -/
theorem Running.access {A W : Nat → Prop} {p : Accesses V α} {h s : Heap V} {a : α} {e : Heap V} (r : Running A W p h s a e)
    {b i : Nat} {w : Bool} (hn : p.next = some (b, i, w)) : A b ∧ (w = true → W b) := by
  cases p with
  | done x => cases hn
  | throw => cases hn
  | ub => cases hn
  | timeout => cases hn
  | rd b' i' k =>
    cases hn
    have hr := r.run
    change M.bind (M.rd b i) _ s = _ at hr
    cases hc : s.cell b i with
    | none => unfold M.bind at hr; rw [M.rd_ub hc] at hr; cases hr
    | some v => exact ⟨(r.has hc).1, by simp⟩
  | wr b' i' v k =>
    cases hn
    have hr := r.run
    change M.bind (M.wr b i v) _ s = _ at hr
    cases hc : s.cell b i with
    | none => unfold M.bind at hr; rw [M.wr_ub hc] at hr; cases hr
    | some w => exact ⟨(r.has hc).1, fun _ => r.writes.1⟩

theorem schedule_spec [DecidableEq ι] {A W : ι → Nat → Prop} (hd : ∀ i j, i ≠ j → ∀ b, W i b → ¬A j b) {a : ι → α} {e : ι → Heap V}
    (l : List ι) : ∀ {p : ι → Accesses V α} {h : Heap V} {s : ι → Heap V}, (∀ i, Running (A i) (W i) (p i) h (s i) (a i) (e i)) →
    ∃ (q : ι → Accesses V α) (h' : Heap V) (s' : ι → Heap V), schedule l p h = some (q, h') ∧ (∀ i, Running (A i) (W i) (q i) h' (s' i) (a i) (e i)) ∧
      (∀ i, (q i).length (s' i) = (p i).length (s i) - l.count i) ∧ (∀ b, (∀ i, ¬W i b) → h'.get b = h.get b) := by
  induction l with
  | nil => intro p h s hr; exact ⟨p, h, s, rfl, hr, fun i => by simp, fun _ _ => rfl⟩
  | cons j l ih =>
    intro p h s hr
    obtain ⟨q, h1, s1, e1, r1, l1, k1⟩ := (hr j).step
    obtain ⟨q', h', s', e2, r2, l2, k2⟩ := ih (p := fun i => if i = j then q else p i) (h := h1)
      (s := fun i => if i = j then s1 else s i) (fun i => by
        by_cases hij : i = j
        · subst hij; simp only [if_true]; exact r1
        · simp only [hij, if_false]
          exact (hr i).other k1 (hd j i (Ne.symm hij)))
    refine ⟨q', h', s', ?_, r2, fun i => ?_, fun b hb => (k2 b hb).trans (k1 b (hb j))⟩
    · show (match (p j).step h with | none => none | some (q, h') => _) = _
      rw [e1]; exact e2
    · rw [l2 i]
      by_cases hij : i = j
      · subst hij; simp only [if_true, l1, List.count_cons_self]; omega
      · simp only [hij, if_false]
        rw [List.count_cons_of_ne (Ne.symm hij)]

end Boof
