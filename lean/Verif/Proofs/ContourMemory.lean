import Verif.Model.ContourMemory
import Verif.Cpp.Logic
/-
Running the contour finder with its tables in memory and with its tables as values, side by side.
-/
namespace Boof
open M

/-- The tables in memory with their contents, the arrays which are alive, and the number of arrays made so far. -/
structure Ix where
  tab : List (Nat × List Int)
  alive : Nat → Prop
  next : Nat

def Ix.keys (ix : Ix) : List Nat := ix.tab.map Prod.fst

/-- The heap `h` is `hv` but for the tables. -/
structure RelH (ix : Ix) (h hv : Heap Int) : Prop where
  next : h.next = ix.next
  nextv : hv.next = ix.next
  same : ∀ b, b ∉ ix.keys → h.get b = hv.get b
  tables : ∀ p ∈ ix.tab, h.get p.1 = some p.2
  alive : ∀ b, (h.get b).isSome = true ↔ ix.alive b

/-- Outcomes of the same kind, with related results. -/
def SimRes {α β : Type} (Q : α → β → Ix → Prop) : Res (Heap Int) α → Res (Heap Int) β → Prop
  | .ok a g, .ok b gv => ∃ ix', Q a b ix' ∧ RelH ix' g gv
  | .throw _, .throw _ => True
  | .ub, .ub => True
  | .timeout, .timeout => True
  | _, _ => False

def Sim {α β : Type} (ix : Ix) (m : M Int α) (mv : M Int β) (Q : α → β → Ix → Prop) : Prop :=
  ∀ h hv, RelH ix h hv → SimRes Q (m h) (mv hv)

variable {α β γ δ : Type} {ix : Ix}

theorem RelH.cell {h hv : Heap Int} (r : RelH ix h hv) {b : Nat} (hb : b ∉ ix.keys) (i : Nat) : h.cell b i = hv.cell b i := by
  unfold Heap.cell; rw [r.same b hb]

theorem RelH.key_lt {h hv : Heap Int} (r : RelH ix h hv) {b : Nat} (hb : b ∈ ix.keys) : b < h.next := by
  obtain ⟨p, hp, rfl⟩ := List.mem_map.1 hb
  exact Heap.lt_next_of_get (r.tables p hp)

theorem Sim.conseq {m : M Int α} {mv : M Int β} {Q Q' : α → β → Ix → Prop} (hs : Sim ix m mv Q)
    (hq : ∀ a b ix', Q a b ix' → Q' a b ix') : Sim ix m mv Q' := by
  intro h hv r
  have := hs h hv r
  revert this
  cases m h <;> cases mv hv <;> intro this <;> first | exact this | skip
  obtain ⟨ix', q, r'⟩ := this
  exact ⟨ix', hq _ _ _ q, r'⟩

theorem Sim.pure {a : α} {b : β} {Q : α → β → Ix → Prop} (hq : Q a b ix) : Sim ix (pure a) (pure b) Q :=
  fun _ _ r => ⟨ix, hq, r⟩

theorem Sim.ub {Q : α → β → Ix → Prop} : Sim ix M.ub M.ub Q := fun _ _ _ => trivial
theorem Sim.throw {Q : α → β → Ix → Prop} : Sim ix M.throw M.throw Q := fun _ _ _ => trivial
theorem Sim.timeout {Q : α → β → Ix → Prop} : Sim ix M.timeout M.timeout Q := fun _ _ _ => trivial

theorem Sim.bind {m : M Int α} {mv : M Int β} {Q : α → β → Ix → Prop} {f : α → M Int γ} {fv : β → M Int δ}
    {Q' : γ → δ → Ix → Prop} (hs : Sim ix m mv Q) (hf : ∀ a b ix', Q a b ix' → Sim ix' (f a) (fv b) Q') :
    Sim ix (m >>= f) (mv >>= fv) Q' := by
  intro h hv r
  have h1 := hs h hv r
  rw [M.bind_run, M.bind_run]
  revert h1
  cases m h <;> cases mv hv <;> intro h1 <;> first | exact h1 | exact h1.elim | skip
  obtain ⟨ix', q, r'⟩ := h1
  exact hf _ _ ix' q _ _ r'

theorem Sim.ite {c cv : Prop} [Decidable c] [Decidable cv] {m m' : M Int α} {mv mv' : M Int β} {Q : α → β → Ix → Prop} (hc : c ↔ cv)
    (h1 : c → Sim ix m mv Q) (h2 : ¬c → Sim ix m' mv' Q) : Sim ix (if c then m else m') (if cv then mv else mv') Q := by
  by_cases h : c
  · rw [if_pos h, if_pos (hc.1 h)]; exact h1 h
  · rw [if_neg h, if_neg (fun h' => h (hc.2 h'))]; exact h2 h

/-- A computation which changes no table, allocates and releases nothing. -/
def SimQ {α β : Type} (ix : Ix) (m : M Int α) (mv : M Int β) (Q : α → β → Prop) : Prop :=
  Sim ix m mv (fun a b ix' => Q a b ∧ ix' = ix)

theorem SimQ.bind {m : M Int α} {mv : M Int β} {Q : α → β → Prop} {f : α → M Int γ} {fv : β → M Int δ}
    {Q' : γ → δ → Ix → Prop} (hs : SimQ ix m mv Q) (hf : ∀ a b, Q a b → Sim ix (f a) (fv b) Q') :
    Sim ix (m >>= f) (mv >>= fv) Q' :=
  Sim.bind hs (by rintro a b ix' ⟨q, rfl⟩; exact hf a b q)

theorem SimQ.pure {a : α} {b : β} {Q : α → β → Prop} (hq : Q a b) : SimQ ix (pure a) (pure b) Q := Sim.pure ⟨hq, rfl⟩

/-- A computation which does not use the heap. -/
theorem SimQ.const {m : M Int α} (hm : (∃ a, m = (Pure.pure a : M Int α)) ∨ m = M.ub ∨ m = M.throw ∨ m = M.timeout) : SimQ ix m m Eq := by
  rcases hm with ⟨a, rfl⟩ | rfl | rfl | rfl
  · exact SimQ.pure rfl
  · exact Sim.ub
  · exact Sim.throw
  · exact Sim.timeout

theorem SimQ.deref (o : Option α) : SimQ ix (deref o) (deref o) Eq :=
  SimQ.const (by cases o <;> simp [Boof.deref])

theorem SimQ.lift (r : Res α Unit) : SimQ ix (liftPoints r) (liftPoints r) Eq :=
  SimQ.const (by cases r <;> simp [liftPoints])

theorem SimQ.arith (v : Int) : SimQ ix (S32.arith v) (S32.arith v) Eq := by
  apply SimQ.const
  unfold IntTy.arith
  split
  · split
    · exact Or.inl ⟨_, rfl⟩
    · exact Or.inr (Or.inl rfl)
  · exact Or.inl ⟨_, rfl⟩

theorem SimQ.rd {b : Nat} (hb : b ∉ ix.keys) (i : Nat) : SimQ ix (rd b i) (rd b i) Eq := by
  intro h hv r
  unfold M.rd
  rw [r.cell hb]
  cases hv.cell b i
  · exact trivial
  · exact ⟨ix, ⟨rfl, rfl⟩, r⟩

theorem SimQ.wr {b : Nat} (hb : b ∉ ix.keys) (i : Nat) (v : Int) : SimQ ix (wr b i v) (wr b i v) Eq := by
  intro h hv r
  unfold M.wr
  rw [r.cell hb]
  cases hc : hv.cell b i with
  | none => exact trivial
  | some w =>
    have hc' := hc
    rw [← r.cell hb] at hc'
    refine ⟨ix, ⟨rfl, rfl⟩, ?_, ?_, ?_, ?_, ?_⟩
    · rw [Heap.next_setCell, r.next]
    · rw [Heap.next_setCell, r.nextv]
    · intro c hcb
      by_cases hcc : c = b
      · subst hcc
        have e := r.same c hcb
        cases hl : hv.get c with
        | none => unfold Heap.cell at hc; rw [hl] at hc; cases hc
        | some l => rw [Heap.get_setCell_same hl, Heap.get_setCell_same (e.trans hl)]
      · rw [Heap.get_setCell_ne hcc, Heap.get_setCell_ne hcc, r.same c hcb]
    · intro p hp
      have hne : p.1 ≠ b := fun e => hb (e ▸ List.mem_map.2 ⟨p, hp, rfl⟩)
      rw [Heap.get_setCell_ne hne, r.tables p hp]
    · intro c
      by_cases hcc : c = b
      · subst hcc
        cases hl : h.get c with
        | none => unfold Heap.cell at hc'; rw [hl] at hc'; cases hc'
        | some l => rw [Heap.get_setCell_same hl, ← r.alive c, hl]; simp
      · rw [Heap.get_setCell_ne hcc, r.alive c]

theorem Sim.newArr (n : Nat) (z : Int) : Sim ix (newArr n z) (newArr n z) (fun a b ix' => a = b ∧ a = ix.next ∧ a ∉ ix.keys ∧ ¬ix.alive a ∧
    ix' = ⟨ix.tab, fun c => ix.alive c ∨ c = a, ix.next + 1⟩) := by
  intro h hv r
  have hn : h.next ∉ ix.keys := fun hk => Nat.lt_irrefl _ (r.key_lt hk)
  refine ⟨_, ⟨r.next.trans r.nextv.symm, r.next, hn, ?_, rfl⟩, ?_, ?_, ?_, ?_, ?_⟩
  · rw [← r.alive, Heap.get_next]; simp
  · rw [Heap.next_alloc, r.next]
  · rw [Heap.next_alloc, r.nextv]
  · intro b hb
    rw [Heap.get_alloc, Heap.get_alloc, r.same b hb, r.next, r.nextv]
  · intro p hp
    rw [Heap.get_alloc, if_neg (by have := r.key_lt (List.mem_map.2 ⟨p, hp, rfl⟩); omega), r.tables p hp]
  · intro b
    rw [Heap.get_alloc]
    split
    · next e => simp [e]
    · next e => rw [r.alive]; simp [e]

theorem Sim.delArr {b : Nat} (hb : b ∉ ix.keys) : Sim ix (delArr b) (delArr b) (fun _ _ ix' => ix.alive b ∧ b < ix.next ∧
    ix' = ⟨ix.tab, fun c => ix.alive c ∧ c ≠ b, ix.next⟩) := by
  intro h hv r
  unfold M.delArr
  rw [r.same b hb]
  cases hg : hv.get b with
  | none => exact trivial
  | some l =>
    refine ⟨_, ⟨?_, ?_, rfl⟩, ?_, ?_, ?_, ?_, ?_⟩
    · rw [← r.alive, r.same b hb, hg]; simp
    · rw [← r.nextv]; exact Heap.lt_next_of_get hg
    · rw [Heap.next_free, r.next]
    · rw [Heap.next_free, r.nextv]
    · intro c hc
      rw [Heap.get_free, Heap.get_free, r.same c hc]
    · intro p hp
      have hne : p.1 ≠ b := fun e => hb (e ▸ List.mem_map.2 ⟨p, hp, rfl⟩)
      rw [Heap.get_free, if_neg hne, r.tables p hp]
    · intro c
      rw [Heap.get_free]
      split
      · next e => simp [e]
      · next e => rw [r.alive]; simp [e]

theorem SimQ.loopS {n : Nat} {i : α} {iv : β} {body : Nat → α → M Int α} {bodyv : Nat → β → M Int β} {Q : α → β → Prop}
    (h0 : Q i iv) (hb : ∀ k a b, Q a b → SimQ ix (body k a) (bodyv k b) Q) : SimQ ix (loopS n i body) (loopS n iv bodyv) Q := by
  induction n with
  | zero => exact SimQ.pure h0
  | succ n ih => exact SimQ.bind ih (fun a b q => hb n a b q)

theorem SimQ.loop {n : Nat} {body bodyv : Nat → M Int Unit} (hb : ∀ k, SimQ ix (body k) (bodyv k) Eq) :
    SimQ ix (loop n body) (loop n bodyv) Eq :=
  SimQ.loopS rfl (fun k _ _ _ => hb k)

/-! ### Images -/

theorem SimQ.seq {m mv : M Int Unit} {f fv : M Int Unit} (h1 : SimQ ix m mv Eq) (h2 : SimQ ix f fv Eq) :
    SimQ ix (m >>= fun _ => f) (mv >>= fun _ => fv) Eq := SimQ.bind h1 (fun _ _ _ => h2)

theorem sim_fill {g : Gray} (hg : g.buf ∉ ix.keys) (v : Int) : SimQ ix (ImageMiscOps.fill g v) (ImageMiscOps.fill g v) Eq := by
  unfold ImageMiscOps.fill
  split
  · exact SimQ.loop fun y => SimQ.loop fun x => SimQ.wr hg _ _
  · exact SimQ.loop fun i => SimQ.wr hg _ _

theorem sim_fillBorder {g : Gray} (hg : g.buf ∉ ix.keys) (v : Int) (radius : Nat) :
    SimQ ix (ImageMiscOps.fillBorder g v radius) (ImageMiscOps.fillBorder g v radius) Eq := by
  unfold ImageMiscOps.fillBorder
  split
  · exact sim_fill hg v
  · exact SimQ.seq (SimQ.loop fun y => SimQ.loop fun x => SimQ.seq (SimQ.wr hg _ _) (SimQ.wr hg _ _))
      (SimQ.loop fun y => SimQ.loop fun x => SimQ.seq (SimQ.wr hg _ _) (SimQ.wr hg _ _))

theorem sim_reshape {g : Gray} (hg : g.buf ∉ ix.keys) (w ht : Nat) : Sim ix (g.reshape 0 w ht) (g.reshape 0 w ht) (fun a b ix' =>
    a = b ∧ a.buf ∉ ix.keys ∧ a.subimage = g.subimage ∧ a.width = w ∧ a.height = ht ∧ ((a.buf = g.buf ∧ ix' = ix) ∨ (ix.alive g.buf ∧ ¬ix.alive a.buf ∧
      ix' = ⟨ix.tab, fun c => (ix.alive c ∧ c ≠ g.buf) ∨ c = a.buf, ix.next + 1⟩))) := by
  unfold Gray.reshape
  split
  · next e => exact Sim.pure ⟨rfl, hg, rfl, e.1, e.2, Or.inl ⟨rfl, rfl⟩⟩
  split
  · exact Sim.throw
  show Sim ix (if _ then _ else _) (if _ then _ else _) _
  split
  · refine Sim.bind (Sim.delArr hg) ?_
    rintro _ _ ix1 ⟨ha, hlt, rfl⟩
    refine Sim.bind (Sim.newArr _ _) ?_
    rintro b _ ix2 ⟨rfl, hb, hk, hn, rfl⟩
    refine Sim.pure ⟨rfl, hk, rfl, rfl, rfl, Or.inr ⟨ha, ?_, rfl⟩⟩
    intro hal
    have hb : b = ix.next := hb
    exact hn ⟨hal, by omega⟩
  · exact Sim.pure ⟨rfl, hg, rfl, rfl, rfl, Or.inl ⟨rfl, rfl⟩⟩

theorem sim_memcpy {b c : Nat} (hb : b ∉ ix.keys) (hc : c ∉ ix.keys) (i j n : Nat) :
    SimQ ix (memcpy b i c j n) (memcpy b i c j n) Eq := by
  unfold memcpy
  split
  · exact Sim.ub
  · exact SimQ.loop fun k => SimQ.bind (SimQ.rd hc _) (by rintro v _ rfl; exact SimQ.wr hb _ _)

theorem sim_makeSubimage {g : Gray} (x0 y0 x1 y1 : Nat) : SimQ ix (g.makeSubimage x0 y0 x1 y1) (g.makeSubimage x0 y0 x1 y1)
    (fun a b => a = b ∧ a.buf = g.buf ∧ a.subimage = true) := by
  unfold Gray.makeSubimage
  split
  · exact Sim.throw
  · exact SimQ.pure ⟨rfl, rfl, rfl⟩

/-- Copying into a sub-image. -/
theorem sim_copy {g src : Gray} (hg : g.buf ∉ ix.keys) (hs : src.buf ∉ ix.keys) (hsub : g.subimage = true) :
    SimQ ix (g.copy 0 src) (g.copy 0 src) Eq := by
  unfold Gray.copy
  by_cases hc : g.subimage = true ∧ (g.width ≠ src.width ∨ g.height ≠ src.height)
  · rw [if_pos hc]
    exact Sim.bind (Q := fun _ _ _ => False) Sim.throw (fun _ _ _ h => h.elim)
  · rw [if_neg hc]
    have hw : g.width = src.width ∧ g.height = src.height := by
      constructor
      · by_contra h; exact hc ⟨hsub, Or.inl h⟩
      · by_contra h; exact hc ⟨hsub, Or.inr h⟩
    have e : (g.reshape 0 src.width src.height : M Int Gray) = pure g := by unfold Gray.reshape; rw [if_pos hw]
    rw [e]
    refine SimQ.bind (SimQ.pure (Q := fun a b => a = b ∧ a = g) ⟨rfl, rfl⟩) ?_
    rintro a _ ⟨rfl, rfl⟩
    refine SimQ.bind (SimQ.loop fun y => sim_memcpy hg hs _ _ _) ?_
    rintro _ _ -
    exact SimQ.pure rfl

/-! ### Tables -/

theorem sim_index {b : Nat} {l : List Int} (hb : (b, l) ∈ ix.tab) (i : Nat) : SimQ ix (rd b i) (index l i) Eq := by
  intro h hv r
  unfold M.rd index
  have hc : h.cell b i = l[i]? := by unfold Heap.cell; rw [r.tables _ hb]; rfl
  rw [hc]
  cases l[i]? with
  | none => exact trivial
  | some v => exact ⟨ix, ⟨rfl, rfl⟩, r⟩

theorem sim_indexN {b : Nat} {l : List Nat} (hb : (b, l.map Int.ofNat) ∈ ix.tab) (i : Nat) :
    SimQ ix (rd b i) (index l i) (fun a b => a.toNat = b) := by
  intro h hv r
  unfold M.rd index
  have hc : h.cell b i = l[i]?.map Int.ofNat := by unfold Heap.cell; rw [r.tables _ hb, ← List.getElem?_map]; rfl
  rw [hc]
  cases l[i]? with
  | none => exact trivial
  | some v => exact ⟨ix, ⟨rfl, rfl⟩, r⟩

/-- Contents of the tables of a tracer. -/
structure Tables where
  ob : List Int
  ol : List Int
  nd : List Nat
  rl : ConnectRule

/-- The tracer with its tables as values. -/
def TracerObj.value (o : TracerObj) (T : Tables) : Tracer :=
  { maxContourSize := o.maxContourSize, rule := o.rule, ruleN := o.ruleN, binary := o.binary, labeled := o.labeled, x := o.x, y := o.y,
    label := o.label, dir := o.dir, indexBinary := o.indexBinary, indexLabel := o.indexLabel, offsetsBinary := T.ob,
    offsetsLabeled := T.ol, nextDirection := T.nd }

/-- Addresses and contents. -/
def TracerObj.tabs (o : TracerObj) (T : Tables) : List (Nat × List Int) :=
  [(o.offsetsBinary, T.ob), (o.offsetsLabeled, T.ol), (o.nextDirection, T.nd.map Int.ofNat)]

/-- A tracer in memory at the given addresses and the same tracer as a value. -/
structure TRel (ix : Ix) (A : List (Nat × List Int)) (T : Tables) (o : TracerObj) (t : Tracer) : Prop where
  val : t = o.value T
  addr : o.tabs T = A
  binary : ∀ g, o.binary = some g → g.buf ∉ ix.keys
  labeled : ∀ g, o.labeled = some g → g.buf ∉ ix.keys
  rule : o.rule = T.rl

variable {A : List (Nat × List Int)} {T : Tables} {o : TracerObj} {t : Tracer}

theorem TRel.mem (r : TRel ix A T o t) (hA : ∀ p ∈ A, p ∈ ix.tab) :
    (o.offsetsBinary, T.ob) ∈ ix.tab ∧ (o.offsetsLabeled, T.ol) ∈ ix.tab ∧ (o.nextDirection, T.nd.map Int.ofNat) ∈ ix.tab := by
  have h := r.addr
  unfold TracerObj.tabs at h
  exact ⟨hA _ (by rw [← h]; simp), hA _ (by rw [← h]; simp), hA _ (by rw [← h]; simp)⟩

theorem sim_checkBlack {b : Nat} (hb : b ∉ ix.keys) (i : Nat) : SimQ ix (Tracer.checkBlack b i) (Tracer.checkBlack b i) Eq := by
  unfold Tracer.checkBlack
  refine SimQ.bind (SimQ.rd hb i) ?_
  rintro v _ rfl
  split
  · exact SimQ.pure rfl
  · exact SimQ.bind (SimQ.wr hb _ _) (fun _ _ _ => SimQ.pure rfl)

theorem sim_ptrOff (i : Nat) (off : Int) : SimQ ix (Tracer.ptrOff i off) (Tracer.ptrOff i off) Eq := by
  unfold Tracer.ptrOff
  split
  · exact Sim.ub
  · exact SimQ.pure rfl

theorem sim_searchGo (n : Nat) {binary : Gray} (hb : binary.buf ∉ ix.keys) (hA : ∀ p ∈ A, p ∈ ix.tab) (k : Nat) :
    ∀ {o : TracerObj} {t : Tracer}, TRel ix A T o t → SimQ ix (o.searchGo n binary k) (t.searchGo n binary k)
      (fun a b => a.1 = b.1 ∧ TRel ix A T a.2 b.2) := by
  induction k with
  | zero => intro o t r; exact SimQ.pure ⟨rfl, r⟩
  | succ k ih =>
    intro o t r
    obtain ⟨m1, -, -⟩ := r.mem hA
    obtain ⟨rfl, r2, r3, r4, r5⟩ := r
    unfold TracerObj.searchGo Tracer.searchGo
    refine SimQ.bind (sim_index m1 _) ?_
    rintro off _ rfl
    refine SimQ.bind (sim_ptrOff _ _) ?_
    rintro i _ rfl
    refine SimQ.bind (sim_checkBlack hb _) ?_
    rintro c _ rfl
    split
    · exact SimQ.pure ⟨rfl, rfl, r2, r3, r4, r5⟩
    · exact ih ⟨rfl, r2, r3, r4, r5⟩

theorem sim_searchBlack (hA : ∀ p ∈ A, p ∈ ix.tab) (r : TRel ix A T o t) : SimQ ix o.searchBlack t.searchBlack
    (fun a b => a.1 = b.1 ∧ TRel ix A T a.2 b.2) := by
  unfold TracerObj.searchBlack Tracer.searchBlack
  obtain ⟨rfl, r2, r3, r4, r5⟩ := r
  refine Sim.bind (Q := fun a b ix' => (a = b ∧ o.binary = some a) ∧ ix' = ix) ?_ ?_
  · show Sim ix (deref o.binary) (deref o.binary) _
    cases hb : o.binary with
    | none => exact Sim.ub
    | some g => exact SimQ.pure ⟨rfl, rfl⟩
  · rintro g _ _ ⟨⟨rfl, hg⟩, rfl⟩
    refine Sim.ite Iff.rfl (fun _ => ?_) (fun _ => ?_)
    · exact sim_searchGo 4 (r3 g hg) hA 4 ⟨rfl, r2, r3, r4, r5⟩
    · exact sim_searchGo 8 (r3 g hg) hA 8 ⟨rfl, r2, r3, r4, r5⟩

theorem sim_moveToNext (hA : ∀ p ∈ A, p ∈ ix.tab) (r : TRel ix A T o t) : SimQ ix o.moveToNext t.moveToNext (TRel ix A T) := by
  obtain ⟨m1, m2, -⟩ := r.mem hA
  obtain ⟨rfl, r2, r3, r4, r5⟩ := r
  unfold TracerObj.moveToNext Tracer.moveToNext
  refine SimQ.bind (SimQ.deref o.binary) ?_
  rintro g _ rfl
  refine SimQ.bind (sim_index m1 _) ?_
  rintro a _ rfl
  refine SimQ.bind (sim_index m2 _) ?_
  rintro b _ rfl
  refine Sim.ite Iff.rfl (fun _ => ?_) (fun _ => ?_)
  · exact Sim.ub
  · exact SimQ.pure ⟨rfl, r2, r3, r4, r5⟩

theorem sim_add (r : TRel ix A T o t) (points : PackedSet Point2D) (x y : Int) :
    SimQ ix (o.add points x y) (t.add points x y) Eq := by
  obtain ⟨rfl, r2, r3, r4, r5⟩ := r
  unfold TracerObj.add Tracer.add
  refine Sim.bind (Q := fun a b ix' => (a = b ∧ o.labeled = some a) ∧ ix' = ix) ?_ ?_
  · show Sim ix (deref o.labeled) (deref o.labeled) _
    cases hb : o.labeled with
    | none => exact Sim.ub
    | some g => exact SimQ.pure ⟨rfl, rfl⟩
  · rintro g _ _ ⟨⟨rfl, hg⟩, rfl⟩
    refine SimQ.bind (SimQ.wr (r4 g hg) _ _) ?_
    rintro _ _ -
    refine Sim.ite Iff.rfl (fun _ => ?_) (fun _ => ?_)
    · refine SimQ.bind (SimQ.arith _) ?_
      rintro px _ rfl
      refine SimQ.bind (SimQ.arith _) ?_
      rintro py _ rfl
      exact SimQ.lift _
    · exact SimQ.pure rfl

/-- Results of a trace. -/
def TRes (ix : Ix) (A : List (Nat × List Int)) (T : Tables) (a : TracerObj × PackedSet Point2D) (b : Tracer × PackedSet Point2D) : Prop :=
  TRel ix A T a.1 b.1 ∧ a.2 = b.2

theorem sim_traceLoop (hA : ∀ p ∈ A, p ∈ ix.tab) (x y d : Nat) (fuel : Nat) : ∀ {o : TracerObj} {t : Tracer} (points : PackedSet Point2D),
    TRel ix A T o t → SimQ ix (o.traceLoop x y d fuel points) (t.traceLoop x y d fuel points) (TRes ix A T) := by
  induction fuel with
  | zero => intro o t points r; exact Sim.timeout
  | succ fuel ih =>
    intro o t points r
    unfold TracerObj.traceLoop Tracer.traceLoop
    refine SimQ.bind (sim_searchBlack hA r) ?_
    rintro ⟨c, o⟩ ⟨_, t⟩ ⟨rfl, r⟩
    have r' : TRel ix A T o t := r
    obtain ⟨rfl, r2, r3, r4, r5⟩ := r
    refine Sim.ite Iff.rfl (fun _ => ?_) (fun _ => ?_)
    · exact SimQ.pure ⟨r', rfl⟩
    · refine SimQ.bind (sim_add r' _ _ _) ?_
      rintro points _ rfl
      refine SimQ.bind (sim_moveToNext hA r') ?_
      intro o t r
      obtain ⟨-, -, m3⟩ := r.mem hA
      obtain ⟨rfl, r2, r3, r4, r5⟩ := r
      refine SimQ.bind (sim_indexN m3 _) ?_
      rintro d _ rfl
      exact ih points ⟨rfl, r2, r3, r4, r5⟩

theorem sim_trace (hA : ∀ p ∈ A, p ∈ ix.tab) (r : TRel ix A T o t) (fuel : Nat) (points : PackedSet Point2D) (label : Int) (x y : Nat)
    (external : Bool) : SimQ ix (o.trace fuel points label x y external) (t.trace fuel points label x y external) (TRes ix A T) := by
  obtain ⟨rfl, r2, r3, r4, r5⟩ := r
  unfold TracerObj.trace Tracer.trace
  refine SimQ.bind (SimQ.deref o.binary) ?_
  rintro g _ rfl
  refine SimQ.bind (SimQ.deref o.labeled) ?_
  rintro g' _ rfl
  have key : ∀ d ib il, TRel ix A T { o with label := label, dir := d, x := x, y := y, indexBinary := ib, indexLabel := il }
      { o.value T with label := label, dir := d, x := x, y := y, indexBinary := ib, indexLabel := il } :=
    fun _ _ _ => ⟨rfl, r2, r3, r4, r5⟩
  refine SimQ.bind (sim_add (key _ _ _) points (toS32 x) (toS32 y)) ?_
  rintro points _ rfl
  refine SimQ.bind (sim_searchBlack hA (key _ _ _)) ?_
  rintro ⟨c, o⟩ ⟨_, t⟩ ⟨rfl, r⟩
  have r' : TRel ix A T o t := r
  obtain ⟨rfl, r2, r3, r4, r5⟩ := r
  refine Sim.ite Iff.rfl (fun _ => ?_) (fun _ => ?_)
  · refine SimQ.bind (sim_moveToNext hA r') ?_
    intro o t r
    obtain ⟨-, -, m3⟩ := r.mem hA
    obtain ⟨rfl, r2, r3, r4, r5⟩ := r
    refine SimQ.bind (sim_indexN m3 _) ?_
    rintro d _ rfl
    exact sim_traceLoop hA _ _ _ fuel points ⟨rfl, r2, r3, r4, r5⟩
  · exact SimQ.pure ⟨r', rfl⟩

/-! ### Writing the tables -/

theorem store_run (b : Nat) : ∀ (l : List Int) (i : Nat) (L : List Int) (h : Heap Int), h.get b = some L → i + l.length ≤ L.length →
    ∃ h', TracerObj.store b i (l.map pure) h = .ok () h' ∧ h'.next = h.next ∧ (∀ c, c ≠ b → h'.get c = h.get c) ∧
      h'.get b = some (L.take i ++ l ++ L.drop (i + l.length)) := by
  intro l
  induction l with
  | nil =>
    intro i L h hL _
    refine ⟨h, rfl, rfl, fun _ _ => rfl, ?_⟩
    simp [hL]
  | cons v l ih =>
    intro i L h hL hi
    simp only [List.length_cons] at hi
    have hc : h.cell b i = some (L[i]'(by omega)) := by
      unfold Heap.cell; rw [hL]; exact List.getElem?_eq_getElem (by omega)
    obtain ⟨h', e1, e2, e3, e4⟩ := ih (i + 1) (L.set i v) (h.setCell b i v) (Heap.get_setCell_same hL) (by rw [List.length_set]; omega)
    refine ⟨h', ?_, ?_, ?_, ?_⟩
    · show (M.bind (pure v) fun v => M.bind (M.wr b i v) fun _ => TracerObj.store b (i + 1) (l.map pure)) h = _
      show (M.bind (M.wr b i v) fun _ => TracerObj.store b (i + 1) (l.map pure)) h = _
      exact (M.bind_ok (M.wr_run hc)).trans e1
    · rw [e2, Heap.next_setCell]
    · intro c hcb; rw [e3 c hcb, Heap.get_setCell_ne hcb]
    · rw [e4]
      congr 1
      apply List.ext_getElem?
      intro k
      simp only [List.length_cons, List.append_assoc]
      rw [List.drop_set_of_lt (by omega), show i + 1 + l.length = i + (l.length + 1) by omega]
      have hlen : (List.take (i + 1) (L.set i v)) = L.take i ++ [v] := by
        rw [List.take_add_one, List.take_set_of_le (Nat.le_refl i), List.getElem?_set_self (by omega)]
        rfl
      rw [hlen]
      simp

theorem store_ub (b : Nat) (rest : List (M Int Int)) : ∀ (l : List Int) (i : Nat) (L : List Int) (h : Heap Int), h.get b = some L →
    i + l.length ≤ L.length → TracerObj.store b i (l.map pure ++ M.ub :: rest) h = .ub := by
  intro l
  induction l with
  | nil => intro i L h hL _; rfl
  | cons v l ih =>
    intro i L h hL hi
    simp only [List.length_cons] at hi
    have hc : h.cell b i = some (L[i]'(by omega)) := by
      unfold Heap.cell; rw [hL]; exact List.getElem?_eq_getElem (by omega)
    show (M.bind (M.wr b i v) fun _ => TracerObj.store b (i + 1) (l.map pure ++ M.ub :: rest)) h = _
    exact (M.bind_ok (M.wr_run hc)).trans
      (ih (i + 1) (L.set i v) (h.setCell b i v) (Heap.get_setCell_same hL) (by rw [List.length_set]; omega))

theorem arith_cases (v : Int) : (S32.arith v : M Int Int) = pure v ∨ (S32.arith v : M Int Int) = M.ub := by
  unfold IntTy.arith
  rw [if_pos (show S32.signed = true from rfl)]
  split
  · exact Or.inl rfl
  · exact Or.inr rfl

/-- The table of one call of `setOffsets` and its value. -/
def OffsetsAs (n b : Nat) (m : M Int Unit) (mv : M Int (List Int)) : Prop :=
  (∃ l : List Int, l.length = n ∧ mv = pure l ∧ m = TracerObj.store b 0 (l.map pure)) ∨
  (mv = M.ub ∧ ∃ (l : List Int) (rest : List (M Int Int)), l.length ≤ n ∧ m = TracerObj.store b 0 (l.map pure ++ M.ub :: rest))

theorem offsets8 (b s : Nat) : OffsetsAs 8 b (TracerObj.setOffsets8 b s) (Tracer.setOffsets8 s) := by
  unfold TracerObj.setOffsets8 Tracer.setOffsets8
  generalize toS32 s = s
  simp only
  rcases arith_cases (1 + s) with e1 | e1
  · rcases arith_cases (-1 + s) with e2 | e2
    · rcases arith_cases (-1 - s) with e3 | e3
      · rcases arith_cases (-s) with e4 | e4
        · rcases arith_cases (1 - s) with e5 | e5
          · left
            refine ⟨[1, 1 + s, s, -1 + s, -1, -1 - s, -s, 1 - s], rfl, ?_, ?_⟩
            · rw [e1, e2, e3, e4, e5]; rfl
            · rw [e1, e2, e3, e4, e5]; rfl
          · right
            refine ⟨?_, [1, 1 + s, s, -1 + s, -1, -1 - s, -s], [], by simp, ?_⟩
            · rw [e1, e2, e3, e4, e5]; rfl
            · rw [e1, e2, e3, e4, e5]; rfl
        · right
          refine ⟨?_, [1, 1 + s, s, -1 + s, -1, -1 - s], [S32.arith (1 - s)], by simp, ?_⟩
          · rw [e1, e2, e3, e4]; rfl
          · rw [e1, e2, e3, e4]; rfl
      · right
        refine ⟨?_, [1, 1 + s, s, -1 + s, -1], [S32.arith (-s), S32.arith (1 - s)], by simp, ?_⟩
        · rw [e1, e2, e3]; rfl
        · rw [e1, e2, e3]; rfl
    · right
      refine ⟨?_, [1, 1 + s, s], [pure (-1), S32.arith (-1 - s), S32.arith (-s), S32.arith (1 - s)], by simp, ?_⟩
      · rw [e1, e2]; rfl
      · rw [e1, e2]; rfl
  · right
    refine ⟨?_, [1], [pure s, S32.arith (-1 + s), pure (-1), S32.arith (-1 - s), S32.arith (-s), S32.arith (1 - s)], by simp, ?_⟩
    · rw [e1]; rfl
    · rw [e1]; rfl

theorem offsets4 (b s : Nat) : OffsetsAs 4 b (TracerObj.setOffsets4 b s) (Tracer.setOffsets4 s) := by
  unfold TracerObj.setOffsets4 Tracer.setOffsets4
  generalize toS32 s = s
  simp only
  rcases arith_cases (-s) with e1 | e1
  · left
    refine ⟨[1, s, -1, -s], rfl, ?_, ?_⟩
    · rw [e1]; rfl
    · rw [e1]; rfl
  · right
    refine ⟨?_, [1, s, -1], [], by simp, ?_⟩
    · rw [e1]; rfl
    · rw [e1]; rfl

/-- The tables with table `b` replaced. -/
def Ix.put (ix : Ix) (b : Nat) (l : List Int) : Ix := ⟨ix.tab.map (fun p => if p.1 = b then (b, l) else p), ix.alive, ix.next⟩

theorem Ix.keys_put (ix : Ix) (b : Nat) (l : List Int) : (ix.put b l).keys = ix.keys := by
  unfold Ix.put Ix.keys
  rw [List.map_map]
  apply List.map_congr_left
  intro p _
  simp only [Function.comp]
  split
  · next e => exact e.symm
  · rfl

theorem sim_offsets {n b : Nat} {m : M Int Unit} {mv : M Int (List Int)} (hm : OffsetsAs n b m mv) {L : List Int} (hL : (b, L) ∈ ix.tab)
    (hn : L.length = n) : Sim ix m mv (fun _ l ix' => l.length = n ∧ ix' = ix.put b l) := by
  intro h hv r
  have hb := r.tables _ hL
  rcases hm with ⟨l, hl, rfl, rfl⟩ | ⟨rfl, l, rest, hl, rfl⟩
  · obtain ⟨h', e1, e2, e3, e4⟩ := store_run b l 0 L h hb (by omega)
    rw [e1]
    have e4 : h'.get b = some l := by
      rw [e4]
      simp [List.drop_eq_nil_of_le (show L.length ≤ l.length by omega)]
    refine ⟨ix.put b l, ⟨hl, rfl⟩, ?_, r.nextv, ?_, ?_, ?_⟩
    · rw [e2]; exact r.next
    · intro c hc
      rw [Ix.keys_put] at hc
      have hcb : c ≠ b := fun e => hc (e ▸ List.mem_map.2 ⟨_, hL, rfl⟩)
      rw [e3 c hcb, r.same c hc]
    · intro p hp
      obtain ⟨q, hq, rfl⟩ := List.mem_map.1 hp
      split
      · exact e4
      · next hne => rw [e3 _ hne, r.tables q hq]
    · intro c
      show _ ↔ ix.alive c
      rw [← r.alive c]
      by_cases hcb : c = b
      · subst hcb; rw [e4, hb]; simp
      · rw [e3 c hcb]
  · rw [store_ub b rest l 0 L h hb (by omega)]
    exact trivial

theorem put_other (b : Nat) (l : List Int) (P : List (Nat × List Int)) (h : b ∉ P.map Prod.fst) :
    P.map (fun p => if p.1 = b then (b, l) else p) = P := by
  conv_rhs => rw [← List.map_id P]
  apply List.map_congr_left
  intro p hp
  rw [if_neg]
  · rfl
  · rintro rfl
    exact h (List.mem_map.2 ⟨p, hp, rfl⟩)

theorem nodup3 {P S : List (Nat × List Int)} {a b c : Nat} {x y z : List Int}
    (h : ((P ++ [(a, x), (b, y), (c, z)] ++ S).map Prod.fst).Nodup) :
    (a ∉ P.map Prod.fst ∧ b ∉ P.map Prod.fst) ∧ (a ≠ b ∧ a ≠ c ∧ b ≠ c) ∧ a ∉ S.map Prod.fst ∧ b ∉ S.map Prod.fst := by
  rw [List.map_append, List.map_append] at h
  obtain ⟨h1, h2, h3⟩ := List.nodup_append.1 h
  obtain ⟨h4, h5, h6⟩ := List.nodup_append.1 h1
  simp only [List.map_cons, List.map_nil, List.nodup_cons, List.mem_cons, List.not_mem_nil, or_false, not_or] at h5
  refine ⟨⟨fun e => h6 _ e a (by simp) rfl, fun e => h6 _ e b (by simp) rfl⟩, ⟨h5.1.1, h5.1.2, h5.2.1⟩, fun e => h3 a (by simp) a e rfl,
    fun e => h3 b (by simp) b e rfl⟩

theorem put_first {P S : List (Nat × List Int)} {a b c : Nat} {x y z : List Int}
    (h : ((P ++ [(a, x), (b, y), (c, z)] ++ S).map Prod.fst).Nodup) (l : List Int) :
    (P ++ [(a, x), (b, y), (c, z)] ++ S).map (fun p => if p.1 = a then (a, l) else p) = P ++ [(a, l), (b, y), (c, z)] ++ S := by
  obtain ⟨⟨h1, -⟩, ⟨h2, h3, -⟩, h4, -⟩ := nodup3 h
  rw [List.map_append, List.map_append, put_other _ _ P h1, put_other _ _ S h4]
  simp [h2.symm, h3.symm]

theorem put_second {P S : List (Nat × List Int)} {a b c : Nat} {x y z : List Int}
    (h : ((P ++ [(a, x), (b, y), (c, z)] ++ S).map Prod.fst).Nodup) (l : List Int) :
    (P ++ [(a, x), (b, y), (c, z)] ++ S).map (fun p => if p.1 = b then (b, l) else p) = P ++ [(a, x), (b, l), (c, z)] ++ S := by
  obtain ⟨⟨-, h1⟩, ⟨h2, -, h3⟩, -, h4⟩ := nodup3 h
  rw [List.map_append, List.map_append, put_other _ _ P h1, put_other _ _ S h4]
  simp [h2, h3.symm]

theorem TRel.retab {ix' : Ix} (r : TRel ix A T o t) (hk : ix'.keys = ix.keys) : TRel ix' A T o t :=
  ⟨r.val, r.addr, fun g h => hk ▸ r.binary g h, fun g h => hk ▸ r.labeled g h, r.rule⟩

/-- Number of directions. -/
def ConnectRule.size : ConnectRule → Nat
  | .four => 4
  | .eight => 8

theorem sim_setInputs {P S : List (Nat × List Int)} (ht : ix.tab = P ++ A ++ S) (hnd : ix.keys.Nodup) (r : TRel ix A T o t)
    (hl : T.ob.length = T.rl.size ∧ T.ol.length = T.rl.size) {g g' : Gray} (hg : g.buf ∉ ix.keys) (hg' : g'.buf ∉ ix.keys) :
    Sim ix (o.setInputs g g') (t.setInputs g g') (fun a b ix' => ∃ T' : Tables,
      ix' = ⟨P ++ a.tabs T' ++ S, ix.alive, ix.next⟩ ∧ ix'.keys = ix.keys ∧ TRel ix' (a.tabs T') T' a b ∧ T'.rl = T.rl ∧
      T'.ob.length = T.rl.size ∧ T'.ol.length = T.rl.size) := by
  have hA : ∀ p ∈ A, p ∈ ix.tab := by
    intro p hp; rw [ht]; exact List.mem_append_left _ (List.mem_append_right _ hp)
  obtain ⟨m1, m2, m3⟩ := r.mem hA
  obtain ⟨rfl, r2, r3, r4, r5⟩ := r
  subst r2
  unfold TracerObj.setInputs Tracer.setInputs
  have o1 : ∀ b s, OffsetsAs T.rl.size b (match o.rule with | .eight => TracerObj.setOffsets8 b s | .four => TracerObj.setOffsets4 b s)
      (match (o.value T).rule with | .eight => Tracer.setOffsets8 s | .four => Tracer.setOffsets4 s) := by
    intro b s
    show OffsetsAs _ b _ (match o.rule with | .eight => Tracer.setOffsets8 s | .four => Tracer.setOffsets4 s)
    rw [r5]
    cases T.rl
    · exact offsets4 b s
    · exact offsets8 b s
  have ht' := ht
  unfold TracerObj.tabs at ht
  have hnd' := hnd
  unfold Ix.keys at hnd
  rw [ht] at hnd
  refine Sim.bind (sim_offsets (o1 _ _) m1 hl.1) ?_
  rintro ⟨⟩ lb ix1 ⟨hlb, rfl⟩
  have hk1 : (ix.put o.offsetsBinary lb).keys = ix.keys := Ix.keys_put _ _ _
  have e1 : (ix.put o.offsetsBinary lb).tab = P ++ [(o.offsetsBinary, lb), (o.offsetsLabeled, T.ol), (o.nextDirection, T.nd.map Int.ofNat)] ++ S := by
    show ix.tab.map _ = _
    rw [ht]; exact put_first hnd lb
  refine Sim.bind (sim_offsets (o1 _ _) (L := T.ol) (by rw [e1]; simp) hl.2) ?_
  rintro ⟨⟩ ll ix2 ⟨hll, rfl⟩
  have hk2 : ((ix.put o.offsetsBinary lb).put o.offsetsLabeled ll).keys = ix.keys := by rw [Ix.keys_put, hk1]
  have e2 : ((ix.put o.offsetsBinary lb).put o.offsetsLabeled ll).tab =
      P ++ [(o.offsetsBinary, lb), (o.offsetsLabeled, ll), (o.nextDirection, T.nd.map Int.ofNat)] ++ S := by
    show (ix.put o.offsetsBinary lb).tab.map _ = _
    rw [e1]; exact put_second (by rw [← e1]; show (Ix.keys (ix.put o.offsetsBinary lb)).Nodup; rw [hk1]; exact hnd') ll
  refine Sim.pure ⟨⟨lb, ll, T.nd, T.rl⟩, ?_, hk2, ⟨rfl, rfl, ?_, ?_, r5⟩, rfl, hlb, hll⟩
  · show (⟨_, _, _⟩ : Ix) = _
    congr 1
  · rintro _ ⟨⟩; rw [hk2]; exact hg
  · rintro _ ⟨⟩; rw [hk2]; exact hg'

/-! ### The contour finder -/

/-- The contour finder with its tables as values. -/
def LabellerObj.value (o : LabellerObj) (T4 T8 : Tables) : Labeller :=
  { minContourSize := o.minContourSize, maxContourSize := o.maxContourSize, saveInternalContours := o.saveInternalContours,
    tracer4 := o.tracer4.value T4, tracer8 := o.tracer8.value T8, rule := o.rule, border := o.border, packedPoints := o.packedPoints,
    contours := o.contours }

/-- The contents of the tables of a contour finder. -/
structure Tables2 where
  t4 : Tables
  t8 : Tables
  A4 : List (Nat × List Int)
  A8 : List (Nat × List Int)
  bor : Gray

/-- The tables are all tables, have the right lengths and belong to the right rules. -/
structure Tables2.In (T : Tables2) (ix : Ix) : Prop where
  tab : ix.tab = T.A4 ++ T.A8
  nodup : ix.keys.Nodup
  rl4 : T.t4.rl = .four
  rl8 : T.t8.rl = .eight
  len4 : T.t4.ob.length = 4 ∧ T.t4.ol.length = 4
  len8 : T.t8.ob.length = 8 ∧ T.t8.ol.length = 8

/-- A contour finder in memory and the same finder as a value. -/
structure FRel (ix : Ix) (TT : Tables2) (o : LabellerObj) (l : Labeller) : Prop where
  val : l = o.value TT.t4 TT.t8
  t4 : TRel ix TT.A4 TT.t4 o.tracer4 (o.tracer4.value TT.t4)
  t8 : TRel ix TT.A8 TT.t8 o.tracer8 (o.tracer8.value TT.t8)
  border : o.border = TT.bor ∧ o.border.buf ∉ ix.keys

variable {TT : Tables2} {ob : LabellerObj} {l : Labeller}

theorem sim_limitTail (r : FRel ix TT ob l) : SimQ ix ob.limitTail l.limitTail (FRel ix TT) := by
  have r' := r
  obtain ⟨rfl, r4, r8, rb⟩ := r
  unfold LabellerObj.limitTail Labeller.limitTail
  refine Sim.ite Iff.rfl (fun _ => ?_) (fun _ => ?_)
  · refine SimQ.bind (SimQ.lift _) ?_
    rintro p _ rfl
    refine SimQ.bind (SimQ.lift _) ?_
    rintro p _ rfl
    exact SimQ.pure ⟨rfl, r4, r8, rb⟩
  · exact SimQ.pure r'

/-- Tracing with the tracer of the rule, its limit set to `n`, and storing the tracer, the points and the contours. -/
theorem sim_tracing (hT : TT.In ix) (r : FRel ix TT ob l) (n fuel : Nat) (points : PackedSet Point2D) (label : Int) (x y : Nat)
    (external : Bool) :
    SimQ ix ({ ob.tracer with maxContourSize := n }.trace fuel points label x y external)
      ({ l.tracer with maxContourSize := n }.trace fuel points label x y external)
      (fun a b => ∀ cs : List ContourPacked, FRel ix TT (({ ob with contours := cs, packedPoints := a.2 } : LabellerObj).setTracer a.1)
        (({ l with contours := cs, packedPoints := b.2 } : Labeller).setTracer b.1)) := by
  have hA4 : ∀ p ∈ TT.A4, p ∈ ix.tab := fun p hp => by rw [hT.tab]; exact List.mem_append_left _ hp
  have hA8 : ∀ p ∈ TT.A8, p ∈ ix.tab := fun p hp => by rw [hT.tab]; exact List.mem_append_right _ hp
  obtain ⟨rfl, r4, r8, rb⟩ := r
  obtain ⟨-, p2, p3, p4, p5⟩ := r4
  obtain ⟨-, q2, q3, q4, q5⟩ := r8
  have q : ∀ {r}, (ob.value TT.t4 TT.t8).rule = r ↔ ob.rule = r := Iff.rfl
  unfold LabellerObj.tracer Labeller.tracer LabellerObj.setTracer Labeller.setTracer
  cases ob with
  | mk mi ma sv t4 t8 rule border pts cs0 =>
  cases rule with
  | four =>
    refine Sim.conseq (sim_trace (o := { t4 with maxContourSize := n }) (t := { t4.value TT.t4 with maxContourSize := n }) hA4
      ⟨rfl, p2, p3, p4, p5⟩ fuel points label x y external) ?_
    rintro ⟨o', p⟩ ⟨t', _⟩ ix' ⟨⟨s, e⟩, rfl⟩
    dsimp only at e
    subst e
    obtain ⟨rfl, s2, s3, s4, s5⟩ := s
    exact ⟨fun cs => ⟨rfl, ⟨rfl, s2, s3, s4, s5⟩, ⟨rfl, q2, q3, q4, q5⟩, rb⟩, rfl⟩
  | eight =>
    refine Sim.conseq (sim_trace (o := { t8 with maxContourSize := n }) (t := { t8.value TT.t8 with maxContourSize := n }) hA8
      ⟨rfl, q2, q3, q4, q5⟩ fuel points label x y external) ?_
    rintro ⟨o', p⟩ ⟨t', _⟩ ix' ⟨⟨s, e⟩, rfl⟩
    dsimp only at e
    subst e
    obtain ⟨rfl, s2, s3, s4, s5⟩ := s
    exact ⟨fun cs => ⟨rfl, ⟨rfl, p2, p3, p4, p5⟩, ⟨rfl, s2, s3, s4, s5⟩, rb⟩, rfl⟩

theorem sim_handleStep1 (hT : TT.In ix) (r : FRel ix TT ob l) (fuel x y : Nat) :
    SimQ ix (ob.handleStep1 fuel x y) (l.handleStep1 fuel x y) (FRel ix TT) := by
  have r' := r
  obtain ⟨rfl, r4, r8, rb⟩ := r
  unfold LabellerObj.handleStep1 Labeller.handleStep1
  refine SimQ.bind (SimQ.lift _) ?_
  rintro p _ rfl
  refine SimQ.bind (sim_tracing hT r' _ fuel p _ x y true) ?_
  rintro ⟨a, p⟩ ⟨b, p'⟩ s
  exact sim_limitTail (s _)

theorem sim_handleStep2 (hT : TT.In ix) (r : FRel ix TT ob l) (fuel : Nat) {labeled : Gray} (hl : labeled.buf ∉ ix.keys)
    (x y indexOut label : Nat) :
    SimQ ix (ob.handleStep2 fuel labeled x y indexOut label) (l.handleStep2 fuel labeled x y indexOut label) (FRel ix TT) := by
  have r' := r
  obtain ⟨rfl, r4, r8, rb⟩ := r
  unfold LabellerObj.handleStep2 Labeller.handleStep2
  refine SimQ.bind (Q := Eq) (Sim.ite Iff.rfl (fun _ => ?_) (fun _ => ?_)) ?_
  · refine SimQ.bind (SimQ.rd hl _) ?_
    rintro v _ rfl
    exact SimQ.pure rfl
  · exact SimQ.pure rfl
  rintro lab _ rfl
  have hc : (ob.value TT.t4 TT.t8).contours = ob.contours := rfl
  rw [hc]
  cases ob.contours[sub32 lab 1]? with
  | none => exact Sim.throw
  | some c =>
    refine SimQ.bind (SimQ.lift _) ?_
    rintro p _ rfl
    refine SimQ.bind (sim_tracing hT r' _ fuel p _ x y false) ?_
    rintro ⟨a, p⟩ ⟨b, p'⟩ s
    exact sim_limitTail (s _)

theorem sim_handleStep3 {labeled : Gray} (hl : labeled.buf ∉ ix.keys) (i : Nat) :
    SimQ ix (Labeller.handleStep3 labeled i) (Labeller.handleStep3 labeled i) Eq := by
  unfold Labeller.handleStep3
  refine SimQ.bind (SimQ.rd hl _) ?_
  rintro v _ rfl
  refine Sim.ite Iff.rfl (fun _ => ?_) (fun _ => ?_)
  · refine SimQ.bind (SimQ.rd hl _) ?_
    rintro u _ rfl
    exact SimQ.wr hl _ _
  · exact SimQ.pure rfl

theorem sim_scanPixel (hT : TT.In ix) (r : FRel ix TT ob l) (fuel : Nat) {labeled : Gray} (hl : labeled.buf ∉ ix.keys)
    (x y indexIn indexOut : Nat) :
    SimQ ix (ob.scanPixel fuel labeled x y indexIn indexOut) (l.scanPixel fuel labeled x y indexIn indexOut) (FRel ix TT) := by
  have r' := r
  obtain ⟨rfl, r4, r8, rb⟩ := r
  unfold LabellerObj.scanPixel Labeller.scanPixel
  refine SimQ.bind (SimQ.rd rb.2 _) ?_
  rintro bit _ rfl
  refine Sim.ite Iff.rfl (fun _ => ?_) (fun _ => ?_)
  · exact SimQ.pure r'
  refine SimQ.bind (SimQ.rd hl _) ?_
  rintro lab _ rfl
  refine SimQ.bind (Q := Eq) (Sim.ite Iff.rfl (fun _ => SimQ.rd rb.2 _) (fun _ => SimQ.pure rfl)) ?_
  rintro above _ rfl
  refine SimQ.bind (Q := FRel ix TT) (Sim.ite Iff.rfl (fun _ => sim_handleStep1 hT r' fuel x y) (fun _ => SimQ.pure r')) ?_
  intro ob1 l1 r1
  have r1' := r1
  obtain ⟨rfl, r41, r81, rb1⟩ := r1
  refine SimQ.bind (SimQ.rd rb1.2 _) ?_
  rintro below _ rfl
  refine SimQ.bind (Q := FRel ix TT) (Sim.ite Iff.rfl (fun _ => sim_handleStep2 hT r1' fuel hl _ _ _ _) (fun _ => SimQ.pure r1')) ?_
  intro ob2 l2 r2
  refine Sim.ite Iff.rfl (fun _ => ?_) (fun _ => ?_)
  · refine SimQ.bind (sim_handleStep3 hl _) ?_
    rintro _ _ rfl
    exact SimQ.pure r2
  · exact SimQ.pure r2

/-- The arrays alive before and after an image gave its array `old` for `new`, or kept it. -/
def Swap (P P' : Nat → Prop) (old new : Nat) : Prop :=
  (new = old ∧ P' = P) ∨ (P old ∧ ¬P new ∧ P' = fun c => (P c ∧ c ≠ old) ∨ c = new)

/-- After a call of `process`. -/
structure MemDone (ix : Ix) (ob : LabellerObj) (labeled : Gray) (a : LabellerObj × Gray) (b : Labeller × Gray) (ix' : Ix) : Prop where
  rel : ∃ TT', TT'.In ix' ∧ FRel ix' TT' a.1 b.1
  labels : a.2 = b.2
  off : a.2.buf ∉ ix'.keys
  keys : ix'.keys = ix.keys
  alive : ∃ P, Swap ix.alive P labeled.buf a.2.buf ∧ Swap P ix'.alive ob.border.buf a.1.border.buf

theorem sim_process (hT : TT.In ix) (r : FRel ix TT ob l) (fuel : Nat) {binary labeled : Gray} (hb : binary.buf ∉ ix.keys)
    (hl : labeled.buf ∉ ix.keys) :
    Sim ix (ob.process fuel binary labeled) (l.process fuel binary labeled) (MemDone ix ob labeled) := by
  unfold LabellerObj.process Labeller.process
  refine Sim.bind (sim_reshape hl _ _) ?_
  rintro lab _ ix1 ⟨rfl, hlab, -, -, -, hix1⟩
  have hk1 : ix1.keys = ix.keys ∧ ix1.tab = ix.tab := by
    rcases hix1 with ⟨-, rfl⟩ | ⟨-, -, rfl⟩ <;> exact ⟨rfl, rfl⟩
  have hsw1 : Swap ix.alive ix1.alive labeled.buf lab.buf := by
    rcases hix1 with ⟨e, rfl⟩ | ⟨e1, e2, rfl⟩
    · exact Or.inl ⟨e, rfl⟩
    · exact Or.inr ⟨e1, e2, rfl⟩
  obtain ⟨rfl, r4, r8, rb⟩ := r
  have hbv : (ob.value TT.t4 TT.t8).border = ob.border := rfl
  refine Sim.bind (Q := fun (a b : Gray) ix2 => a = b ∧ a.buf ∉ ix.keys ∧ ix2.keys = ix.keys ∧ ix2.tab = ix.tab ∧ Swap ix1.alive ix2.alive ob.border.buf a.buf)
    (Sim.ite Iff.rfl (fun _ => ?_) (fun _ => ?_)) ?_
  · refine Sim.bind (sim_reshape (hk1.1 ▸ rb.2) _ _) ?_
    rintro bor _ ix2 ⟨rfl, hbor, -, -, -, hix2⟩
    have hk2 : ix2.keys = ix1.keys ∧ ix2.tab = ix1.tab := by
      rcases hix2 with ⟨-, rfl⟩ | ⟨-, -, rfl⟩ <;> exact ⟨rfl, rfl⟩
    refine SimQ.bind (sim_fillBorder (hk2.1 ▸ hbor) _ _) ?_
    rintro _ _ rfl
    refine Sim.pure ⟨rfl, hk1.1 ▸ hbor, hk2.1.trans hk1.1, hk2.2.trans hk1.2, ?_⟩
    rcases hix2 with ⟨e, rfl⟩ | ⟨e1, e2, rfl⟩
    · exact Or.inl ⟨e, rfl⟩
    · exact Or.inr ⟨e1, e2, rfl⟩
  · exact Sim.pure ⟨rfl, rb.2, hk1.1, hk1.2, Or.inl ⟨rfl, rfl⟩⟩
  rintro bor _ ix2 ⟨rfl, hbor, hk2, ht2, hsw2⟩
  have hbor2 : bor.buf ∉ ix2.keys := hk2.symm ▸ hbor
  have hlab2 : lab.buf ∉ ix2.keys := hk2.symm ▸ hlab
  generalize sub32 bor.width 1 = bw
  generalize sub32 bor.height 1 = bh
  have hsm := sim_makeSubimage (ix := ix2) (g := bor) 1 1 bw bh
  refine SimQ.bind hsm ?_
  rintro inner _ ⟨rfl, hin, hsub⟩
  refine SimQ.bind (sim_copy (by rw [hin]; exact hbor2) (hk2.symm ▸ hb) hsub) ?_
  rintro _ _ rfl
  refine SimQ.bind (sim_fill hlab2 _) ?_
  rintro _ _ rfl
  refine SimQ.bind (SimQ.lift _) ?_
  rintro p _ rfl
  have hnd2 : ix2.keys.Nodup := hk2.symm ▸ hT.nodup
  have r4' := r4.retab hk2
  have r8' := r8.retab hk2
  refine Sim.bind (Q := fun a b ix3 => ∃ TT', TT'.In ix3 ∧ ix3.keys = ix.keys ∧ ix3.alive = ix2.alive ∧
    FRel ix3 TT' (({ ob with border := bor, packedPoints := p, contours := [] } : LabellerObj).setTracer a)
      (({ ob.value TT.t4 TT.t8 with border := bor, packedPoints := p, contours := [] } : Labeller).setTracer b) ∧ TT'.bor = bor) ?_ ?_
  · unfold LabellerObj.tracer Labeller.tracer LabellerObj.setTracer Labeller.setTracer
    cases ob with
    | mk mi ma sv t4 t8 rule border pts cs0 =>
    cases rule with
    | four =>
      refine Sim.conseq (sim_setInputs (P := []) (S := TT.A8) (by rw [ht2, hT.tab]; rfl) hnd2 r4'
        (by rw [hT.rl4]; exact hT.len4) hbor2 hlab2) ?_
      rintro a b ix3 ⟨T', rfl, hk3, s, e1, e2, e3⟩
      rw [hT.rl4] at e2 e3
      have s' := s
      obtain ⟨rfl, -, -, -, -⟩ := s
      exact ⟨⟨T', TT.t8, a.tabs T', TT.A8, bor⟩, ⟨rfl, hk3.symm ▸ hnd2, e1.trans hT.rl4, hT.rl8, ⟨e2, e3⟩, hT.len8⟩, hk3.trans hk2, rfl, ⟨rfl, s', r8'.retab hk3,
        ⟨rfl, hk3.symm ▸ hbor2⟩⟩, rfl⟩
    | eight =>
      refine Sim.conseq (sim_setInputs (P := TT.A4) (S := []) (by rw [ht2, hT.tab, List.append_nil]) hnd2 r8'
        (by rw [hT.rl8]; exact hT.len8) hbor2 hlab2) ?_
      rintro a b ix3 ⟨T', rfl, hk3, s, e1, e2, e3⟩
      rw [hT.rl8] at e2 e3
      have s' := s
      obtain ⟨rfl, -, -, -, -⟩ := s
      exact ⟨⟨TT.t4, T', TT.A4, a.tabs T', bor⟩, ⟨List.append_nil _, hk3.symm ▸ hnd2, hT.rl4, e1.trans hT.rl8, hT.len4, ⟨e2, e3⟩⟩, hk3.trans hk2, rfl, ⟨rfl,
        r4'.retab hk3, s', ⟨rfl, hk3.symm ▸ hbor2⟩⟩, rfl⟩
  rintro a b ix3 ⟨TT', hT', hk3, hal3, hF, hbo⟩
  have hlab3 : lab.buf ∉ ix3.keys := hk3.symm ▸ hlab
  have hrow : ∀ k a b, FRel ix3 TT' a b → SimQ ix3
      (loopS (bw - 1) a (fun j l => LabellerObj.scanPixel fuel lab (j + 1) (k + 1)
        (wrap32 (wrap32 (bor.offset + (k + 1) * bor.stride + 1) + j)) (wrap32 (wrap32 (lab.offset + (k + 1 - 1) * lab.stride) + j)) l))
      (loopS (bw - 1) b (fun j l => Labeller.scanPixel fuel lab (j + 1) (k + 1)
        (wrap32 (wrap32 (bor.offset + (k + 1) * bor.stride + 1) + j)) (wrap32 (wrap32 (lab.offset + (k + 1 - 1) * lab.stride) + j)) l))
      (FRel ix3 TT') :=
    fun k a b r => SimQ.loopS r fun j a b r => sim_scanPixel hT' r fuel hlab3 _ _ _ _
  refine SimQ.bind (SimQ.loopS hF hrow) ?_
  intro a b hF
  refine Sim.pure ⟨⟨TT', hT', hF⟩, rfl, hlab3, hk3, ix1.alive, hsw1, ?_⟩
  show Swap _ _ _ a.border.buf
  rw [hal3, hF.border.1, hbo]; exact hsw2

end Boof
