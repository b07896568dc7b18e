import Verif.Spec.NativeFilter
import Verif.Proofs.Native
/-
The life of a native filter, from the contract of one call.
-/
namespace Boof
variable {V σ : Type}

theorem cell_of_get {h : Heap V} {b i : Nat} {l : List V} (hl : h.get b = some l) : h.cell b i = l[i]? := by
  unfold Heap.cell; rw [hl]; rfl

/-- From the effect of a call in general to what Java sees of it. -/
theorem JavaEffect.writes {java : Nat → Prop} {s s' : Jvm V} {own : Nat → Prop} {j : JImage} {F : Nat → Nat → V}
    (e : JavaEffect s s' own j F) (ho : ∀ b, own b → ¬java b) (hj : ∀ b, java b → (s.heap.get b).isSome)
    (hok : j.Ok s.heap) : JavaWrites java s s' j F := by
  refine ⟨e.pins, e.shows, fun b hb => ?_⟩
  obtain ⟨l, hl⟩ := isSome_get (hj b hb)
  have hlt := Heap.lt_next_of_get hl
  have hno : ¬own b := fun c => ho b c hb
  obtain ⟨l', hl'⟩ := isSome_get (show (s'.heap.get b).isSome by rw [e.alive b hlt hno]; exact hj b hb)
  have fr : ∀ i, (∀ x y : Nat, (x : Int) < j.width → (y : Int) < j.height → ¬(j.data = some b ∧ i = j.addr x y)) →
      l'[i]? = l[i]? := fun i hi => by
    rw [← cell_of_get hl', ← cell_of_get hl]
    exact e.frame b i hlt hno hi
  refine ⟨l, l', hl, hl', ?_, fr⟩
  have key : ∀ i, i < l'.length ↔ i < l.length := by
    intro i
    by_cases c : ∀ x y : Nat, (x : Int) < j.width → (y : Int) < j.height → ¬(j.data = some b ∧ i = j.addr x y)
    · have := fr i c
      by_cases d : i < l.length
      · rw [List.getElem?_eq_getElem d] at this
        exact ⟨fun _ => d, fun _ => (List.getElem?_eq_some_iff.mp this).1⟩
      · rw [List.getElem?_eq_none (l := l) (by omega)] at this
        exact ⟨fun h => by have := List.getElem?_eq_none_iff.mp this; omega, fun h => absurd h d⟩
    · push Not at c
      obtain ⟨x, y, hx, hy, hd, rfl⟩ := c
      have h2 : j.addr x y < l'.length := by
        obtain ⟨a, ha, hc⟩ := e.shows x y hx hy
        rw [hd] at ha; cases ha
        rw [cell_of_get hl'] at hc
        exact (List.getElem?_eq_some_iff.mp hc).1
      have h1 : j.addr x y < l.length := by
        obtain ⟨a, m, ha, hm, -, hrow⟩ := hok.array
        rw [hd] at ha; cases ha
        rw [hl] at hm; cases hm
        have := hrow y hy
        have s1 := hok.stride.1
        have w1 := hok.width.1
        have st1 := hok.start.1
        unfold JImage.addr
        have e1 : (j.startIndex.toNat : Int) = j.startIndex := Int.toNat_of_nonneg st1
        have e2 : (j.stride.toNat : Int) = j.stride := Int.toNat_of_nonneg (by omega)
        have : ((j.startIndex.toNat + y * j.stride.toNat + x : Nat) : Int) < l.length := by
          push_cast
          rw [e1, e2]; omega
        exact_mod_cast this
      exact ⟨fun _ => h1, fun _ => h2⟩
  rcases Nat.lt_trichotomy l'.length l.length with c | c | c
  · exact absurd ((key _).mpr c) (by omega)
  · exact c
  · exact absurd ((key _).mp c) (by omega)

/-- Whether an image is usable depends on the length of its array only. -/
theorem JImage.Ok.mono {h h' : Heap V} {j : JImage} (hok : j.Ok h)
    (hl : ∀ a l, j.data = some a → h.get a = some l → ∃ l', h'.get a = some l' ∧ l'.length = l.length) : j.Ok h' := by
  obtain ⟨a, l, ha, hg, h1, h2⟩ := hok.array
  obtain ⟨l', hg', e⟩ := hl a l ha hg
  exact ⟨⟨a, l', ha, hg', by omega, fun y hy => by rw [e]; exact h2 y hy⟩, hok.width, hok.height, hok.start, hok.stride⟩

theorem FilterCall.Ok.mono {java : Nat → Prop} {h h' : Heap V} {c : FilterCall} (hok : c.Ok java h)
    (hl : ∀ a l, java a → h.get a = some l → ∃ l', h'.get a = some l' ∧ l'.length = l.length) : c.Ok java h' :=
  ⟨hok.input.mono (fun a l ha hg => hl a l (hok.inJava a ha) hg), hok.output.mono (fun a l ha hg => hl a l (hok.outJava a ha) hg),
    hok.apart, hok.width, hok.height, hok.inJava, hok.outJava⟩

/-- Every pixel of a usable image is in its array. -/
theorem JImage.Ok.pixel {h : Heap V} {j : JImage} (hok : j.Ok h) {x y : Nat} (hx : (x : Int) < j.width) (hy : (y : Int) < j.height) :
    ∃ a v, j.data = some a ∧ h.cell a (j.addr x y) = some v := by
  obtain ⟨a, l, ha, hl, -, hrow⟩ := hok.array
  have := hrow y hy
  have s1 := hok.stride.1
  have st1 := hok.start.1
  have e1 : (j.startIndex.toNat : Int) = j.startIndex := Int.toNat_of_nonneg st1
  have e2 : (j.stride.toNat : Int) = j.stride := Int.toNat_of_nonneg (by have := hok.width.1; omega)
  have : ((j.startIndex.toNat + y * j.stride.toNat + x : Nat) : Int) < l.length := by
    push_cast
    rw [e1, e2]; omega
  have h1 : j.addr x y < l.length := by unfold JImage.addr; exact_mod_cast this
  exact ⟨a, l[j.addr x y], ha, by rw [cell_of_get hl, List.getElem?_eq_getElem h1]⟩

/-- A usable image shows a picture, whose pixels have every property all elements of its array have. -/
theorem JImage.Ok.picture {h : Heap V} [Inhabited V] {j : JImage} (hok : j.Ok h) :
    ∃ f : Nat → Nat → V, j.Shows h f := by
  refine ⟨fun x y => ((j.data.bind (fun a => h.cell a (j.addr x y))).getD default), fun x y hx hy => ?_⟩
  obtain ⟨a, v, ha, hv⟩ := hok.pixel hx hy
  exact ⟨a, ha, by rw [ha]; simp [hv]⟩

/-- What is known of the arrays of Java: they are alive and all their elements satisfy `R`. -/
def JavaAll (java : Nat → Prop) (R : V → Prop) (h : Heap V) : Prop := ∀ b, java b → ∃ l, h.get b = some l ∧ ∀ v ∈ l, R v

theorem JavaAll.alive {java : Nat → Prop} {R : V → Prop} {h : Heap V} (hj : JavaAll java R h) :
    ∀ b, java b → (h.get b).isSome := fun b hb => by
  obtain ⟨l, hl, -⟩ := hj b hb
  rw [hl]; rfl

theorem JavaAll.same {java : Nat → Prop} {R : V → Prop} {h h' : Heap V} (hj : JavaAll java R h)
    (hs : ∀ b, java b → h'.get b = h.get b) : JavaAll java R h' := fun b hb => by
  rw [hs b hb]; exact hj b hb

theorem JavaAll.shows {java : Nat → Prop} {R : V → Prop} {h : Heap V} (hj : JavaAll java R h) {j : JImage} {f : Nat → Nat → V}
    (hja : ∀ a, j.data = some a → java a) (hf : j.Shows h f) {x y : Nat} (hx : (x : Int) < j.width) (hy : (y : Int) < j.height) :
    R (f x y) := by
  obtain ⟨a, ha, hc⟩ := hf x y hx hy
  obtain ⟨l, hl, hR⟩ := hj a (hja a ha)
  rw [cell_of_get hl] at hc
  exact hR _ (List.mem_of_getElem? hc)

theorem JavaAll.writes {java : Nat → Prop} {R : V → Prop} {s s' : Jvm V} {j : JImage} {F : Nat → Nat → V}
    (hj : JavaAll java R s.heap) (hw : JavaWrites java s s' j F)
    (hF : ∀ x y : Nat, (x : Int) < j.width → (y : Int) < j.height → R (F x y)) : JavaAll java R s'.heap := fun b hb => by
  obtain ⟨l, l', hl, hl', hlen, hfr⟩ := hw.arrays b hb
  obtain ⟨m, hm, hR⟩ := hj b hb
  rw [hl] at hm; cases hm
  refine ⟨l', hl', fun v hv => ?_⟩
  obtain ⟨i, hi, rfl⟩ := List.mem_iff_getElem.mp hv
  by_cases c : ∀ x y : Nat, (x : Int) < j.width → (y : Int) < j.height → ¬(j.data = some b ∧ i = j.addr x y)
  · have := hfr i c
    rw [List.getElem?_eq_getElem hi, List.getElem?_eq_getElem (by omega)] at this
    rw [Option.some.inj this]
    exact hR _ (List.getElem_mem _)
  · push Not at c
    obtain ⟨x, y, hx, hy, hd, rfl⟩ := c
    obtain ⟨a, ha, hc⟩ := hw.shows x y hx hy
    rw [hd] at ha; cases ha
    rw [cell_of_get hl', List.getElem?_eq_getElem hi] at hc
    rw [Option.some.inj hc]
    exact hF x y hx hy

/-- The contract of one call: from every state in which the invariant of the filter holds. -/
def StepOk (java : Nat → Prop) (R : V → Prop) (Inv : Heap V → σ → Prop) (F : NativeFilter V σ) (z : V)
    (P : FilterCall → (Nat → Nat → V) → (Nat → Nat → V) → Prop) (c : FilterCall) : Prop :=
  ∀ (s : Jvm V) (st : σ) (f : Nat → Nat → V), Inv s.heap st → (∀ b, java b → (s.heap.get b).isSome) → c.Ok java s.heap →
    JArgs s.heap c.input c.output f → (∀ x y : Nat, (x : Int) < c.input.width → (y : Int) < c.input.height → R (f x y)) →
    ∃ st' s' own G, nativeThreshold z (F.process st) c.input c.output c.copyIn c.copyOut s = .ok (some st') s' ∧ P c f G ∧
      (∀ x y : Nat, (x : Int) < c.output.width → (y : Int) < c.output.height → R (G x y)) ∧ (∀ b, own b → ¬java b) ∧
      JavaEffect s s' own c.output G ∧ Inv s'.heap st'

theorem calls_run [Inhabited V] {java : Nat → Prop} {R : V → Prop} {Inv : Heap V → σ → Prop} {F : NativeFilter V σ} {z : V}
    {P : FilterCall → (Nat → Nat → V) → (Nat → Nat → V) → Prop} :
    ∀ {cs : List FilterCall}, (∀ c ∈ cs, StepOk java R Inv F z P c) → ∀ {s : Jvm V} {st : σ}, Inv s.heap st →
      JavaAll java R s.heap → (∀ c ∈ cs, c.Ok java s.heap) →
      ∃ st' s', F.calls z st cs s = .ok st' s' ∧ Served java P cs s s' ∧ Inv s'.heap st' ∧ JavaAll java R s'.heap := by
  intro cs
  induction cs with
  | nil => intro _ s st hi hj _; exact ⟨st, s, rfl, .nil s, hi, hj⟩
  | cons c cs ih =>
    intro hstep s st hi hj hok
    have hc := hok c (List.mem_cons_self ..)
    have go : ∀ f, c.input.Shows s.heap f → ∃ st' s' own G,
        nativeThreshold z (F.process st) c.input c.output c.copyIn c.copyOut s = .ok (some st') s' ∧ P c f G ∧
        (∀ x y : Nat, (x : Int) < c.output.width → (y : Int) < c.output.height → R (G x y)) ∧ (∀ b, own b → ¬java b) ∧
        JavaEffect s s' own c.output G ∧ Inv s'.heap st' := fun f hf =>
      hstep c (List.mem_cons_self ..) s st f hi hj.alive hc ⟨hc.input, hc.output, hc.apart, hc.width, hc.height, hf⟩
        (fun x y hx hy => hj.shows hc.inJava hf hx hy)
    obtain ⟨f, hf⟩ := hc.input.picture
    obtain ⟨st1, s1, own, G, e, hP, hG, hown, hJ, hi1⟩ := go f hf
    have hw := hJ.writes hown hj.alive hc.output
    obtain ⟨st2, s2, e2, hS, hi2, hj2⟩ := ih (fun c' hc' => hstep c' (List.mem_cons_of_mem _ hc')) hi1 (hj.writes hw hG)
      (fun c' hc' => (hok c' (List.mem_cons_of_mem _ hc')).mono (fun a l ha hl => by
        obtain ⟨m, l', hm, hl', hlen, -⟩ := hw.arrays a ha
        rw [hl] at hm; cases hm
        exact ⟨l', hl', hlen⟩))
    refine ⟨st2, s2, (J.bind_ok e).trans e2, .cons (s1 := s1) (fun f' hf' => ?_) hS, hi2, hj2⟩
    obtain ⟨st1', s1', own', G', e', hP', -, hown', hJ', -⟩ := go f' hf'
    rw [e] at e'
    cases e'
    exact ⟨G', hP', hJ'.writes hown' hj.alive hc.output⟩

theorem life_run [Inhabited V] {java : Nat → Prop} {R : V → Prop} {Inv : Heap V → σ → Prop} {F : NativeFilter V σ} {z : V}
    {P : FilterCall → (Nat → Nat → V) → (Nat → Nat → V) → Prop} {cs : List FilterCall} {s : Jvm V}
    (hj : JavaAll java R s.heap) (hok : ∀ c ∈ cs, c.Ok java s.heap)
    (hcreate : ∃ st h', F.create s.heap = .ok st h' ∧ Inv h' st ∧ ∀ b, java b → h'.get b = s.heap.get b)
    (hstep : ∀ c ∈ cs, StepOk java R Inv F z P c)
    (hdestroy : ∀ h st, Inv h st → ∃ h', F.destroy st h = .ok () h' ∧ ∀ b, java b → h'.get b = h.get b) :
    ∃ s', F.life z cs s = .ok () s' ∧ LifeOf java P cs s s' := by
  obtain ⟨st, h0, e0, hi0, hs0⟩ := hcreate
  obtain ⟨st1, s1, e1, hS, hi1, -⟩ := calls_run hstep (s := { s with heap := h0 }) hi0 (hj.same hs0)
    (fun c hc => (hok c hc).mono (fun a l ha hl => ⟨l, by rw [← hl]; exact hs0 a ha, rfl⟩))
  obtain ⟨h2, e2, hs2⟩ := hdestroy s1.heap st1 hi1
  refine ⟨{ s1 with heap := h2 }, ?_, { s with heap := h0 }, s1, ⟨rfl, hs0⟩, hS, rfl, hs2⟩
  refine (J.bind_ok (J.lift_ok e0)).trans ?_
  refine (J.bind_ok e1).trans ?_
  exact J.lift_ok e2

end Boof
