import Verif.Proofs.Paints
namespace Boof
open M
variable {V : Type}

theorem Painted.reads {h h1 : Heap V} {g a : Gray} {F : Nat → Nat → Option V} {f : Nat → Nat → V} (hp : Painted h h1 g F)
    (hg : g.Valid h) (ha : a.Valid h) (hd : a.Disjoint g) (hf : a.Shows h f) : a.Valid h1 ∧ a.Shows h1 f :=
  ⟨hp.valid hg ha, fun x y hx hy => by rw [hp.px_disjoint hd hx hy]; exact hf x y hx hy⟩

theorem Painted.showsAll {h h1 : Heap V} {g : Gray} {F : Nat → Nat → V} (hp : Painted h h1 g (fun x y => some (F x y))) :
    g.Shows h1 F := fun x y hx hy => by rw [hp.pix x y hx hy]; rfl

theorem Gray.Disjoint.of_buf {a b : Gray} (h : a.buf ≠ b.buf) : a.Disjoint b :=
  fun _ _ _ _ _ _ _ _ e => absurd e h

/-- Reshaping keeps the array's length or makes it exactly as long as necessary. -/
theorem reshape_len {z : V} {h h' : Heap V} {g g' : Gray} {w ht : Nat} (ha : w * ht < P32)
    (e : g.reshape z w ht h = .ok g' h') : g'.dataLength = g.dataLength ∨ g'.dataLength = w * ht := by
  unfold Gray.reshape at e
  split at e
  · cases e; exact Or.inl rfl
  · split at e
    · cases e
    · rw [wrap32_of_lt ha] at e
      simp only [] at e
      split at e
      · cases hd : (M.delArr g.buf h : Res (Heap V) Unit) with
        | ok u h1 =>
          rw [M.bind_ok hd] at e
          cases hn : (M.newArr (w * ht) z h1 : Res (Heap V) Nat) with
          | ok b h2 => rw [M.bind_ok hn] at e; cases e; exact Or.inr rfl
          | throw h2 => rw [M.bind_throw hn] at e; cases e
          | ub => rw [M.bind_ub hn] at e; cases e
          | timeout => cases hn
        | throw h1 => rw [M.bind_throw hd] at e; cases e
        | ub => rw [M.bind_ub hd] at e; cases e
        | timeout => unfold M.delArr at hd; split at hd <;> cases hd
      · cases e; exact Or.inl rfl

theorem Heap.lt_next_of_isSome {h : Heap V} {b : Nat} (hl : (h.get b).isSome) : b < h.next := by
  unfold Heap.get at hl
  unfold Heap.next
  rcases Nat.lt_or_ge b h.bufs.length with c | c
  · exact c
  · rw [List.getElem?_eq_none c] at hl; cases hl

/-- The only new array which can be live after reshaping is the image's. -/
theorem Reshaped.fresh_eq {h h1 : Heap V} {g g' : Gray} {w ht b : Nat} (hr : Reshaped h h1 g g' w ht) (hb : h.next ≤ b)
    (hl : (h1.get b).isSome) : b = g'.buf := by
  have hlt := Heap.lt_next_of_isSome hl
  rcases hr.memory with ⟨m1, m2, m3⟩ | ⟨m1, m2, m3⟩ <;> omega

/-- An operation which reshapes the output and some storage, fills the storage from the input and the output from the
storage. -/
theorem two_stage {z : V} {h : Heap V} {input output storage : Gray} {w ht : Nat} {f G F : Nat → Nat → V}
    {m1 : Gray → M V Unit} {m2 : Gray → Gray → M V Unit}
    (hi : input.Valid h) (ho : output.Valid h) (hst : storage.Valid h)
    (ha : w * ht < P32) (hw : w < P32) (hh : ht < P32)
    (hc : output.CanBe w ht) (hcs : storage.CanBe w ht) (hs : input.Sep output w ht) (hss : input.Sep storage w ht)
    (hne : storage.buf ≠ output.buf) (hf : input.Shows h f)
    (hm1 : ∀ h2 s', s'.Valid h2 → s'.width = w → s'.height = ht → Pixels h2 s' G input f →
      Paints h2 s' G (m1 s') (fun _ _ => True))
    (hm2 : ∀ h2 s' o', o'.Valid h2 → s'.width = w → s'.height = ht → o'.width = w → o'.height = ht →
      (s'.dataLength = storage.dataLength ∨ s'.dataLength = w * ht) →
      Pixels h2 o' F s' G → Paints h2 o' F (m2 s' o') (fun _ _ => True)) :
    Spec (do
      let o ← output.reshape z w ht
      let s ← storage.reshape z w ht
      m1 s
      m2 s o
      pure (o, s)) h
      (fun r h' => Produced2 h h' output r.1 storage r.2 w ht F G ∧ input.Valid h' ∧ input.Shows h' f) := by
  refine Spec.bind (reshape_spec z ho hw hh ha hc) (fun o' h1 hr => ?_)
  obtain ⟨vi, pi, di⟩ := hr.input hi hs
  obtain ⟨vs, ps, ds⟩ := hr.input hst (Or.inl hne : storage.Sep output w ht)
  have hob : o'.buf ≠ storage.buf := by
    have := hst.lt_next
    rcases hr.buf with ⟨e, _⟩ | ⟨e, _⟩ <;> omega
  have hn1 : h.next ≤ h1.next := by
    rcases hr.buf with ⟨_, e⟩ | ⟨_, e⟩
    · rw [e]; exact Nat.le_refl _
    · omega
  obtain ⟨s', h2, e2, hr2⟩ := reshape_spec z vs hw hh ha hcs
  have hlen := reshape_len ha e2
  refine Spec.bind_eq e2 ?_
  obtain ⟨vi2, pi2, di2⟩ := hr2.input vi hss
  obtain ⟨vo2, po2, do2⟩ := hr2.input hr.valid (Or.inl hob : o'.Sep storage w ht)
  have hn2 : h1.next ≤ h2.next := by
    rcases hr2.buf with ⟨_, e⟩ | ⟨_, e⟩
    · rw [e]; exact Nat.le_refl _
    · omega
  have hsn : s'.buf ≠ o'.buf := by
    have := hr.valid.lt_next
    rcases hr2.buf with ⟨e, _⟩ | ⟨e, _⟩ <;> omega
  have hf2 : input.Shows h2 f := fun x y hx hy => by rw [pi2, pi]; exact hf x y hx hy
  refine Spec.bind ((hm1 h2 s' hr2.valid hr2.width hr2.height (di2.pixels vi2 hf2)).done (fun _ _ _ _ => trivial))
    (fun _ h3 hp => ?_)
  obtain ⟨vi3, fi3⟩ := hp.reads hr2.valid vi2 di2 hf2
  have vs3 := hp.valid hr2.valid hr2.valid
  have vo3 := hp.valid hr2.valid vo2
  have dso : s'.Disjoint o' := Gray.Disjoint.of_buf hsn
  refine Spec.bind ((hm2 h3 s' o' vo3 hr2.width hr2.height hr.width hr.height hlen
    (dso.pixels vs3 hp.showsAll)).done (fun _ _ _ _ => trivial)) (fun _ h4 hq => ?_)
  obtain ⟨vi4, fi4⟩ := hq.reads vo3 vi3 di fi3
  obtain ⟨vs4, fs4⟩ := hq.reads vo3 vs3 dso hp.showsAll
  refine Spec.pure ⟨⟨hr.width, hr.height, hq.valid vo3 vo3, ?_, hr2.width, hr2.height, vs4, ?_, ?_, ?_, ?_, ?_, hsn, ?_,
    ⟨hr.sub, hr2.sub⟩, ?_, ?_, ?_, ?_⟩, vi4, fi4⟩
  · exact fun x y hx hy => hq.showsAll x y (by rw [hr.width]; exact hx) (by rw [hr.height]; exact hy)
  · exact fun x y hx hy => fs4 x y (by rw [hr2.width]; exact hx) (by rw [hr2.height]; exact hy)
  · intro b i b1 b2 hb
    have c1 : b ≠ o'.buf := by rcases hr.buf with ⟨e, _⟩ | ⟨e, _⟩ <;> omega
    have c2 : b ≠ s'.buf := by rcases hr2.buf with ⟨e, _⟩ | ⟨e, _⟩ <;> omega
    rw [hq.frame b i (fun x y _ _ e => c1 e.1), hp.frame b i (fun x y _ _ e => c2 e.1),
      hr2.frame b i b2 (by omega), hr.frame b i b1 hb]
  · intro b b1 b2 hb
    rw [hq.alive, hp.alive, hr2.alive b b2 (by omega), hr.alive b b1 hb]
  · rcases hr.buf with ⟨e, _⟩ | ⟨e, _⟩
    · exact Or.inl e
    · exact Or.inr (show h.next ≤ o'.buf by omega)
  · rcases hr2.buf with ⟨e, _⟩ | ⟨e, _⟩
    · exact Or.inl e
    · exact Or.inr (show h.next ≤ s'.buf by omega)
  · rw [hq.next, hp.next]; omega
  · intro ew eh
    obtain ⟨eo, e1⟩ := hr.same ew eh
    refine ⟨eo, fun i hi => ?_⟩
    rw [hq.frame _ i (fun x y hx hy e => hi x y (by rw [← hr.width]; exact hx) (by rw [← hr.height]; exact hy) (by rw [← eo]; exact e.2)),
      hp.frame _ i (fun x y _ _ e => hsn (by show s'.buf = o'.buf; rw [eo]; exact e.1.symm)),
      hr2.frame _ i (Ne.symm hne) (by rw [e1]; exact ho.lt_next), e1]
  · intro ew eh
    obtain ⟨es, e2⟩ := hr2.same ew eh
    refine ⟨es, fun i hi => ?_⟩
    rw [hq.frame _ i (fun x y _ _ e => hob e.1.symm), hp.frame _ i (fun x y hx hy e => hi x y (by rw [← hr2.width]; exact hx)
      (by rw [← hr2.height]; exact hy) (by rw [← es]; exact e.2)), e2, hr.frame _ i hne hst.lt_next]
  · intro b hb hl
    rw [hq.alive, hp.alive] at hl
    rcases Nat.decEq b s'.buf with hbs | hbs
    · rcases hr2.memory with ⟨m1, m2, m3⟩ | ⟨m1, m2, m3⟩
      · rw [m3] at hl
        exact Or.inl (hr.fresh_eq hb hl)
      · have hlt := Heap.lt_next_of_isSome hl
        have : b ≠ storage.buf := by have := hst.lt_next; omega
        rw [hr2.alive b this (by omega)] at hl
        exact Or.inl (hr.fresh_eq hb hl)
    · exact Or.inr hbs
  · refine ⟨fun hne' => ?_, fun hne' => ?_⟩
    · have : h1.get output.buf = none := by
        rcases hr.memory with ⟨m1, _, _⟩ | ⟨_, _, m3⟩
        · exact absurd m1 hne'
        · exact m3
      have h1n : (h4.get output.buf).isSome = false := by
        rw [hq.alive, hp.alive, hr2.alive _ (Ne.symm hne) (by have := ho.lt_next; omega), this]; rfl
      simpa using h1n
    · have : h2.get storage.buf = none := by
        rcases hr2.memory with ⟨m1, _, _⟩ | ⟨_, _, m3⟩
        · exact absurd m1 hne'
        · exact m3
      have h1n : (h4.get storage.buf).isSome = false := by
        rw [hq.alive, hp.alive, this]; rfl
      simpa using h1n

end Boof
