import Verif.Spec.NativeObjects
import Mathlib.Tactic.Cases
/-
Lemmas about histories of native objects.
-/
namespace Boof
open NCall NWorld

theorem objects_append (l e : List NCall) : objects e ≤ objects (l ++ e) := by
  induction l with
  | nil => simp
  | cons r l ih => cases r <;> simp only [List.cons_append, objects] <;> omega

theorem legal_append (l e : List NCall) (h : Legal (l ++ e)) : Legal e := by
  induction l with
  | nil => exact h
  | cons r l ih => exact ih h.1

theorem makes_lt {o : Nat} {c : NCall} {past : List NCall} (h : Makes o c past) (hl : Legal (c :: past)) :
    o < objects (c :: past) := by
  rcases h with rfl | ⟨cls, i, rfl, ho⟩
  · exact (hl.2.1 o rfl).1
  · simp only [objects]; omega

theorem ownsAs_cons_makes {o : Nat} {c : NCall} {past : List NCall} (hL : Legal (c :: past)) (h : Makes o c past) (i : Bool) :
    OwnsAs o (c :: past) i ↔ typeOf o (c :: past) = some i := by
  constructor
  · rintro ⟨later, c', earlier, he, hm, ht, hl⟩
    cases later with
    | nil => simp only [List.nil_append] at he; rw [he]; exact ht
    | cons r later =>
      simp only [List.cons_append, List.cons.injEq] at he
      obtain ⟨rfl, rfl⟩ := he
      rcases h with h | ⟨cls, j, rfl, ho⟩
      · exact absurd h (hl c (by simp)).1
      · have h1 := makes_lt hm (legal_append later _ hL.1)
        have h2 := objects_append later (c' :: earlier)
        omega
  · intro ht
    exact ⟨[], c, past, rfl, h, ht, by simp⟩

theorem ownsAs_cons_other {o : Nat} {c : NCall} {past : List NCall} (h : ¬Makes o c past) (hd : c ≠ .destroy o)
    (hf : c ≠ .finalize o) (i : Bool) : OwnsAs o (c :: past) i ↔ OwnsAs o past i := by
  constructor
  · rintro ⟨later, c', earlier, he, hm, ht, hl⟩
    cases later with
    | nil =>
      simp only [List.nil_append, List.cons.injEq] at he
      obtain ⟨rfl, rfl⟩ := he
      exact absurd hm h
    | cons r later =>
      simp only [List.cons_append, List.cons.injEq] at he
      obtain ⟨rfl, rfl⟩ := he
      exact ⟨later, c', earlier, rfl, hm, ht, fun r hr => hl r (List.mem_cons_of_mem _ hr)⟩
  · rintro ⟨later, c', earlier, rfl, hm, ht, hl⟩
    refine ⟨c :: later, c', earlier, rfl, hm, ht, fun r hr => ?_⟩
    rcases List.mem_cons.1 hr with rfl | hr
    · exact ⟨fun e => h (Or.inl e), hd, hf⟩
    · exact hl r hr

theorem ownsAs_cons_release {o : Nat} {c : NCall} {past : List NCall} (h : c = .destroy o ∨ c = .finalize o) (i : Bool) :
    ¬OwnsAs o (c :: past) i := by
  rintro ⟨later, c', earlier, he, hm, ht, hl⟩
  cases later with
  | nil =>
    simp only [List.nil_append, List.cons.injEq] at he
    obtain ⟨rfl, rfl⟩ := he
    rcases h with rfl | rfl <;> rcases hm with hm | ⟨_, _, hm, _⟩ <;> cases hm
  | cons r later =>
    simp only [List.cons_append, List.cons.injEq] at he
    obtain ⟨rfl, rfl⟩ := he
    rcases h with h | h
    · exact (hl c (by simp)).2.1 h
    · exact (hl c (by simp)).2.2 h

/-- What is known about Java object `o`. -/
structure ObjectOk (past : List NCall) (w : NWorld) (o : Nat) (j : JavaObject) : Prop where
  cls : classOf o past = some j.cls
  type : typeOf o past = some j.isInteger
  ptr : (∃ i a, OwnsAs o past i ∧ j.nativePtr = some a ∧ w.cpp[a]? = some (some ⟨j.cls, i⟩) ∧ (j.cls = .chang → i = j.isInteger)) ∨
    ((∀ i, ¬OwnsAs o past i) ∧ (j.cls = .chang → j.nativePtr = none) ∧
      (j.cls ≠ .chang → ∃ a, j.nativePtr = some a ∧ w.cpp[a]? = some none))

/-- The state after a history. -/
structure WorldOk (past : List NCall) (w : NWorld) : Prop where
  len : w.java.length = objects past
  obj : ∀ o j, w.java[o]? = some j → ObjectOk past w o j
  inj : ∀ (o o' : Nat) (j j' : JavaObject) (a : Nat), w.java[o]? = some j → w.java[o']? = some j' → j.nativePtr = some a → j'.nativePtr = some a → o = o'

theorem ObjectOk.unique {past : List NCall} {o : Nat} {i i' : Bool} (hL : Legal past) (h : OwnsAs o past i) (h' : OwnsAs o past i') :
    i = i' := by
  induction past with
  | nil => obtain ⟨l, c, e, he, _⟩ := h; cases l <;> cases he
  | cons c past ih =>
    by_cases hm : Makes o c past
    · rw [ownsAs_cons_makes hL hm] at h h'
      rw [h] at h'; exact Option.some.inj h'
    · by_cases hr : c = .destroy o ∨ c = .finalize o
      · exact absurd h (ownsAs_cons_release hr i)
      · rw [not_or] at hr
        rw [ownsAs_cons_other hm hr.1 hr.2] at h h'
        exact ih hL.1 h h'

theorem ObjectOk.ptr_lt {past : List NCall} {w : NWorld} {o a : Nat} {j : JavaObject} (h : ObjectOk past w o j)
    (hp : j.nativePtr = some a) : a < w.cpp.length := by
  have key : ∀ {x}, w.cpp[a]? = some x → a < w.cpp.length := fun hx => (List.getElem?_eq_some_iff.1 hx).1
  rcases h.ptr with ⟨i, a', _, hp', hc, _⟩ | ⟨_, hn, hs⟩
  · rw [hp] at hp'; cases hp'; exact key hc
  · by_cases hc : j.cls = .chang
    · rw [hn hc] at hp; cases hp
    · obtain ⟨a', hp', hc'⟩ := hs hc
      rw [hp] at hp'; cases hp'; exact key hc'

/-- Following the pointer works exactly when the history says so. -/
theorem ObjectOk.pointee {past : List NCall} {w : NWorld} {o : Nat} {j : JavaObject} (h : ObjectOk past w o j) (hL : Legal past) :
    (Owns o past ∧ ∃ a, j.nativePtr = some a ∧ w.pointee j = some a ∧ w.cpp[a]? = some (some ⟨j.cls, j.isInteger⟩)) ∨
      (¬Owns o past ∧ w.pointee j = none) := by
  rcases h.ptr with ⟨i, a, ho, hp, hc, hch⟩ | ⟨hn, hch, hs⟩
  · by_cases he : i = j.isInteger
    · left
      subst he
      refine ⟨⟨_, ho, h.type⟩, a, hp, ?_, hc⟩
      simp only [NWorld.pointee, hp, hc, or_true, and_self, if_true]
    · right
      refine ⟨?_, ?_⟩
      · rintro ⟨i', ho', ht'⟩
        rw [h.type] at ht'
        exact he ((ObjectOk.unique hL ho ho').trans (Option.some.inj ht').symm)
      · have : ¬(j.cls = .chang ∨ i = j.isInteger) := by
          rintro (hc | hc)
          · exact he (hch hc)
          · exact he hc
        simp only [NWorld.pointee, hp, hc, this, and_false, if_false]
  · right
    refine ⟨fun ⟨i, hi, _⟩ => hn i hi, ?_⟩
    by_cases hc : j.cls = .chang
    · simp only [NWorld.pointee, hch hc]
    · obtain ⟨a, hp, hc'⟩ := hs hc
      simp only [NWorld.pointee, hp, hc']

theorem ObjectOk.frame {past : List NCall} {w w' : NWorld} {c : NCall} {o : Nat} {j : JavaObject} (h : ObjectOk past w o j)
    (ht : c.target ≠ some o) (hc : ∀ cls i, c = .construct cls i → objects past ≠ o)
    (hw : ∀ a, j.nativePtr = some a → w'.cpp[a]? = w.cpp[a]?) : ObjectOk (c :: past) w' o j := by
  have hm : ¬Makes o c past := by
    rintro (rfl | ⟨cls, i, rfl, ho⟩)
    · exact ht rfl
    · exact hc cls i rfl ho
  have hd : c ≠ .destroy o := by rintro rfl; exact ht rfl
  have hf : c ≠ .finalize o := by rintro rfl; exact ht rfl
  have hO := ownsAs_cons_other hm hd hf
  refine ⟨?_, ?_, ?_⟩
  · cases c with
    | construct cls i => simp only [classOf, if_neg (hc cls i rfl)]; exact h.cls
    | _ => exact h.cls
  · cases c with
    | construct cls i => simp only [typeOf, if_neg (hc cls i rfl)]; exact h.type
    | setImageType o' i =>
      have : o' ≠ o := by rintro rfl; exact ht rfl
      simp only [typeOf, if_neg this]; exact h.type
    | _ => exact h.type
  · rcases h.ptr with ⟨i, a, ho, hp, hcell, hch⟩ | ⟨hn, hch, hs⟩
    · exact Or.inl ⟨i, a, (hO i).2 ho, hp, (hw a hp).trans hcell, hch⟩
    · refine Or.inr ⟨fun i hi => hn i ((hO i).1 hi), hch, fun hne => ?_⟩
      obtain ⟨a, hp, hcell⟩ := hs hne
      exact ⟨a, hp, (hw a hp).trans hcell⟩

/-- The condition on one call in `Careful`. -/
def Allowed (c : NCall) (past : List NCall) : Prop := match c with
  | .use o => Owns o past
  | .destroy o => Owns o past ∨ classOf o past = some .chang
  | .finalize o => Owns o past ∨ classOf o past = some .chang
  | _ => True

theorem nativeinit_ok {past : List NCall} {w : NWorld} {o : Nat} {j : JavaObject} {c : NCall} (hL : Legal (c :: past))
    (hm : Makes o c past) (hlen : w.java.length = objects (c :: past)) (hj : w.java[o]? = some j)
    (hcls : classOf o (c :: past) = some j.cls) (htype : typeOf o (c :: past) = some j.isInteger)
    (hoth : ∀ (o' : Nat) (j' : JavaObject), o' ≠ o → w.java[o']? = some j' → ObjectOk past w o' j' ∧ c.target ≠ some o' ∧
      ∀ cls i, c = .construct cls i → objects past ≠ o')
    (hinj : ∀ (o₁ o₂ : Nat) (j₁ j₂ : JavaObject) (a : Nat), o₁ ≠ o → o₂ ≠ o → w.java[o₁]? = some j₁ → w.java[o₂]? = some j₂ →
      j₁.nativePtr = some a → j₂.nativePtr = some a → o₁ = o₂) :
    WorldOk (c :: past) (w.nativeinit o j) := by
  have hlt : o < w.java.length := (List.getElem?_eq_some_iff.1 hj).1
  have hset : ∀ o', (w.nativeinit o j).java[o']? =
      if o = o' then some { j with nativePtr := some w.cpp.length } else w.java[o']? := by
    intro o'
    simp only [nativeinit, List.getElem?_set]
    by_cases h : o = o'
    · subst h; simp only [if_true, if_pos hlt]
    · simp only [if_neg h]
  have hold : ∀ a, a < w.cpp.length → (w.nativeinit o j).cpp[a]? = w.cpp[a]? := by
    intro a ha
    simp only [nativeinit]
    exact List.getElem?_append_left ha
  have hnew : (w.nativeinit o j).cpp[w.cpp.length]? = some (some ⟨j.cls, j.isInteger⟩) := by
    simp only [nativeinit, List.getElem?_append_right (Nat.le_refl _), Nat.sub_self]
    rfl
  refine ⟨?_, ?_, ?_⟩
  · simp only [nativeinit, List.length_set]; exact hlen
  · intro o' j' hj'
    rw [hset] at hj'
    by_cases h : o = o'
    · subst h
      rw [if_pos rfl] at hj'
      cases hj'
      exact ⟨hcls, htype, Or.inl ⟨j.isInteger, w.cpp.length, (ownsAs_cons_makes hL hm _).2 htype, rfl, hnew, fun _ => rfl⟩⟩
    · rw [if_neg h] at hj'
      obtain ⟨h1, h2, h3⟩ := hoth o' j' (Ne.symm h) hj'
      exact h1.frame h2 h3 (fun a ha => hold a (h1.ptr_lt ha))
  · intro o₁ o₂ j₁ j₂ a h₁ h₂ p₁ p₂
    rw [hset] at h₁ h₂
    by_cases e₁ : o = o₁
    · by_cases e₂ : o = o₂
      · exact e₁.symm.trans e₂
      · exfalso
        rw [if_pos e₁] at h₁; rw [if_neg e₂] at h₂
        cases h₁; cases p₁
        exact Nat.lt_irrefl _ ((hoth o₂ j₂ (Ne.symm e₂) h₂).1.ptr_lt p₂)
    · by_cases e₂ : o = o₂
      · exfalso
        rw [if_neg e₁] at h₁; rw [if_pos e₂] at h₂
        cases h₂; cases p₂
        exact Nat.lt_irrefl _ ((hoth o₁ j₁ (Ne.symm e₁) h₁).1.ptr_lt p₁)
      · rw [if_neg e₁] at h₁; rw [if_neg e₂] at h₂
        exact hinj o₁ o₂ j₁ j₂ a (Ne.symm e₁) (Ne.symm e₂) h₁ h₂ p₁ p₂

theorem nativedestroy_ok {past : List NCall} {w : NWorld} {o : Nat} {j : JavaObject} {c : NCall} (hL : Legal (c :: past))
    (hc : c = .destroy o ∨ c = .finalize o) (hw : WorldOk past w) (hj : w.java[o]? = some j) :
    ((Owns o past ∨ classOf o past = some .chang) ∧ ∃ w', w.nativedestroy o j = some w' ∧ WorldOk (c :: past) w') ∨
      (¬(Owns o past ∨ classOf o past = some .chang) ∧ w.nativedestroy o j = none) := by
  have hlt : o < w.java.length := (List.getElem?_eq_some_iff.1 hj).1
  have hO := hw.obj o j hj
  have hobj : objects (c :: past) = objects past := by rcases hc with rfl | rfl <;> rfl
  have hcls : classOf o (c :: past) = classOf o past := by rcases hc with rfl | rfl <;> rfl
  have htyp : typeOf o (c :: past) = typeOf o past := by rcases hc with rfl | rfl <;> rfl
  have hgone : ∀ i, ¬OwnsAs o (c :: past) i := ownsAs_cons_release hc
  have hfr : ∀ (w' : NWorld) (o' : Nat) (j' : JavaObject), o ≠ o' → w.java[o']? = some j' →
      (∀ a, j'.nativePtr = some a → w'.cpp[a]? = w.cpp[a]?) → ObjectOk (c :: past) w' o' j' := by
    intro w' o' j' hne hj' ha
    refine (hw.obj o' j' hj').frame ?_ ?_ ha
    · rcases hc with rfl | rfl <;> intro h <;> exact hne (Option.some.inj h)
    · rcases hc with rfl | rfl <;> intro _ _ h <;> cases h
  rcases hO.pointee hL.1 with ⟨hown, a, hp, hpt, hcell⟩ | ⟨hno, hpt⟩
  · left
    refine ⟨Or.inl hown, ?_⟩
    have halt : a < w.cpp.length := hO.ptr_lt hp
    have hother : ∀ (o' : Nat) (j' : JavaObject), o ≠ o' → w.java[o']? = some j' →
        ∀ a', j'.nativePtr = some a' → (w.cpp.set a none)[a']? = w.cpp[a']? := by
      intro o' j' hne hj' a' hp'
      refine List.getElem?_set_ne ?_
      rintro rfl
      exact hne (hw.inj o o' j j' a hj hj' hp hp')
    have hdel : (w.cpp.set a none)[a]? = some none := List.getElem?_set_self halt
    by_cases hch : j.cls = .chang
    · refine ⟨⟨w.java.set o { j with nativePtr := none }, w.cpp.set a none⟩, ?_, ?_, ?_, ?_⟩
      · simp only [nativedestroy, hp, hpt, if_pos hch]
      · simp only [List.length_set]; rw [hobj]; exact hw.len
      · intro o' j' hj'
        simp only [List.getElem?_set] at hj'
        by_cases hne : o = o'
        · subst hne
          rw [if_pos rfl, if_pos hlt] at hj'
          cases hj'
          exact ⟨hcls.trans hO.cls, htyp.trans hO.type, Or.inr ⟨hgone, fun _ => rfl, fun h => absurd hch h⟩⟩
        · rw [if_neg hne] at hj'
          exact hfr _ o' j' hne hj' (hother o' j' hne hj')
      · intro o₁ o₂ j₁ j₂ a' h₁ h₂ p₁ p₂
        simp only [List.getElem?_set] at h₁ h₂
        by_cases e₁ : o = o₁
        · rw [if_pos e₁, if_pos hlt] at h₁; cases h₁; cases p₁
        · by_cases e₂ : o = o₂
          · rw [if_pos e₂, if_pos hlt] at h₂; cases h₂; cases p₂
          · rw [if_neg e₁] at h₁; rw [if_neg e₂] at h₂
            exact hw.inj o₁ o₂ j₁ j₂ a' h₁ h₂ p₁ p₂
    · refine ⟨{ w with cpp := w.cpp.set a none }, ?_, ?_, ?_, ?_⟩
      · simp only [nativedestroy, hp, hpt, if_neg hch]
      · rw [hobj]; exact hw.len
      · intro o' j' hj'
        by_cases hne : o = o'
        · subst hne
          have : j = j' := Option.some.inj (hj.symm.trans hj')
          subst this
          exact ⟨hcls.trans hO.cls, htyp.trans hO.type, Or.inr ⟨hgone, fun h => absurd h hch, fun _ => ⟨a, hp, hdel⟩⟩⟩
        · exact hfr _ o' j' hne hj' (hother o' j' hne hj')
      · exact hw.inj
  · by_cases hch : j.cls = .chang
    · left
      refine ⟨Or.inr (hO.cls.trans (congrArg some hch)), w, ?_, ?_, ?_, hw.inj⟩
      · rcases hO.ptr with ⟨i, a, ho, hp, hcell, hi⟩ | ⟨hn, hnone, _⟩
        · exact absurd ⟨i, ho, hO.type.trans (congrArg some (hi hch).symm)⟩ hno
        · simp only [nativedestroy, hnone hch]
      · rw [hobj]; exact hw.len
      · intro o' j' hj'
        by_cases hne : o = o'
        · subst hne
          have : j = j' := Option.some.inj (hj.symm.trans hj')
          subst this
          refine ⟨hcls.trans hO.cls, htyp.trans hO.type, Or.inr ⟨hgone, fun _ => ?_, fun h => absurd hch h⟩⟩
          rcases hO.ptr with ⟨i, a, ho, hp, hcell, hi⟩ | ⟨hn, hnone, _⟩
          · exact absurd ⟨i, ho, hO.type.trans (congrArg some (hi hch).symm)⟩ hno
          · exact hnone hch
        · exact hfr _ o' j' hne hj' (fun _ _ => rfl)
    · right
      refine ⟨?_, ?_⟩
      · rintro (h | h)
        · exact hno h
        · rw [hO.cls] at h; exact hch (Option.some.inj h)
      · have : ∃ a, j.nativePtr = some a := by
          rcases hO.ptr with ⟨i, a, _, hp, _⟩ | ⟨_, _, hs⟩
          · exact ⟨a, hp⟩
          · obtain ⟨a, hp, _⟩ := hs hch; exact ⟨a, hp⟩
        obtain ⟨a, hp⟩ := this
        simp only [nativedestroy, hp, hpt]

theorem step_ok {past : List NCall} {w : NWorld} {c : NCall} (hL : Legal (c :: past)) (hw : WorldOk past w) :
    (Allowed c past ∧ ∃ w', w.step c = some w' ∧ WorldOk (c :: past) w') ∨ (¬Allowed c past ∧ w.step c = none) := by
  have hex : ∀ o, c.target = some o → ∃ j, w.java[o]? = some j := by
    intro o ho
    have := (hL.2.1 o ho).1
    rw [← hw.len] at this
    exact ⟨_, List.getElem?_eq_getElem this⟩
  cases c with
  | construct cls i =>
    left
    refine ⟨trivial, _, rfl, ?_⟩
    have happ : ∀ (o' : Nat) (j' : JavaObject), o' ≠ w.java.length → (w.java ++ [⟨cls, i, none⟩])[o']? = some j' →
        w.java[o']? = some j' := by
      intro o' j' hne hj'
      by_cases hlt : o' < w.java.length
      · rwa [List.getElem?_append_left hlt] at hj'
      · have := (List.getElem?_eq_some_iff.1 hj').1
        simp only [List.length_append, List.length_singleton] at this
        omega
    refine nativeinit_ok hL (Or.inr ⟨cls, i, rfl, hw.len.symm⟩) ?_ ?_ ?_ ?_ ?_ ?_
    · simp only [List.length_append, List.length_singleton, objects, hw.len]
    · simp
    · simp only [classOf, if_pos hw.len.symm]
    · simp only [typeOf, if_pos hw.len.symm]
    · intro o' j' hne hj'
      have := hw.obj o' j' (happ o' j' hne hj')
      refine ⟨⟨this.cls, this.type, this.ptr⟩, by simp [NCall.target], fun _ _ _ => ?_⟩
      rw [← hw.len]; exact Ne.symm hne
    · intro o₁ o₂ j₁ j₂ a e₁ e₂ h₁ h₂
      exact hw.inj o₁ o₂ j₁ j₂ a (happ _ _ e₁ h₁) (happ _ _ e₂ h₂)
  | init o =>
    left
    obtain ⟨j, hj⟩ := hex o rfl
    refine ⟨trivial, w.nativeinit o j, by simp only [step, hj], ?_⟩
    have hO := hw.obj o j hj
    refine nativeinit_ok hL (Or.inl rfl) hw.len hj hO.cls hO.type ?_ ?_
    · intro o' j' hne hj'
      exact ⟨hw.obj o' j' hj', fun h => hne (Option.some.inj h).symm, fun _ _ h => by cases h⟩
    · intro o₁ o₂ j₁ j₂ a _ _
      exact hw.inj o₁ o₂ j₁ j₂ a
  | use o =>
    obtain ⟨j, hj⟩ := hex o rfl
    have hO := hw.obj o j hj
    rcases hO.pointee hL.1 with ⟨hown, a, hp, hpt, hcell⟩ | ⟨hno, hpt⟩
    · left
      refine ⟨hown, w, by simp only [step, hj, hpt, Option.map_some], hw.len, ?_, hw.inj⟩
      intro o' j' hj'
      have hm : ¬Makes o' (.use o) past := by rintro (h | ⟨_, _, h, _⟩) <;> cases h
      have hOwn := ownsAs_cons_other hm (by simp) (by simp)
      have h := hw.obj o' j' hj'
      refine ⟨h.cls, h.type, ?_⟩
      simp only [hOwn]
      exact h.ptr
    · right
      exact ⟨hno, by simp only [step, hj, hpt, Option.map_none]⟩
  | destroy o =>
    obtain ⟨j, hj⟩ := hex o rfl
    have := nativedestroy_ok hL (Or.inl rfl) hw hj
    simpa only [Allowed, step, hj] using this
  | finalize o =>
    obtain ⟨j, hj⟩ := hex o rfl
    have := nativedestroy_ok hL (Or.inr rfl) hw hj
    simpa only [Allowed, step, hj] using this
  | setImageType o i =>
    left
    obtain ⟨j, hj⟩ := hex o rfl
    have hlt : o < w.java.length := (List.getElem?_eq_some_iff.1 hj).1
    have hO := hw.obj o j hj
    have hnc : j.cls ≠ .chang := by
      intro h
      exact hL.2.2 o i rfl (hO.cls.trans (congrArg some h))
    refine ⟨trivial, { w with java := w.java.set o { j with isInteger := i } }, by simp only [step, hj], ?_, ?_, ?_⟩
    · simp only [List.length_set]; exact hw.len
    · intro o' j' hj'
      simp only [List.getElem?_set] at hj'
      by_cases hne : o = o'
      · subst hne
        rw [if_pos rfl, if_pos hlt] at hj'
        cases hj'
        have hm : ¬Makes o (.setImageType o i) past := by rintro (h | ⟨_, _, h, _⟩) <;> cases h
        have hOwn := ownsAs_cons_other hm (by simp) (by simp)
        refine ⟨hO.cls, by simp only [typeOf, if_true], ?_⟩
        simp only [hOwn]
        rcases hO.ptr with ⟨i', a, ho, hp, hcell, hi⟩ | h
        · exact Or.inl ⟨i', a, ho, hp, hcell, fun h => absurd h hnc⟩
        · exact Or.inr h
      · rw [if_neg hne] at hj'
        exact (hw.obj o' j' hj').frame (fun h => hne (Option.some.inj h)) (fun _ _ h => by cases h) (fun _ _ => rfl)
    · intro o₁ o₂ j₁ j₂ a h₁ h₂ p₁ p₂
      have key : ∀ (o' : Nat) (j' : JavaObject), (w.java.set o { j with isInteger := i })[o']? = some j' →
          ∃ k, w.java[o']? = some k ∧ k.nativePtr = j'.nativePtr := by
        intro o' j' hj'
        simp only [List.getElem?_set] at hj'
        by_cases hne : o = o'
        · subst hne
          rw [if_pos rfl, if_pos hlt] at hj'
          cases hj'
          exact ⟨j, hj, rfl⟩
        · rw [if_neg hne] at hj'
          exact ⟨j', hj', rfl⟩
      obtain ⟨k₁, g₁, q₁⟩ := key _ _ h₁
      obtain ⟨k₂, g₂, q₂⟩ := key _ _ h₂
      exact hw.inj o₁ o₂ k₁ k₂ a g₁ g₂ (q₁.trans p₁) (q₂.trans p₂)

theorem careful_cons (c : NCall) (past : List NCall) : Careful (c :: past) ↔ Careful past ∧ Allowed c past := by
  cases c <;> rfl

/-- What a legal history does. -/
theorem run_ok (past : List NCall) (hL : Legal past) :
    (Careful past ∧ ∃ w, run past = some w ∧ WorldOk past w) ∨ (¬Careful past ∧ run past = none) := by
  induction past with
  | nil =>
    refine Or.inl ⟨trivial, _, rfl, rfl, ?_, ?_⟩
    · intro o j h; simp at h
    · intro o o' j j' a h; simp at h
  | cons c past ih =>
    rcases ih hL.1 with ⟨hc, w, hr, hw⟩ | ⟨hc, hr⟩
    · rcases step_ok hL hw with ⟨ha, w', hs, hw'⟩ | ⟨ha, hs⟩
      · exact Or.inl ⟨(careful_cons c past).2 ⟨hc, ha⟩, w', by simp only [run, hr, Option.bind_some, hs], hw'⟩
      · exact Or.inr ⟨fun h => ha ((careful_cons c past).1 h).2, by simp only [run, hr, Option.bind_some, hs]⟩
    · exact Or.inr ⟨fun h => hc ((careful_cons c past).1 h).1, by simp only [run, hr, Option.bind_none]⟩

theorem lives_lt {w : NWorld} {a : Nat} (h : w.Lives a) : a < w.cpp.length := by
  obtain ⟨c, hc⟩ := h
  exact (List.getElem?_eq_some_iff.1 hc).1

theorem nativeinit_lives {w : NWorld} {o : Nat} {j : JavaObject} (a : Nat) :
    (w.nativeinit o j).Lives a ↔ w.Lives a ∨ a = w.cpp.length := by
  simp only [Lives, nativeinit]
  by_cases ha : a < w.cpp.length
  · rw [List.getElem?_append_left ha]
    constructor
    · exact Or.inl
    · rintro (h | h)
      · exact h
      · omega
  · constructor
    · rintro ⟨c, hc⟩
      have := (List.getElem?_eq_some_iff.1 hc).1
      simp only [List.length_append, List.length_singleton] at this
      exact Or.inr (by omega)
    · rintro (⟨c, hc⟩ | h)
      · exact absurd (List.getElem?_eq_some_iff.1 hc).1 ha
      · subst h; exact ⟨⟨j.cls, j.isInteger⟩, by simp⟩

theorem nativeinit_held {w : NWorld} {o : Nat} {j : JavaObject} (hj : w.java[o]? = some j) (a : Nat) :
    (w.nativeinit o j).Held a ↔ a = w.cpp.length ∨
      ∃ (o' : Nat) (j' : JavaObject), o' ≠ o ∧ w.java[o']? = some j' ∧ j'.nativePtr = some a := by
  have hlt : o < w.java.length := (List.getElem?_eq_some_iff.1 hj).1
  simp only [Held, nativeinit, List.getElem?_set]
  constructor
  · rintro ⟨o', j', hj', hp⟩
    by_cases h : o = o'
    · rw [if_pos h, if_pos hlt] at hj'
      cases hj'; cases hp
      exact Or.inl rfl
    · rw [if_neg h] at hj'
      exact Or.inr ⟨o', j', Ne.symm h, hj', hp⟩
  · rintro (rfl | ⟨o', j', hne, hj', hp⟩)
    · exact ⟨o, _, by rw [if_pos rfl, if_pos hlt], rfl⟩
    · exact ⟨o', j', by rw [if_neg (Ne.symm hne)]; exact hj', hp⟩

/-- What releasing does: nothing, or the object is deleted which the Java object points to. -/
theorem nativedestroy_cases {w w' : NWorld} {o : Nat} {j : JavaObject} (hj : w.java[o]? = some j)
    (h : w.nativedestroy o j = some w') :
    w' = w ∨ ∃ a, j.nativePtr = some a ∧ (∀ b, w'.Lives b ↔ w.Lives b ∧ b ≠ a) ∧ (∀ b, w'.Held b → w.Held b) ∧
      ∀ b, b ≠ a → w.Held b → w'.Held b := by
  have hlt : o < w.java.length := (List.getElem?_eq_some_iff.1 hj).1
  unfold nativedestroy at h
  cases hp : j.nativePtr with
  | none => rw [hp] at h; exact Or.inl (Option.some.inj h).symm
  | some a =>
    right
    rw [hp] at h
    refine ⟨a, rfl, ?_⟩
    cases hpt : w.pointee j with
    | none => rw [hpt] at h; cases h
    | some a' =>
      rw [hpt] at h
      have ha : a' = a := by
        unfold NWorld.pointee at hpt
        rw [hp] at hpt
        simp only at hpt
        split at hpt
        · split at hpt
          · exact (Option.some.inj hpt).symm
          · cases hpt
        · cases hpt
      subst ha
      have hl : ∀ b, (∃ c, (w.cpp.set a' none)[b]? = some (some c)) ↔ w.Lives b ∧ b ≠ a' := by
        intro b
        simp only [List.getElem?_set, Lives]
        by_cases hb : a' = b
        · subst hb
          simp only [if_true, ne_eq, not_true_eq_false, and_false, iff_false, not_exists]
          intro c hc
          split at hc <;> cases hc
        · simp only [if_neg hb]
          exact ⟨fun h => ⟨h, Ne.symm hb⟩, fun h => h.1⟩
      simp only at h
      split at h
      · cases h
        refine ⟨hl, ?_, ?_⟩
        · rintro b ⟨o', j', hj', hp'⟩
          simp only [List.getElem?_set] at hj'
          by_cases hne : o = o'
          · rw [if_pos hne, if_pos hlt] at hj'; cases hj'; cases hp'
          · rw [if_neg hne] at hj'; exact ⟨o', j', hj', hp'⟩
        · rintro b hb ⟨o', j', hj', hp'⟩
          refine ⟨o', j', ?_, hp'⟩
          simp only [List.getElem?_set]
          rw [if_neg ?_]
          · exact hj'
          · rintro rfl
            rw [hj] at hj'; cases hj'
            rw [hp] at hp'; cases hp'
            exact hb rfl
      · cases h
        exact ⟨hl, fun b h => h, fun b _ h => h⟩

theorem owner_of_held {past : List NCall} {w : NWorld} {o a : Nat} {j : JavaObject} (hw : WorldOk past w) (hj : w.java[o]? = some j)
    (hp : j.nativePtr = some a) : w.Lives a ↔ ∃ i, OwnsAs o past i := by
  rcases (hw.obj o j hj).ptr with ⟨i, a', ho, hp', hc, _⟩ | ⟨hn, hch, hs⟩
  · rw [hp] at hp'; cases hp'
    exact ⟨fun _ => ⟨i, ho⟩, fun _ => ⟨_, hc⟩⟩
  · constructor
    · rintro ⟨c, hc⟩
      by_cases h : j.cls = .chang
      · rw [hch h] at hp; cases hp
      · obtain ⟨a', hp', hc'⟩ := hs h
        rw [hp] at hp'; cases hp'
        rw [hc] at hc'; cases hc'
    · rintro ⟨i, hi⟩; exact absurd hi (hn i)

theorem step_leak {past : List NCall} {w w' : NWorld} {c : NCall} (hL : Legal (c :: past)) (hw : WorldOk past w)
    (hs : w.step c = some w') :
    w'.NoLeak ↔ w.NoLeak ∧ ∀ o, c = .init o → ∀ i, ¬OwnsAs o past i := by
  have hex : ∀ o, c.target = some o → ∃ j, w.java[o]? = some j := by
    intro o ho
    have := (hL.2.1 o ho).1
    rw [← hw.len] at this
    exact ⟨_, List.getElem?_eq_getElem this⟩
  have hrel : ∀ (o : Nat) (j : JavaObject), w.java[o]? = some j → w.nativedestroy o j = some w' → (w'.NoLeak ↔ w.NoLeak) := by
    intro o j hj h
    rcases nativedestroy_cases hj h with rfl | ⟨a, hp, hl, h1, h2⟩
    · rfl
    · constructor
      · intro hn b hb
        by_cases hba : b = a
        · subst hba; exact ⟨o, j, hj, hp⟩
        · exact h1 b (hn b ((hl b).2 ⟨hb, hba⟩))
      · intro hn b hb
        have := (hl b).1 hb
        exact h2 b this.2 (hn b this.1)
  cases c with
  | construct cls i =>
    simp only [step, Option.some.injEq] at hs
    subst hs
    have hj : (w.java ++ [(⟨cls, i, none⟩ : JavaObject)])[w.java.length]? = some ⟨cls, i, none⟩ := by simp
    have hH : ∀ a, (nativeinit ⟨w.java ++ [⟨cls, i, none⟩], w.cpp⟩ w.java.length ⟨cls, i, none⟩).Held a ↔
        a = w.cpp.length ∨ w.Held a := by
      intro a
      rw [nativeinit_held hj]
      refine or_congr Iff.rfl ⟨?_, ?_⟩
      · rintro ⟨o', j', hne, hj', hp⟩
        have hlt := (List.getElem?_eq_some_iff.1 hj').1
        simp only [List.length_append, List.length_singleton] at hlt
        rw [List.getElem?_append_left (by omega)] at hj'
        exact ⟨o', j', hj', hp⟩
      · rintro ⟨o', j', hj', hp⟩
        have hlt := (List.getElem?_eq_some_iff.1 hj').1
        exact ⟨o', j', by omega, by simp only [List.getElem?_append_left hlt]; exact hj', hp⟩
    constructor
    · intro hn
      refine ⟨fun a ha => ?_, fun _ h => by cases h⟩
      rcases (hH a).1 (hn a ((nativeinit_lives a).2 (Or.inl ha))) with h | h
      · have := lives_lt ha; omega
      · exact h
    · rintro ⟨hn, _⟩ a ha
      rw [hH]
      rcases (nativeinit_lives a).1 ha with h | h
      · exact Or.inr (hn a h)
      · exact Or.inl h
  | init o =>
    obtain ⟨j, hj⟩ := hex o rfl
    simp only [step, hj, Option.some.injEq] at hs
    subst hs
    constructor
    · intro hn
      have hfind : ∀ a, w.Lives a → ∃ (o' : Nat) (j' : JavaObject), o' ≠ o ∧ w.java[o']? = some j' ∧ j'.nativePtr = some a := by
        intro a ha
        rcases (nativeinit_held hj a).1 (hn a ((nativeinit_lives a).2 (Or.inl ha))) with h | h
        · have := lives_lt ha; omega
        · exact h
      constructor
      · intro a ha
        obtain ⟨o', j', _, hj', hp⟩ := hfind a ha
        exact ⟨o', j', hj', hp⟩
      · intro o₁ h₁ i hi
        cases h₁
        rcases (hw.obj o j hj).ptr with ⟨i', a, _, hp, hc, _⟩ | ⟨hno, _⟩
        · obtain ⟨o', j', hne, hj', hp'⟩ := hfind a ⟨_, hc⟩
          exact hne (hw.inj o' o j' j a hj' hj hp' hp)
        · exact hno i hi
    · rintro ⟨hn, hi⟩ a ha
      rw [nativeinit_held hj]
      rcases (nativeinit_lives a).1 ha with h | h
      · right
        obtain ⟨o', j', hj', hp⟩ := hn a h
        refine ⟨o', j', ?_, hj', hp⟩
        rintro rfl
        obtain ⟨i, ho⟩ := (owner_of_held hw hj' hp).1 h
        exact hi o' rfl i ho
      · exact Or.inl h
  | use o =>
    obtain ⟨j, hj⟩ := hex o rfl
    simp only [step, hj] at hs
    have : w' = w := by
      cases hp : w.pointee j with
      | none => rw [hp] at hs; cases hs
      | some a => rw [hp] at hs; exact (Option.some.inj hs).symm
    subst this
    exact ⟨fun h => ⟨h, fun _ h => by cases h⟩, fun h => h.1⟩
  | destroy o =>
    obtain ⟨j, hj⟩ := hex o rfl
    simp only [step, hj] at hs
    rw [hrel o j hj hs]
    exact ⟨fun h => ⟨h, fun _ h => by cases h⟩, fun h => h.1⟩
  | finalize o =>
    obtain ⟨j, hj⟩ := hex o rfl
    simp only [step, hj] at hs
    rw [hrel o j hj hs]
    exact ⟨fun h => ⟨h, fun _ h => by cases h⟩, fun h => h.1⟩
  | setImageType o i =>
    obtain ⟨j, hj⟩ := hex o rfl
    have hlt : o < w.java.length := (List.getElem?_eq_some_iff.1 hj).1
    simp only [step, hj, Option.some.injEq] at hs
    subst hs
    have hH : ∀ a, NWorld.Held { w with java := w.java.set o { j with isInteger := i } } a ↔ w.Held a := by
      intro a
      simp only [Held, List.getElem?_set]
      constructor
      · rintro ⟨o', j', hj', hp⟩
        by_cases hne : o = o'
        · rw [if_pos hne, if_pos hlt] at hj'; cases hj'; exact ⟨o, j, hj, hp⟩
        · rw [if_neg hne] at hj'; exact ⟨o', j', hj', hp⟩
      · rintro ⟨o', j', hj', hp⟩
        by_cases hne : o = o'
        · subst hne
          rw [hj] at hj'; cases hj'
          exact ⟨o, { j with isInteger := i }, by rw [if_pos rfl, if_pos hlt], hp⟩
        · exact ⟨o', j', by rw [if_neg hne]; exact hj', hp⟩
    constructor
    · intro hn
      exact ⟨fun a ha => (hH a).1 (hn a ha), fun _ h => by cases h⟩
    · rintro ⟨hn, _⟩ a ha
      exact (hH a).2 (hn a ha)

theorem run_leak {past : List NCall} (hL : Legal past) {w : NWorld} (hr : run past = some w) : w.NoLeak ↔ Tidy past := by
  induction past generalizing w with
  | nil =>
    cases hr
    refine ⟨fun _ => trivial, fun _ a ha => ?_⟩
    obtain ⟨c, hc⟩ := ha
    simp at hc
  | cons c past ih =>
    rcases run_ok past hL.1 with ⟨_, w₀, hr₀, hw₀⟩ | ⟨_, hr₀⟩
    · simp only [run, hr₀, Option.bind_some] at hr
      rw [step_leak hL hw₀ hr, ih hL.1 hr₀]
      rfl
    · simp only [run, hr₀, Option.bind_none] at hr
      cases hr

theorem run_world {past : List NCall} (hL : Legal past) {w : NWorld} (hr : run past = some w) : WorldOk past w := by
  rcases run_ok past hL with ⟨_, w', hr', hw⟩ | ⟨_, hr'⟩
  · rw [hr] at hr'; cases hr'; exact hw
  · rw [hr] at hr'; cases hr'

end Boof
