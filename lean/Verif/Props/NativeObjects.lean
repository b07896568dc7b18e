import Verif.Proofs.NativeObjects
/-
C99: the native objects behind Java objects.
-/
namespace Boof
open NCall NWorld

/-- **C99.** For every history of constructions, uses, explicit and automatic releases and changes of the image type, of any number of Java
objects: it is free of undefined behaviour exactly when each use and each release finds the native object which was made last for the
Java object, not yet released and of the type the Java object is set to. -/
theorem C99_defined_iff (past : List NCall) (hL : Legal past) : (∃ w, run past = some w) ↔ Careful past := by
  rcases run_ok past hL with ⟨hc, w, hr, _⟩ | ⟨hc, hr⟩
  · exact ⟨fun _ => hc, fun _ => ⟨w, hr⟩⟩
  · refine ⟨?_, fun h => absurd h hc⟩
    rintro ⟨w, hw⟩
    rw [hr] at hw; cases hw

/-- **C99.** Native memory is lost exactly when `nativeinit` is called for an object that already has a native object. -/
theorem C99_leak_iff (past : List NCall) (hL : Legal past) (w : NWorld) (hr : run past = some w) : w.NoLeak ↔ Tidy past :=
  run_leak hL hr

/-- **C99.** When every Java object has been released, whichever way, no native object is left. -/
theorem C99_all_released (past : List NCall) (hL : Legal past) (hc : Careful past) (ht : Tidy past)
    (hall : ∀ o, o < objects past → ∀ i, ¬OwnsAs o past i) : ∃ w, run past = some w ∧ ∀ a, ¬w.Lives a := by
  obtain ⟨w, hr⟩ := (C99_defined_iff past hL).2 hc
  refine ⟨w, hr, fun a ha => ?_⟩
  have hw := run_world hL hr
  obtain ⟨o, j, hj, hp⟩ := (run_leak hL hr).2 ht a ha
  obtain ⟨i, hi⟩ := (owner_of_held hw hj hp).1 ha
  have hlt := (List.getElem?_eq_some_iff.1 hj).1
  rw [hw.len] at hlt
  exact hall o hlt i hi

/-- In a plain history an object has its native object until it is finalized. -/
theorem plain_ownsAs {past : List NCall} (hP : Plain past) (hL : Legal past) (o : Nat) (ho : o < objects past) :
    ∃ i, typeOf o past = some i ∧ (NCall.finalize o ∉ past → OwnsAs o past i) ∧ (NCall.finalize o ∈ past → ∀ i, ¬OwnsAs o past i) := by
  induction past with
  | nil => simp only [objects] at ho; omega
  | cons c past ih =>
    have hP' : Plain past := fun c hc => hP c (List.mem_cons_of_mem _ hc)
    rcases hP c (by simp) with ⟨cls, i, rfl⟩ | ⟨o', rfl⟩ | ⟨o', rfl⟩
    · by_cases he : objects past = o
      · have hm : Makes o (.construct cls i) past := Or.inr ⟨cls, i, rfl, he⟩
        have ht : typeOf o (.construct cls i :: past) = some i := by simp only [typeOf, if_pos he]
        refine ⟨i, ht, fun _ => (ownsAs_cons_makes hL hm i).2 ht, fun hf => ?_⟩
        exfalso
        have hf' : NCall.finalize o ∈ past := by simpa using hf
        obtain ⟨l, e, rfl⟩ := List.append_of_mem hf'
        have h1 := (legal_append l _ hL.1).2.1 o rfl
        have h2 := objects_append l (.finalize o :: e)
        simp only [objects] at h2
        omega
      · simp only [objects] at ho
        have hm : ¬Makes o (.construct cls i) past := by
          rintro (h | ⟨_, _, _, h⟩)
          · cases h
          · exact he h
        obtain ⟨i', ht, h1, h2⟩ := ih hP' hL.1 (by omega)
        refine ⟨i', by simp only [typeOf, if_neg he]; exact ht, fun hf => ?_, fun hf i hi => ?_⟩
        · rw [ownsAs_cons_other hm (by simp) (by simp)]
          exact h1 (fun h => hf (List.mem_cons_of_mem _ h))
        · rw [ownsAs_cons_other hm (by simp) (by simp)] at hi
          exact h2 (by simpa using hf) i hi
    · obtain ⟨i', ht, h1, h2⟩ := ih hP' hL.1 ho
      have hm : ¬Makes o (.use o') past := by rintro (h | ⟨_, _, h, _⟩) <;> cases h
      refine ⟨i', ht, fun hf => ?_, fun hf i hi => ?_⟩
      · rw [ownsAs_cons_other hm (by simp) (by simp)]
        exact h1 (fun h => hf (List.mem_cons_of_mem _ h))
      · rw [ownsAs_cons_other hm (by simp) (by simp)] at hi
        exact h2 (by simpa using hf) i hi
    · obtain ⟨i', ht, h1, h2⟩ := ih hP' hL.1 ho
      by_cases he : o' = o
      · subst he
        exact ⟨i', ht, fun hf => absurd (by simp) hf, fun _ => ownsAs_cons_release (Or.inr rfl)⟩
      · have hm : ¬Makes o (.finalize o') past := by rintro (h | ⟨_, _, h, _⟩) <;> cases h
        have hne : NCall.finalize o' ≠ .finalize o := fun h => he (NCall.finalize.inj h)
        refine ⟨i', ht, fun hf => ?_, fun hf i hi => ?_⟩
        · rw [ownsAs_cons_other hm (by simp) hne]
          exact h1 (fun h => hf (List.mem_cons_of_mem _ h))
        · rw [ownsAs_cons_other hm (by simp) hne] at hi
          refine h2 ?_ i hi
          rcases List.mem_cons.1 hf with h | h
          · exact absurd h.symm hne
          · exact h

theorem plain_careful {past : List NCall} (hP : Plain past) (hL : Legal past) : Careful past := by
  induction past with
  | nil => trivial
  | cons c past ih =>
    have hP' : Plain past := fun c hc => hP c (List.mem_cons_of_mem _ hc)
    rw [careful_cons]
    refine ⟨ih hP' hL.1, ?_⟩
    rcases hP c (by simp) with ⟨cls, i, rfl⟩ | ⟨o, rfl⟩ | ⟨o, rfl⟩
    · trivial
    · have ho := hL.2.1 o rfl
      obtain ⟨i, ht, h1, _⟩ := plain_ownsAs hP' hL.1 o ho.1
      exact ⟨i, h1 ho.2, ht⟩
    · have ho := hL.2.1 o rfl
      obtain ⟨i, ht, h1, _⟩ := plain_ownsAs hP' hL.1 o ho.1
      exact Or.inl ⟨i, h1 ho.2, ht⟩

theorem plain_tidy {past : List NCall} (hP : Plain past) : Tidy past := by
  induction past with
  | nil => trivial
  | cons c past ih =>
    refine ⟨ih (fun c hc => hP c (List.mem_cons_of_mem _ hc)), ?_⟩
    rintro o rfl
    rcases hP _ (List.mem_cons_self) with ⟨cls, i, h⟩ | ⟨o, h⟩ | ⟨o, h⟩ <;> cases h

/-- A plain history makes one C++ object for each Java object. -/
theorem plain_made {past : List NCall} (hP : Plain past) (hL : Legal past) {w : NWorld} (hr : run past = some w) :
    w.cpp.length = objects past := by
  induction past generalizing w with
  | nil => cases hr; rfl
  | cons c past ih =>
    have hP' : Plain past := fun c hc => hP c (List.mem_cons_of_mem _ hc)
    rcases run_ok past hL.1 with ⟨_, w₀, hr₀, hw₀⟩ | ⟨_, hr₀⟩
    · simp only [run, hr₀, Option.bind_some] at hr
      have h0 := ih hP' hL.1 hr₀
      rcases hP c (by simp) with ⟨cls, i, rfl⟩ | ⟨o, rfl⟩ | ⟨o, rfl⟩
      · simp only [step, Option.some.injEq] at hr
        subst hr
        simp only [nativeinit, List.length_append, List.length_singleton, objects, h0]
      · simp only [step] at hr
        split at hr
        · cases hr; exact h0
        · cases hp : w₀.pointee _ with
          | none => rw [hp] at hr; cases hr
          | some a => rw [hp] at hr; cases hr; exact h0
      · simp only [step] at hr
        split at hr
        · cases hr; exact h0
        · unfold nativedestroy at hr
          split at hr
          · cases hr; exact h0
          · split at hr
            · cases hr
            · split at hr <;> · cases hr; simp only [List.length_set]; exact h0
    · simp only [run, hr₀, Option.bind_none] at hr
      cases hr

/-- **C99.** Java programs which construct, use and drop the filters and contour finders, in any number and any order, with the finalizers
run at any time after the last use: nothing undefined happens, one C++ object is made for each Java object, no two Java objects share
one, an object not yet finalized has its C++ object, of its own class and type, and these are the only C++ objects that exist. -/
theorem C99_plain (past : List NCall) (hL : Legal past) (hP : Plain past) :
    ∃ w, run past = some w ∧ w.cpp.length = objects past ∧
      (∀ o, o < objects past → NCall.finalize o ∉ past → ∃ (j : JavaObject) (a : Nat) (c : CppObject),
        w.java[o]? = some j ∧ j.nativePtr = some a ∧ w.cpp[a]? = some (some c) ∧ some c.cls = classOf o past ∧
          some c.integer = typeOf o past ∧
          ∀ (o' : Nat) (j' : JavaObject), w.java[o']? = some j' → j'.nativePtr = some a → o' = o) ∧
      ∀ a, w.Lives a → ∃ (o : Nat) (j : JavaObject), o < objects past ∧ NCall.finalize o ∉ past ∧ w.java[o]? = some j ∧
        j.nativePtr = some a := by
  obtain ⟨w, hr⟩ := (C99_defined_iff past hL).2 (plain_careful hP hL)
  have hw := run_world hL hr
  refine ⟨w, hr, plain_made hP hL hr, ?_, ?_⟩
  · intro o ho hf
    obtain ⟨i, ht, h1, _⟩ := plain_ownsAs hP hL o ho
    have hlt : o < w.java.length := by rw [hw.len]; exact ho
    have hj : w.java[o]? = some w.java[o] := List.getElem?_eq_getElem hlt
    have hO := hw.obj o _ hj
    rcases hO.pointee hL with ⟨_, a, hp, _, hc⟩ | ⟨hno, _⟩
    · exact ⟨_, a, _, hj, hp, hc, hO.cls.symm, hO.type.symm, fun o' j' hj' hp' => hw.inj o' o j' _ a hj' hj hp' hp⟩
    · exact absurd ⟨i, h1 hf, ht⟩ hno
  · intro a ha
    obtain ⟨o, j, hj, hp⟩ := (run_leak hL hr).2 (plain_tidy hP) a ha
    have hlt := (List.getElem?_eq_some_iff.1 hj).1
    rw [hw.len] at hlt
    refine ⟨o, j, hlt, fun hf => ?_, hj, hp⟩
    obtain ⟨i, hi⟩ := (owner_of_held hw hj hp).1 ha
    obtain ⟨_, _, _, h2⟩ := plain_ownsAs hP hL o hlt
    exact h2 hf i hi

/-- **C99.** When they all have been finalized nothing is left. -/
theorem C99_plain_end (past : List NCall) (hL : Legal past) (hP : Plain past)
    (hall : ∀ o, o < objects past → NCall.finalize o ∈ past) : ∃ w, run past = some w ∧ ∀ a, ¬w.Lives a := by
  obtain ⟨w, hr, _, _, h⟩ := C99_plain past hL hP
  refine ⟨w, hr, fun a ha => ?_⟩
  obtain ⟨o, j, ho, hf, _⟩ := h a ha
  exact hf (hall o ho)

theorem not_careful_run {past : List NCall} (hL : Legal past) (h : ¬Careful past) : run past = none := by
  rcases run_ok past hL with ⟨hc, _⟩ | ⟨_, hr⟩
  · exact absurd hc h
  · exact hr

/-- **C99, false in general.** An explicit release of a threshold filter is followed by a second one, when the virtual machine finalizes the
object: undefined behaviour, whatever happened before. -/
theorem C99_destroy_refuted (past : List NCall) (o : Nat) (hf : classOf o past ≠ some .chang)
    (hL : Legal (.finalize o :: .destroy o :: past)) : run (.finalize o :: .destroy o :: past) = none := by
  refine not_careful_run hL (fun h => ?_)
  rcases ((careful_cons _ _).1 h).2 with ⟨i, hi, _⟩ | h
  · exact ownsAs_cons_release (Or.inl rfl) i hi
  · exact hf h

/-- **C99, false in general.** After `setImageType` with another type a filter can neither be used nor released, not even by the finalizer. -/
theorem C99_type_refuted (past : List NCall) (o : Nat) (i : Bool) (hi : OwnsAs o past i) (c : NCall)
    (hc : c = .use o ∨ c = .destroy o ∨ c = .finalize o) (hL : Legal (c :: .setImageType o (!i) :: past)) :
    run (c :: .setImageType o (!i) :: past) = none := by
  refine not_careful_run hL (fun h => ?_)
  have hno : ¬Owns o (.setImageType o (!i) :: past) := by
    rintro ⟨i', h', ht⟩
    have hm : ¬Makes o (.setImageType o (!i)) past := by rintro (h | ⟨_, _, h, _⟩) <;> cases h
    rw [ownsAs_cons_other hm (by simp) (by simp)] at h'
    have := ObjectOk.unique hL.1.1 hi h'
    subst this
    simp only [typeOf, if_true, Option.some.injEq] at ht
    cases i <;> cases ht
  have hch : classOf o (.setImageType o (!i) :: past) ≠ some .chang := hL.1.2.2 o _ rfl
  have ha := ((careful_cons _ _).1 h).2
  rcases hc with rfl | rfl | rfl
  · exact hno ha
  · rcases ha with h | h
    · exact hno h
    · exact hch h
  · rcases ha with h | h
    · exact hno h
    · exact hch h

/-- **C99, false in general.** A second `nativeinit` loses the first native object for good: whatever is called later, some C++ object exists
which no Java object points to. -/
theorem C99_reinit_refuted (past later : List NCall) (o : Nat) (i : Bool) (hi : OwnsAs o past i)
    (hL : Legal (later ++ .init o :: past)) (w : NWorld) (hr : run (later ++ .init o :: past) = some w) :
    ∃ a, w.Lives a ∧ ¬w.Held a := by
  by_contra hn
  have : w.NoLeak := fun a ha => by
    by_contra h
    exact hn ⟨a, ha, h⟩
  have ht := (run_leak hL hr).1 this
  have key : ∀ l : List NCall, Tidy (l ++ .init o :: past) → False := by
    intro l
    induction l with
    | nil => intro h; exact h.2 o rfl i hi
    | cons c l ih => intro h; exact ih h.1
  exact key later ht

/-- **C99.** The contour finder may be released any number of times, and finalized after that. -/
theorem C99_contour_destroy (past : List NCall) (o n : Nat) (hc : classOf o past = some .chang) (hd : Careful past)
    (hL : Legal past) (ho : o < objects past) (hf : NCall.finalize o ∉ past) :
    ∃ w, run (.finalize o :: (List.replicate n (.destroy o) ++ past)) = some w := by
  have h : Legal (List.replicate n (.destroy o) ++ past) ∧ Careful (List.replicate n (.destroy o) ++ past) ∧
      classOf o (List.replicate n (.destroy o) ++ past) = some .chang ∧ objects (List.replicate n (.destroy o) ++ past) = objects past ∧
      NCall.finalize o ∉ List.replicate n (.destroy o) ++ past := by
    induction n with
    | zero => exact ⟨hL, hd, hc, rfl, hf⟩
    | succ n ih =>
      obtain ⟨h1, h2, h3, h4, h5⟩ := ih
      rw [List.replicate_succ, List.cons_append]
      refine ⟨⟨h1, ?_, fun _ _ h => by cases h⟩, (careful_cons _ _).2 ⟨h2, Or.inr h3⟩, h3, h4, ?_⟩
      · rintro o' ho'
        cases ho'
        exact ⟨by rw [h4]; exact ho, h5⟩
      · intro h
        rcases List.mem_cons.1 h with h | h
        · cases h
        · exact h5 h
  obtain ⟨h1, h2, h3, h4, h5⟩ := h
  have hL' : Legal (.finalize o :: (List.replicate n (.destroy o) ++ past)) := by
    refine ⟨h1, ?_, fun _ _ h => by cases h⟩
    rintro o' ho'
    cases ho'
    exact ⟨by rw [h4]; exact ho, h5⟩
  exact (C99_defined_iff _ hL').2 ((careful_cons _ _).2 ⟨h2, Or.inr h3⟩)

/-- **C99.** But it may not be used after it has been released. -/
theorem C99_contour_released (past : List NCall) (o : Nat) (hL : Legal (.use o :: .destroy o :: past)) :
    run (.use o :: .destroy o :: past) = none := by
  refine not_careful_run hL (fun h => ?_)
  obtain ⟨i, hi, _⟩ := ((careful_cons _ _).1 h).2
  exact ownsAs_cons_release (Or.inl rfl) i hi

/-! A program with three objects, two of which are finalized, the first before the last is constructed. -/

/-- The history, the last call first. -/
def nativeHistory : List NCall :=
  [.finalize 1, .use 2, .use 1, .construct .localMean false, .finalize 0, .use 1, .construct .chang false, .use 0, .use 0,
    .construct .blockOtsu true]

theorem nativeHistory_legal : Legal nativeHistory := by
  simp only [nativeHistory, Legal, objects, NCall.target, classOf]
  simp

theorem nativeHistory_plain : Plain nativeHistory := by
  intro c hc
  simp only [nativeHistory, List.mem_cons, List.not_mem_nil, or_false] at hc
  rcases hc with rfl | rfl | rfl | rfl | rfl | rfl | rfl | rfl | rfl | rfl <;> simp

example : ∃ w, run nativeHistory = some w ∧ w.cpp.length = 3 := by
  obtain ⟨w, h, hl, _⟩ := C99_plain nativeHistory nativeHistory_legal nativeHistory_plain
  exact ⟨w, h, hl⟩

example : run nativeHistory = some ⟨[⟨.blockOtsu, true, some 0⟩, ⟨.chang, false, none⟩, ⟨.localMean, false, some 2⟩],
    [none, none, some ⟨.localMean, false⟩]⟩ := by decide

example : ∃ w, run (.finalize 2 :: nativeHistory) = some w ∧ ∀ a, ¬w.Lives a := by
  refine C99_plain_end _ ?_ ?_ ?_
  · simp only [nativeHistory, Legal, objects, NCall.target, classOf]
    simp
  · intro c hc
    rcases List.mem_cons.1 hc with rfl | hc
    · simp
    · exact nativeHistory_plain c hc
  · intro o ho
    have : o < 3 := ho
    match o, this with
    | 0, _ => simp [nativeHistory]
    | 1, _ => simp [nativeHistory]
    | 2, _ => simp [nativeHistory]

example : run [.finalize 0, .destroy 0, .construct .globalOtsu true] = none :=
  C99_destroy_refuted _ 0 (by decide) (by simp [Legal, objects, NCall.target, classOf])

example : run [.finalize 0, .setImageType 0 false, .construct .globalOtsu true] = none :=
  C99_type_refuted _ 0 true ⟨[], _, _, rfl, Or.inr ⟨.globalOtsu, true, rfl, rfl⟩, rfl, by simp⟩ _ (by simp)
    (by simp [Legal, objects, NCall.target, classOf])

example : ∃ w, run [.finalize 0, .use 0, .init 0, .construct .globalOtsu true] = some w ∧ ∃ a, w.Lives a ∧ ¬w.Held a := by
  refine ⟨_, rfl, ?_⟩
  exact C99_reinit_refuted [.construct .globalOtsu true] [.finalize 0, .use 0] 0 true
    ⟨[], _, _, rfl, Or.inr ⟨.globalOtsu, true, rfl, rfl⟩, rfl, by simp⟩ (by simp [Legal, objects, NCall.target, classOf]) _ rfl

/-- Releasing explicitly and making the object again is careful and tidy. -/
example : ∃ w, run [.use 0, .init 0, .setImageType 0 false, .destroy 0, .construct .globalOtsu true] = some w ∧ w.NoLeak := by
  refine ⟨_, rfl, ?_⟩
  rintro a ⟨c, hc⟩
  refine ⟨0, _, rfl, ?_⟩
  match a, hc with
  | 0, hc => cases hc
  | 1, _ => rfl

example : ∃ w, run (.finalize 0 :: (List.replicate 5 (.destroy 0) ++ [.use 0, .construct .chang true])) = some w :=
  C99_contour_destroy _ 0 5 rfl ((C99_defined_iff _ (by simp [Legal, objects, NCall.target, classOf])).1 ⟨_, rfl⟩)
    (by simp [Legal, objects, NCall.target, classOf]) (by decide) (by decide)

example : run [.use 0, .destroy 0, .construct .chang true] = none :=
  C99_contour_released _ 0 (by simp [Legal, objects, NCall.target, classOf])

end Boof
