import Verif.Proofs.ImageOps
/-
The initializer-list constructor of images.
-/
namespace Boof
variable {V : Type}

theorem getD_of_lt {α : Type} {l : List α} {i : Nat} (d : α) (hi : i < l.length) : l.getD i d = l[i] := by
  simp [List.getD, hi]

/-- The first number with a property. -/
theorem exists_least_index {P : Nat → Prop} {k : Nat} (hk : P k) : ∃ m, P m ∧ ∀ i, i < m → ¬P i := by
  induction k using Nat.strongRecOn with
  | ind k ih =>
    rcases Classical.em (∃ i, i < k ∧ P i) with ⟨i, hi, hp⟩ | c
    · exact ih i hi hp
    · exact ⟨k, hk, fun i hi hp => c ⟨i, hi, hp⟩⟩

/-- Writing to an array that has just been made. -/
theorem painted_oneMore {h h1 : Heap V} {l : List V} {g : Gray} {f : Nat → Nat → Option V} (eb : g.buf = h.next)
    (hp : Painted (h.alloc l) h1 g f) : OneMore h h1 := by
  refine ⟨?_, ?_, ?_, ?_⟩
  · rw [hp.next, Heap.next_alloc]
  · rw [hp.alive, Heap.get_alloc, if_pos rfl]; rfl
  · intro b i hb
    rw [hp.frame b i (by intro x y _ _ c; omega), Heap.cell_alloc, if_neg (by omega)]
  · intro b hb
    rw [hp.alive, Heap.get_alloc, if_neg (by omega)]

/-- Storing rows `0 .. n-1` of a picture whose first `n` rows have the right width. -/
theorem ofRows_fill (z : V) {h : Heap V} {g : Gray} (hv : g.Valid h) (hs : g.subimage = false) (rows : List (List V))
    {n : Nat} (hn : n ≤ g.height) (hw : ∀ i, i < n → (rows.getD i []).length = g.width) :
    Spec (M.loopS n 0 (fun i ptr => Gray.ofRowsRow g.width g.buf ptr (rows.getD i []) z)) h
      (fun ptr h1 => ptr = n * g.width ∧ Painted h h1 g (upto (fun x y => (rows.getD y []).getD x z) n 0)) := by
  obtain ⟨o1, o2⟩ := hv.owner hs
  refine Spec.loopS (I := fun n ptr h1 => ptr = n * g.width ∧
    Painted h h1 g (upto (fun x y => (rows.getD y []).getD x z) n 0))
    ⟨by omega, (Painted.refl h g).congr (fun x y _ _ => by simp [upto])⟩ ?_
  rintro i ptr h1 hi ⟨e, hp⟩
  have hr := hw i hi
  unfold Gray.ofRowsRow
  refine Spec.bind_eq (a := ()) (h' := h1) (by simp only [M.throwIf, hr, bne_self_eq_false]; rfl) ?_
  refine Spec.bind (P := fun _ h2 => Painted h h2 g (upto (fun x y => (rows.getD y []).getD x z) i g.width)) ?_ ?_
  · rw [hr]
    refine Spec.loop (fun x h2 => Painted h h2 g (upto (fun x y => (rows.getD y []).getD x z) i x)) hp ?_
    intro x h2 hx hp2
    refine upto_wr hv hp2 hx (by omega) ?_ rfl
    unfold Gray.addr
    rw [o1, o2, e]; omega
  · intro _ h2 hp2
    refine Spec.pure ⟨by rw [hr, e, Nat.succ_mul], hp2.congr ?_⟩
    intro x' y' hx' hy'
    unfold upto
    by_cases c : y' < i + 1
    · rw [if_pos (by omega), if_pos (by omega)]
    · rw [if_neg (by omega), if_neg (by omega)]

/-- A loop that reaches a throwing iteration throws. -/
theorem loopS_throw_at {β : Type} {n k : Nat} {init s : β} {body : Nat → β → M V β} {h h1 h2 : Heap V} (hk : k < n)
    (e : M.loopS k init body h = .ok s h1) (et : body k s h1 = .throw h2) : M.loopS n init body h = .throw h2 := by
  induction n with
  | zero => omega
  | succ n ih =>
    show M.bind (M.loopS n init body) _ h = _
    by_cases c : k = n
    · subst c
      unfold M.bind; rw [e]; exact et
    · have := ih (by omega)
      unfold M.bind; rw [this]

/-- Rows of equal length give the image with exactly these rows, in an array of its own. -/
theorem ofRows_run (z : V) (h : Heap V) {rows : List (List V)} {w : Nat} (hw : w < P32) (hh : rows.length < P32)
    (ha : w * rows.length < P32) (he : ∀ row ∈ rows, row.length = w) (h0 : rows = [] → w = 0) :
    ∃ g h', Gray.ofRows z rows h = .ok g h' ∧ g.width = w ∧ g.height = rows.length ∧ g.subimage = false ∧
      g.buf = h.next ∧ g.Valid h' ∧ (∀ x y, x < w → y < rows.length → h'.px g x y = (rows[y]?).bind (·[x]?)) ∧
      OneMore h h' := by
  obtain ⟨g, e, eb, e1, e2, es, hv, _⟩ := new_spec z h hw hh ha
  have ew : (if rows.length = 0 then 0 else (rows.headD []).length) = w := by
    cases rows with
    | nil => rw [h0 rfl]; rfl
    | cons r rs => simpa using he r (by simp)
  have hrow : ∀ i, i < rows.length → (rows.getD i []).length = w := by
    intro i hi
    rw [getD_of_lt _ hi]; exact he _ (List.getElem_mem _)
  have hfill := ofRows_fill z hv es rows (n := rows.length) (by omega) (fun i hi => by rw [e1]; exact hrow i hi)
  obtain ⟨ptr, h', el, _, hp⟩ := hfill
  have hg : g = ⟨h.next, w * rows.length, w, rows.length, 0, w, false⟩ := by
    simp only [Gray.new, M.bind_run, M.newArr, wrap32_of_lt ha] at e
    cases e; rfl
  refine ⟨g, h', ?_, e1, e2, es, eb, hp.valid hv hv, ?_, ?_⟩
  · unfold Gray.ofRows
    simp only [ew, wrap32_of_lt ha]
    rw [M.bind_ok (show M.newArr (w * rows.length) z h = .ok h.next (h.alloc (List.replicate (w * rows.length) z)) from rfl)]
    rw [e1, eb] at el
    rw [M.bind_ok el, hg]; rfl
  · intro x y hx hy
    rw [hp.pix x y (by omega) (by omega)]
    unfold upto
    rw [if_pos (Or.inl hy)]
    have hl := hrow y hy
    rw [getD_of_lt _ hy] at hl
    show (some ((rows.getD y []).getD x z)).or _ = _
    rw [getD_of_lt _ hy]
    rw [List.getElem?_eq_getElem hy, getD_of_lt _ (by omega)]
    simp only [Option.bind_some, Option.some_or]
    rw [List.getElem?_eq_getElem (by omega)]
  · exact painted_oneMore eb hp

/-- Rows of different length are refused with an exception.  Existing arrays keep their contents, but the array made for the
picture is not released. -/
theorem ofRows_throws (z : V) (h : Heap V) {first : List V} {rest : List (List V)} (hw : first.length < P32)
    (hh : rest.length + 1 < P32) (ha : first.length * (rest.length + 1) < P32)
    (hne : ∃ row ∈ rest, row.length ≠ first.length) :
    ∃ h', Gray.ofRows z (first :: rest) h = .throw h' ∧ OneMore h h' := by
  have hne' : ∃ k, k < (first :: rest).length ∧ ((first :: rest).getD k []).length ≠ first.length := by
    obtain ⟨row, hr, hl⟩ := hne
    obtain ⟨k, hk, ek⟩ := List.getElem_of_mem hr
    exact ⟨k + 1, by simpa using hk, by
      show ¬(rest.getD k []).length = _
      rw [getD_of_lt _ hk, ek]; exact hl⟩
  obtain ⟨k0, hk0⟩ := hne'
  obtain ⟨k, ⟨hk, hbad⟩, hmin⟩ := exists_least_index
    (P := fun k => k < (first :: rest).length ∧ ((first :: rest).getD k []).length ≠ first.length) hk0
  have hgood : ∀ i, i < k → ((first :: rest).getD i []).length = first.length := by
    intro i hi
    rcases Nat.decEq ((first :: rest).getD i []).length first.length with c | c
    · exact absurd ⟨by omega, c⟩ (hmin i hi)
    · exact c
  obtain ⟨g, e, eb, e1, e2, es, hv, _⟩ := new_spec z h hw hh ha
  obtain ⟨ptr, h1, el, _, hp⟩ := ofRows_fill z hv es (first :: rest) (n := k) (by simp only [List.length_cons] at hk; omega)
    (fun i hi => by rw [e1]; exact hgood i hi)
  refine ⟨h1, ?_, painted_oneMore eb hp⟩
  · unfold Gray.ofRows
    have ew : (if rest.length + 1 = 0 then 0 else ((first :: rest).headD []).length) = first.length := by simp
    simp only [ew, List.length_cons, wrap32_of_lt ha]
    rw [M.bind_ok (show M.newArr (first.length * (rest.length + 1)) z h =
      .ok h.next (h.alloc (List.replicate (first.length * (rest.length + 1)) z)) from rfl)]
    rw [e1, eb] at el
    refine M.bind_throw (loopS_throw_at (k := k) (by simpa using hk) el ?_)
    unfold Gray.ofRowsRow
    refine M.bind_throw ?_
    have : (((first :: rest).getD k []).length != first.length) = true := by simpa using hbad
    simp only [M.throwIf, this]; rfl

end Boof
