import Verif.Spec.Native
import Verif.Proofs.TwoStage
namespace Boof
variable {V α β : Type}

theorem J.bind_ok {m : J V α} {f : α → J V β} {s s' : Jvm V} {a : α} (hm : m s = .ok a s') : (m >>= f) s = f a s' := by
  show (match m s with | .ok a s' => f a s' | .throw s' => .throw s' | .ub => .ub | .timeout => .timeout) = _
  rw [hm]

theorem J.bind_throw {m : J V α} {f : α → J V β} {s s' : Jvm V} (hm : m s = .throw s') : (m >>= f) s = .throw s' := by
  show (match m s with | .ok a s' => f a s' | .throw s' => .throw s' | .ub => .ub | .timeout => .timeout) = _
  rw [hm]

theorem J.bind_ub {m : J V α} {f : α → J V β} {s : Jvm V} (hm : m s = .ub) : (m >>= f) s = .ub := by
  show (match m s with | .ok a s' => f a s' | .throw s' => .throw s' | .ub => .ub | .timeout => .timeout) = _
  rw [hm]

theorem J.lift_ok {m : M V α} {h h' : Heap V} {a : α} {pins : List Pin} (e : m h = .ok a h') :
    J.lift m ⟨h, pins⟩ = .ok a ⟨h', pins⟩ := by
  show (match m h with | .ok a h => _ | .throw h => _ | .ub => _ | .timeout => _) = _
  rw [e]

theorem J.lift_throw {m : M V α} {h h' : Heap V} {pins : List Pin} (e : m h = .throw h') :
    J.lift m ⟨h, pins⟩ = .throw ⟨h', pins⟩ := by
  show (match m h with | .ok a h => _ | .throw h => _ | .ub => _ | .timeout => _) = _
  rw [e]

/-- The image C++ makes of a Java image whose array has `len` elements and is at `p`. -/
def JImage.view (j : JImage) (len p : Nat) : Gray :=
  ⟨p, len, j.width.toNat, j.height.toNat, j.startIndex.toNat, j.stride.toNat, true⟩

theorem JImage.Ok.wrap (z : V) {h : Heap V} {j : JImage} {a : Nat} {l : List V} (hj : j.Ok h) (ha : j.data = some a)
    (hl : h.get a = some l) (pins : List Pin) :
    wrapCritical z j ⟨h, pins⟩ = .ok (j.view l.length 0) ⟨h.alloc [], pins⟩ := by
  obtain ⟨a', l', e1, e2, e3, -⟩ := hj.array
  rw [ha] at e1; cases e1
  rw [hl] at e2; cases e2
  have hlt := Heap.lt_next_of_get hl
  have hw := hj.width; have hh := hj.height; have hs := hj.start; have ht := hj.stride
  unfold wrapCritical
  have e0 : (Gray.new z 0 0 : M V Gray) h = .ok ⟨h.next, 0, 0, 0, 0, 0, false⟩ (h.alloc []) := rfl
  rw [J.bind_ok (J.lift_ok e0)]
  rw [ha]
  have e4 : (J.arrayLength a : J V Nat) ⟨h.alloc [], pins⟩ = .ok l.length ⟨h.alloc [], pins⟩ := by
    unfold J.arrayLength
    simp only []
    rw [Heap.get_alloc, if_neg (by omega), hl]
  simp only []
  rw [J.bind_ok e4]
  refine J.lift_ok ?_
  unfold Gray.assign
  rw [if_neg (by decide), if_pos (show (Gray.wrap 0 _ _ _ _ _).subimage = true from rfl)]
  show Res.ok _ _ = _
  unfold JImage.view Gray.wrap
  simp only []
  rw [toU32_of_nonneg (by omega) (by unfold P32; omega), toU32_of_nonneg (by omega) (by unfold P32; omega),
    toU32_of_nonneg (by omega) (by unfold P32; omega), toU32_of_nonneg (by omega) (by unfold P32; omega),
    toU32_of_nonneg (by omega) (by unfold P32; omega)]
  rfl

/-- What pinning does. -/
structure Pinned (h h1 : Heap V) (a p : Nat) : Prop where
  frame : ∀ b, b < h.next → h1.get b = h.get b
  same : h1.get p = h.get a
  place : (p = a ∧ h1.next = h.next) ∨ (p = h.next ∧ h1.next = h.next + 1)

theorem pin_run (c : Bool) {h : Heap V} {a : Nat} {l : List V} (hl : h.get a = some l) (pins : List Pin) :
    ∃ p h1, J.pin c a ⟨h, pins⟩ = .ok p ⟨h1, ⟨a, p⟩ :: pins⟩ ∧ Pinned h h1 a p := by
  unfold J.pin
  simp only [hl]
  cases c with
  | true =>
    exact ⟨_, _, by rw [if_pos rfl], ⟨fun b hb => by rw [Heap.get_alloc, if_neg (by omega)],
      by rw [Heap.get_alloc, if_pos rfl, hl], Or.inr ⟨rfl, Heap.next_alloc _⟩⟩⟩
  | false => exact ⟨a, h, by rw [if_neg (by decide)], ⟨fun _ _ => rfl, rfl, Or.inl ⟨rfl, rfl⟩⟩⟩

/-- What giving an array back does. -/
structure Returned (h h1 : Heap V) (a p : Nat) (mode : J.Mode) : Prop where
  frame : ∀ b, b ≠ p → b ≠ a → h1.get b = h.get b
  commit : mode = .commit → h1.get a = h.get p
  abort : mode = .abort → h1.get a = h.get a
  next : h1.next = h.next

theorem release_run {h : Heap V} {a p : Nat} {l l' : List V} (ha : h.get a = some l) (hp : h.get p = some l') {pins : List Pin}
    (hm : (⟨a, p⟩ : Pin) ∈ pins) (mode : J.Mode) :
    ∃ h1, J.release a (some p) mode ⟨h, pins⟩ = .ok () ⟨h1, pins.erase ⟨a, p⟩⟩ ∧ Returned h h1 a p mode := by
  unfold J.release
  simp only []
  rw [if_pos hm]
  by_cases e : p = a
  · subst e
    exact ⟨h, by rw [if_pos rfl], ⟨fun _ _ _ => rfl, fun _ => rfl, fun _ => rfl, rfl⟩⟩
  · rw [if_neg e, hp]
    have halt := Heap.lt_next_of_get ha
    cases mode with
    | commit =>
      refine ⟨⟨(h.free p).bufs.set a (some l')⟩, rfl, ?_, ?_, by simp, ?_⟩
      · intro b h1 h2
        have := Heap.get_free (h := h) p b
        rw [if_neg h1] at this
        rw [← this]
        unfold Heap.get
        simp only []
        rw [List.getElem?_set_ne (by omega)]
      · intro _
        rw [hp]
        unfold Heap.get
        simp only []
        have hln : a < (h.free p).bufs.length := by
          have := Heap.next_free (h := h) p
          unfold Heap.next at this halt
          omega
        rw [List.getElem?_set_self hln]
        rfl
      · have := Heap.next_free (h := h) p
        unfold Heap.next at this ⊢
        simp only [List.length_set]
        exact this
    | abort =>
      refine ⟨h.free p, rfl, ?_, by simp, ?_, Heap.next_free p⟩
      · intro b h1 _
        rw [Heap.get_free, if_neg h1]
      · intro _
        rw [Heap.get_free, if_neg (Ne.symm e)]

theorem JImage.Ok.view_valid {h h1 : Heap V} {j : JImage} {a p : Nat} {l : List V} (hj : j.Ok h) (ha : j.data = some a)
    (hl : h.get a = some l) (hp : h1.get p = some l) : (j.view l.length p).Valid h1 := by
  obtain ⟨a', l', e1, e2, e3, e4⟩ := hj.array
  rw [ha] at e1; cases e1
  rw [hl] at e2; cases e2
  have hw := hj.width; have hh := hj.height; have hs := hj.start; have ht := hj.stride
  refine ⟨by show (h1.get p).isSome; rw [hp]; rfl, ?_, ?_, ?_, ?_, ?_, ?_, ?_⟩
  · intro i hi
    have hi : i < l.length := hi
    show ∃ v, h1.cell p i = some v
    unfold Heap.cell
    rw [hp]
    exact ⟨l[i], List.getElem?_eq_getElem hi⟩
  · show l.length < P32
    unfold P32; omega
  · show j.width.toNat < P32
    unfold P32; omega
  · show j.height.toNat < P32
    unfold P32; omega
  · show j.width.toNat ≤ j.stride.toNat
    omega
  · intro y hy
    have hy : y < j.height.toNat := hy
    show j.startIndex.toNat + y * j.stride.toNat + j.width.toNat ≤ l.length
    have := e4 y (by omega)
    have c1 : ((j.startIndex.toNat + y * j.stride.toNat + j.width.toNat : Nat) : Int) = j.startIndex + y * j.stride + j.width := by
      push_cast
      rw [Int.toNat_of_nonneg hs.1, Int.toNat_of_nonneg (by omega), Int.toNat_of_nonneg hw.1]
    omega
  · intro c; cases c

theorem view_shows {h h1 : Heap V} {j : JImage} {a p : Nat} {l : List V} {f : Nat → Nat → V} (ha : j.data = some a)
    (hl : h.get a = some l) (hp : h1.get p = some l) (hf : j.Shows h f) : (j.view l.length p).Shows h1 f := by
  intro x y hx hy
  have hx : x < j.width.toNat := hx
  have hy : y < j.height.toNat := hy
  obtain ⟨a', e1, e2⟩ := hf x y (by omega) (by omega)
  rw [ha] at e1; cases e1
  show h1.cell p (j.addr x y) = some (f x y)
  rw [← e2]
  unfold Heap.cell
  rw [hp, hl]

/-- A C++ operation on two wrapped images, as the native code uses it: `i` is only read, `o` is written with a picture that
satisfies `P`. -/
def Op2At (h : Heap V) (own : Nat → Prop) (w ht : Nat) (f : Nat → Nat → V) (P : (Nat → Nat → V) → Prop) (process : Gray → Gray → M V (α × Gray))
    (Q : α → Heap V → Prop) (h1 : Heap V) (i o : Gray) : Prop :=
  h.next ≤ h1.next → (∀ b, b < h.next → h1.get b = h.get b) →
    i.Valid h1 → o.Valid h1 → i.width = w → i.height = ht → o.width = w → o.height = ht → i.subimage = true → o.subimage = true →
    i.dataLength < 2147483648 → o.dataLength < 2147483648 → i.buf ≠ o.buf → ¬own i.buf → ¬own o.buf → i.Shows h1 f →
    ∃ r h2 F, P F ∧ process i o h1 = .ok (r, o) h2 ∧ o.Shows h2 F ∧ h1.next ≤ h2.next ∧
      (∀ b k, b < h1.next → ¬own b → (∀ x y, x < w → y < ht → ¬(b = o.buf ∧ k = o.addr x y)) → h2.cell b k = h1.cell b k) ∧
      (∀ b, b < h1.next → ¬own b → (h2.get b).isSome = (h1.get b).isSome) ∧
      (∀ h3 : Heap V, (∀ b, own b ∨ h1.next ≤ b → h3.get b = h2.get b) → Q r h3)

def Op2 (h : Heap V) (own : Nat → Prop) (w ht : Nat) (f : Nat → Nat → V) (P : (Nat → Nat → V) → Prop) (process : Gray → Gray → M V (α × Gray))
    (Q : α → Heap V → Prop) : Prop :=
  ∀ (h1 : Heap V) (i o : Gray), Op2At h own w ht f P process Q h1 i o

theorem isSome_get {h : Heap V} {b : Nat} (e : (h.get b).isSome) : ∃ l, h.get b = some l := Option.isSome_iff_exists.mp e

theorem cell_congr {h h' : Heap V} {b b' : Nat} (e : h.get b = h'.get b') (i : Nat) : h.cell b i = h'.cell b' i := by
  unfold Heap.cell; rw [e]

/-- The state of the arrays when the two views have been made: `i` and `o` are the pinned images. -/
structure Views (h h1 : Heap V) (ji jo : JImage) (ai ao : Nat) (li lo : List V) (i o : Gray) : Prop where
  next : h.next ≤ h1.next
  frame : ∀ b, b < h.next → h1.get b = h.get b
  ii : i = ji.view li.length i.buf
  oo : o = jo.view lo.length o.buf
  gi : h1.get i.buf = some li
  go : h1.get o.buf = some lo
  pi : i.buf = ai ∨ h.next ≤ i.buf
  po : o.buf = ao ∨ h.next ≤ o.buf
  ne : i.buf ≠ o.buf

theorem views {h : Heap V} {ji jo : JImage} {ai ao : Nat} {li lo : List V} (hli : h.get ai = some li) (hlo : h.get ao = some lo)
    (hne : ai ≠ ao) {h1 h2 h3 : Heap V} {p q : Nat} (n0 : h.next ≤ h1.next) (f0 : ∀ b, b < h.next → h1.get b = h.get b)
    (p1 : Pinned h1 h2 ai p) (p2 : Pinned h2 h3 ao q) :
    Views h h3 ji jo ai ao li lo (ji.view li.length p) (jo.view lo.length q) := by
  have a1 := Heap.lt_next_of_get hli
  have a2 := Heap.lt_next_of_get hlo
  have l1 : p < h2.next := by rcases p1.place with ⟨c, d⟩ | ⟨c, d⟩ <;> omega
  have n1 : h1.next ≤ h2.next := by rcases p1.place with ⟨c, d⟩ | ⟨c, d⟩ <;> omega
  have n2 : h2.next ≤ h3.next := by rcases p2.place with ⟨c, d⟩ | ⟨c, d⟩ <;> omega
  refine ⟨by omega, fun b hb => ?_, rfl, rfl, ?_, ?_, ?_, ?_, ?_⟩
  · rw [p2.frame b (by omega), p1.frame b (by omega), f0 b hb]
  · show h3.get p = some li
    rw [p2.frame p l1, p1.same, f0 ai a1, hli]
  · show h3.get q = some lo
    rw [p2.same, p1.frame ao (by omega), f0 ao a2, hlo]
  · show p = ai ∨ h.next ≤ p
    rcases p1.place with ⟨c, d⟩ | ⟨c, d⟩ <;> omega
  · show q = ao ∨ h.next ≤ q
    rcases p2.place with ⟨c, d⟩ | ⟨c, d⟩ <;> omega
  · show p ≠ q
    rcases p1.place with ⟨c, d⟩ | ⟨c, d⟩ <;> rcases p2.place with ⟨c', d'⟩ | ⟨c', d'⟩ <;> omega

/-- The arrays have been given back. -/
structure Finished (h hA hB hC : Heap V) (ao q : Nat) : Prop where
  keep : ∀ b, b < h.next → b ≠ ao → hC.get b = hB.get b
  out : hC.get ao = hB.get q
  fresh : ∀ b, hA.next ≤ b → hC.get b = hB.get b
  next : hC.next = hB.next

theorem erase_second {a b : Pin} (l : List Pin) (hne : a ≠ b) : (a :: b :: l).erase b = a :: l := by
  simp [List.erase_cons, hne]

theorem erase_first {a : Pin} (l : List Pin) : (a :: l).erase a = l := by
  simp

theorem finish_inputFirst {h hA hB : Heap V} {ji jo : JImage} {ai ao : Nat} {li lo : List V} {i o : Gray}
    (hv : Views h hA ji jo ai ao li lo i o) (hli : h.get ai = some li) (hlo : h.get ao = some lo) (hne : ai ≠ ao)
    (l1 : (hB.get ai).isSome) (l2 : (hB.get ao).isSome) (l3 : (hB.get i.buf).isSome) (l4 : (hB.get o.buf).isSome)
    (pins : List Pin) :
    ∃ hM hC, J.release ai (some i.buf) .abort ⟨hB, ⟨ao, o.buf⟩ :: ⟨ai, i.buf⟩ :: pins⟩ = .ok () ⟨hM, ⟨ao, o.buf⟩ :: pins⟩ ∧
      J.release ao (some o.buf) .commit ⟨hM, ⟨ao, o.buf⟩ :: pins⟩ = .ok () ⟨hC, pins⟩ ∧ Finished h hA hB hC ao o.buf := by
  have a1 := Heap.lt_next_of_get hli
  have a2 := Heap.lt_next_of_get hlo
  have a3 := Heap.lt_next_of_get hv.gi
  have a4 := Heap.lt_next_of_get hv.go
  have hn := hv.next
  have hpi := hv.pi; have hpo := hv.po; have hio := hv.ne
  obtain ⟨m1, k1⟩ := isSome_get l1
  obtain ⟨m2, k2⟩ := isSome_get l2
  obtain ⟨m3, k3⟩ := isSome_get l3
  obtain ⟨m4, k4⟩ := isSome_get l4
  obtain ⟨hM, e1, r1⟩ := release_run k1 k3 (pins := ⟨ao, o.buf⟩ :: ⟨ai, i.buf⟩ :: pins) (by simp) .abort
  rw [erase_second _ (by intro c; injection c with c1; exact hne c1.symm)] at e1
  have g1 : hM.get ao = some m2 := by rw [r1.frame ao (by omega) (by omega)]; exact k2
  have g2 : hM.get o.buf = some m4 := by rw [r1.frame o.buf (by omega) (by omega)]; exact k4
  obtain ⟨hC, e2, r2⟩ := release_run g1 g2 (pins := ⟨ao, o.buf⟩ :: pins) (by simp) .commit
  rw [erase_first] at e2
  refine ⟨hM, hC, e1, e2, ?_, ?_, ?_, by rw [r2.next, r1.next]⟩
  · intro b hb hbo
    rw [r2.frame b (by omega) hbo]
    by_cases c : b = ai
    · rw [c]; exact r1.abort rfl
    · exact r1.frame b (by omega) c
  · rw [r2.commit rfl]; exact r1.frame _ (by omega) (by omega)
  · intro b hb
    rw [r2.frame b (by omega) (by omega), r1.frame b (by omega) (by omega)]

theorem finish_outputFirst {h hA hB : Heap V} {ji jo : JImage} {ai ao : Nat} {li lo : List V} {i o : Gray}
    (hv : Views h hA ji jo ai ao li lo i o) (hli : h.get ai = some li) (hlo : h.get ao = some lo) (hne : ai ≠ ao)
    (l1 : (hB.get ai).isSome) (l2 : (hB.get ao).isSome) (l3 : (hB.get i.buf).isSome) (l4 : (hB.get o.buf).isSome)
    (pins : List Pin) :
    ∃ hM hC, J.release ao (some o.buf) .commit ⟨hB, ⟨ao, o.buf⟩ :: ⟨ai, i.buf⟩ :: pins⟩ = .ok () ⟨hM, ⟨ai, i.buf⟩ :: pins⟩ ∧
      J.release ai (some i.buf) .abort ⟨hM, ⟨ai, i.buf⟩ :: pins⟩ = .ok () ⟨hC, pins⟩ ∧ Finished h hA hB hC ao o.buf := by
  have a1 := Heap.lt_next_of_get hli
  have a2 := Heap.lt_next_of_get hlo
  have a3 := Heap.lt_next_of_get hv.gi
  have a4 := Heap.lt_next_of_get hv.go
  have hn := hv.next
  have hpi := hv.pi; have hpo := hv.po; have hio := hv.ne
  obtain ⟨m1, k1⟩ := isSome_get l1
  obtain ⟨m2, k2⟩ := isSome_get l2
  obtain ⟨m3, k3⟩ := isSome_get l3
  obtain ⟨m4, k4⟩ := isSome_get l4
  obtain ⟨hM, e1, r1⟩ := release_run k2 k4 (pins := ⟨ao, o.buf⟩ :: ⟨ai, i.buf⟩ :: pins) (by simp) .commit
  rw [erase_first] at e1
  have g1 : hM.get ai = some m1 := by rw [r1.frame ai (by omega) (by omega)]; exact k1
  have g2 : hM.get i.buf = some m3 := by rw [r1.frame i.buf (by omega) (by omega)]; exact k3
  obtain ⟨hC, e2, r2⟩ := release_run g1 g2 (pins := ⟨ai, i.buf⟩ :: pins) (by simp) .abort
  rw [erase_first] at e2
  refine ⟨hM, hC, e1, e2, ?_, ?_, ?_, by rw [r2.next, r1.next]⟩
  · intro b hb hbo
    by_cases c : b = ai
    · rw [c, r2.abort rfl]; exact r1.frame _ (by omega) (by omega)
    · rw [r2.frame b (by omega) c]
      exact r1.frame b (by omega) (by omega)
  · rw [r2.frame _ (by omega) (by omega)]; exact r1.commit rfl
  · intro b hb
    rw [r2.frame b (by omega) (by omega), r1.frame b (by omega) (by omega)]

/-- The effect seen from Java. -/
theorem javaEffect {h hA hB hC : Heap V} {ji jo : JImage} {ai ao : Nat} {li lo : List V} {i o : Gray} {own : Nat → Prop}
    {F : Nat → Nat → V} (hv : Views h hA ji jo ai ao li lo i o) (hlo : h.get ao = some lo) (hao : jo.data = some ao)
    (hno : ¬own ao) (hob : ¬own o.buf) (hs : o.Shows hB F)
    (hfr : ∀ b k, b < hA.next → ¬own b → (∀ x y, x < jo.width.toNat → y < jo.height.toNat → ¬(b = o.buf ∧ k = o.addr x y)) →
      hB.cell b k = hA.cell b k)
    (hal : ∀ b, b < hA.next → ¬own b → (hB.get b).isSome = (hA.get b).isSome)
    (hf : Finished h hA hB hC ao o.buf) (pins : List Pin) : JavaEffect ⟨h, pins⟩ ⟨hC, pins⟩ own jo F := by
  have a2 := Heap.lt_next_of_get hlo
  have a4 := Heap.lt_next_of_get hv.go
  have hn := hv.next
  have hpo := hv.po
  have hoa : ∀ x y, o.addr x y = jo.addr x y := fun x y => by
    have := hv.oo
    unfold Gray.addr
    rw [this]; rfl
  have how : o.width = jo.width.toNat := by rw [hv.oo]; rfl
  have hoh : o.height = jo.height.toNat := by rw [hv.oo]; rfl
  refine ⟨rfl, ?_, ?_, ?_⟩
  · intro x y hx hy
    refine ⟨ao, hao, ?_⟩
    have := hs x y (by omega) (by omega)
    show hC.cell ao (jo.addr x y) = _
    rw [cell_congr hf.out, ← hoa]
    exact this
  · intro b k hb hnb hpx
    have hb : b < h.next := hb
    show hC.cell b k = h.cell b k
    by_cases c : b = ao
    · subst c
      rw [cell_congr hf.out, hfr o.buf k a4 hob (fun x y hx hy e => hpx x y (by omega) (by omega) ⟨hao, by rw [← hoa]; exact e.2⟩)]
      exact cell_congr (by rw [hv.go, hlo]) k
    · rw [cell_congr (hf.keep b hb c), hfr b k (by omega) hnb (fun x y _ _ e => by omega)]
      exact cell_congr (hv.frame b hb) k
  · intro b hb hnb
    have hb : b < h.next := hb
    show (hC.get b).isSome = (h.get b).isSome
    by_cases c : b = ao
    · subst c
      rw [hf.out, hal _ a4 hob, hv.go, hlo]
    · rw [hf.keep b hb c, hal b (by omega) hnb, hv.frame b hb]

theorem JImage.Ok.length_lt {h : Heap V} {j : JImage} {a : Nat} {l : List V} (hj : j.Ok h) (ha : j.data = some a)
    (hl : h.get a = some l) : l.length < 2147483648 := by
  obtain ⟨a', l', e1, e2, e3, -⟩ := hj.array
  rw [ha] at e1; cases e1
  rw [hl] at e2; cases e2
  exact e3

/-- What a call from Java with two images does, put together: everything up to the releases. -/
theorem native_run2R (z : V) {h : Heap V} {ji jo : JImage} {ai ao : Nat} {li lo : List V} (hji : ji.Ok h) (hjo : jo.Ok h)
    (hai : ji.data = some ai) (hao : jo.data = some ao) (hli : h.get ai = some li) (hlo : h.get ao = some lo) (hne : ai ≠ ao)
    (hw : jo.width = ji.width) (hh : jo.height = ji.height) {own : Nat → Prop} (hownLt : ∀ b, own b → b < h.next)
    (hni : ¬own ai) (hno : ¬own ao) {f : Nat → Nat → V} {P : (Nat → Nat → V) → Prop} (hf : ji.Shows h f) {process : Gray → Gray → M V (α × Gray)}
    {Q : α → Heap V → Prop} {R : Gray → Gray → Prop} (hop : ∀ (h1 : Heap V) (i o : Gray), R i o → Op2At h own ji.width.toNat ji.height.toNat f P process Q h1 i o)
    (hR : ∀ p q, R (ji.view li.length p) (jo.view lo.length q))
    {h1 h2 h3 : Heap V} {p q : Nat} (n0 : h.next ≤ h1.next) (f0 : ∀ b, b < h.next → h1.get b = h.get b)
    (p1 : Pinned h1 h2 ai p) (p2 : Pinned h2 h3 ao q) :
    ∃ r hB F, P F ∧ process (ji.view li.length p) (jo.view lo.length q) h3 = .ok (r, jo.view lo.length q) hB ∧
      Views h h3 ji jo ai ao li lo (ji.view li.length p) (jo.view lo.length q) ∧
      (hB.get ai).isSome ∧ (hB.get ao).isSome ∧ (hB.get p).isSome ∧ (hB.get q).isSome ∧ h.next ≤ hB.next ∧
      (∀ hC, Finished h h3 hB hC ao q → ∀ pins, JavaEffect ⟨h, pins⟩ ⟨hC, pins⟩ own jo F ∧ Q r hC) := by
  have hv := views (ji := ji) (jo := jo) hli hlo hne n0 f0 p1 p2
  have a1 := Heap.lt_next_of_get hli
  have a2 := Heap.lt_next_of_get hlo
  have a3 := Heap.lt_next_of_get hv.gi
  have a4 := Heap.lt_next_of_get hv.go
  have hn := hv.next
  have hpi : p = ai ∨ h.next ≤ p := hv.pi
  have hpo : q = ao ∨ h.next ≤ q := hv.po
  have oi : ¬own p := fun c => by
    have := hownLt _ c
    rcases hpi with e | e
    · rw [e] at c; exact hni c
    · omega
  have oo : ¬own q := fun c => by
    have := hownLt _ c
    rcases hpo with e | e
    · rw [e] at c; exact hno c
    · omega
  obtain ⟨r, hB, F, hPF, e, sh, nB, fr, al, hq⟩ := hop h3 (ji.view li.length p) (jo.view lo.length q) (hR p q) hn hv.frame
    (hji.view_valid hai hli hv.gi) (hjo.view_valid hao hlo hv.go) rfl rfl (by rw [← hw]; rfl) (by rw [← hh]; rfl) rfl rfl
    (hji.length_lt hai hli) (hjo.length_lt hao hlo) hv.ne oi oo
    (view_shows hai hli hv.gi hf)
  refine ⟨r, hB, F, hPF, e, hv, ?_, ?_, ?_, ?_, by omega, fun hC hfin pins => ⟨?_, ?_⟩⟩
  · rw [al ai (by omega) hni, hv.frame ai a1, hli]; rfl
  · rw [al ao (by omega) hno, hv.frame ao a2, hlo]; rfl
  · rw [al p a3 oi]; exact congrArg Option.isSome hv.gi
  · rw [al q a4 oo]; exact congrArg Option.isSome hv.go
  · refine javaEffect hv hlo hao hno oo sh (fun b k hb hnb hpx => fr b k hb hnb (fun x y hx hy => hpx x y (by omega) (by omega))) al hfin pins
  · refine hq hC (fun b hb => ?_)
    rcases hb with hb | hb
    · exact hfin.keep b (hownLt b hb) (fun c => hno (c ▸ hb))
    · exact hfin.fresh b hb

theorem native_run2 (z : V) {h : Heap V} {ji jo : JImage} {ai ao : Nat} {li lo : List V} (hji : ji.Ok h) (hjo : jo.Ok h)
    (hai : ji.data = some ai) (hao : jo.data = some ao) (hli : h.get ai = some li) (hlo : h.get ao = some lo) (hne : ai ≠ ao)
    (hw : jo.width = ji.width) (hh : jo.height = ji.height) {own : Nat → Prop} (hownLt : ∀ b, own b → b < h.next)
    (hni : ¬own ai) (hno : ¬own ao) {f : Nat → Nat → V} {P : (Nat → Nat → V) → Prop} (hf : ji.Shows h f) {process : Gray → Gray → M V (α × Gray)}
    {Q : α → Heap V → Prop} (hop : Op2 h own ji.width.toNat ji.height.toNat f P process Q)
    {h1 h2 h3 : Heap V} {p q : Nat} (n0 : h.next ≤ h1.next) (f0 : ∀ b, b < h.next → h1.get b = h.get b)
    (p1 : Pinned h1 h2 ai p) (p2 : Pinned h2 h3 ao q) :
    ∃ r hB F, P F ∧ process (ji.view li.length p) (jo.view lo.length q) h3 = .ok (r, jo.view lo.length q) hB ∧
      Views h h3 ji jo ai ao li lo (ji.view li.length p) (jo.view lo.length q) ∧
      (hB.get ai).isSome ∧ (hB.get ao).isSome ∧ (hB.get p).isSome ∧ (hB.get q).isSome ∧ h.next ≤ hB.next ∧
      (∀ hC, Finished h h3 hB hC ao q → ∀ pins, JavaEffect ⟨h, pins⟩ ⟨hC, pins⟩ own jo F ∧ Q r hC) :=
  native_run2R z hji hjo hai hao hli hlo hne hw hh hownLt hni hno hf (R := fun _ _ => True) (fun h1 i o _ => hop h1 i o)
    (fun _ _ => trivial) n0 f0 p1 p2

theorem JImage.Ok.alloc {h : Heap V} {j : JImage} (hj : j.Ok h) (l : List V) : j.Ok (h.alloc l) :=
  { hj with
    array := by
      obtain ⟨a, l, e1, e2, e3⟩ := hj.array
      have := Heap.lt_next_of_get e2
      exact ⟨a, l, e1, by rw [Heap.get_alloc, if_neg (by omega)]; exact e2, e3⟩ }

/-- A threshold filter called from Java. -/
theorem nativeThreshold_run (z : V) {h : Heap V} {ji jo : JImage} (hji : ji.Ok h) (hjo : jo.Ok h) (hne : ji.data ≠ jo.data)
    (hw : jo.width = ji.width) (hh : jo.height = ji.height) {own : Nat → Prop} (hownLt : ∀ b, own b → b < h.next)
    (hown : ∀ b, own b → ji.data ≠ some b ∧ jo.data ≠ some b) {f : Nat → Nat → V} {P : (Nat → Nat → V) → Prop}
    (hf : ji.Shows h f)
    {process : Gray → Gray → M V (α × Gray)} {Q : α → Heap V → Prop}
    (hop : Op2 h own ji.width.toNat ji.height.toNat f P process Q) (c1 c2 : Bool) (pins : List Pin) :
    ∃ r s' F, P F ∧ nativeThreshold z process ji jo c1 c2 ⟨h, pins⟩ = .ok (some r) s' ∧ JavaEffect ⟨h, pins⟩ s' own jo F ∧ Q r s'.heap := by
  obtain ⟨ai, li, hai, hli, -⟩ := hji.array
  obtain ⟨ao, lo, hao, hlo, -⟩ := hjo.array
  have hne' : ai ≠ ao := fun c => hne (by rw [hai, hao, c])
  have a1 := Heap.lt_next_of_get hli
  have a2 := Heap.lt_next_of_get hlo
  have w1 := hjo.wrap z hao hlo pins
  have hli1 : (h.alloc []).get ai = some li := by rw [Heap.get_alloc, if_neg (by omega), hli]
  have hji1 : ji.Ok (h.alloc []) := hji.alloc []
  have w2 := hji1.wrap z hai hli1 pins
  have f0 : ∀ b, b < h.next → ((h.alloc []).alloc []).get b = h.get b := fun b hb => by
    rw [Heap.get_alloc, if_neg (by rw [Heap.next_alloc]; omega), Heap.get_alloc, if_neg (by omega)]
  have n0 : h.next ≤ ((h.alloc []).alloc []).next := by rw [Heap.next_alloc, Heap.next_alloc]; omega
  obtain ⟨p, h2, e1, p1⟩ := pin_run c1 (h := (h.alloc []).alloc []) (a := ai) (by rw [f0 ai a1]; exact hli) pins
  obtain ⟨q, h3, e2, p2⟩ := pin_run c2 (h := h2) (a := ao)
    (by rw [p1.frame ao (by omega), f0 ao a2]; exact hlo) (⟨ai, p⟩ :: pins)
  obtain ⟨r, hB, F, hPF, e3, hv, l1, l2, l3, l4, -, hend⟩ := native_run2 z hji hjo hai hao hli hlo hne' hw hh hownLt
    (fun c => (hown ai c).1 hai) (fun c => (hown ao c).2 hao) hf hop n0 f0 p1 p2
  obtain ⟨hM, hC, r1, r2, hfin⟩ := finish_inputFirst hv hli hlo hne' l1 l2 l3 l4 pins
  refine ⟨r, ⟨hC, pins⟩, F, hPF, ?_, hend hC hfin pins⟩
  unfold nativeThreshold
  refine (J.bind_ok w1).trans ?_
  simp only [w2, hai, hao, Option.getD_some]
  refine (J.bind_ok e1).trans ((J.bind_ok e2).trans ?_)
  have e3' : J.lift (process { ji.view li.length 0 with buf := p } { jo.view lo.length 0 with buf := q })
      ⟨h3, ⟨ao, q⟩ :: ⟨ai, p⟩ :: pins⟩ = .ok (r, jo.view lo.length q) ⟨hB, ⟨ao, q⟩ :: ⟨ai, p⟩ :: pins⟩ := J.lift_ok e3
  simp only [e3']
  refine (J.bind_ok r1).trans ?_
  have r2' : releaseOutput jo (some (jo.view lo.length q).buf) ⟨hM, ⟨ao, q⟩ :: pins⟩ = .ok () ⟨hC, pins⟩ := by
    unfold releaseOutput
    rw [hao]
    exact r2
  exact (J.bind_ok r2').trans rfl

theorem Op2.plain {h : Heap V} {own : Nat → Prop} {w ht : Nat} {f F : Nat → Nat → V} {process : Gray → Gray → M V Gray}
    (hop : ∀ (h1 : Heap V) (i o : Gray), h.next ≤ h1.next → (∀ b, b < h.next → h1.get b = h.get b) →
      i.Valid h1 → o.Valid h1 → i.width = w → i.height = ht → o.width = w → o.height = ht → i.subimage = true → o.subimage = true →
      i.dataLength < 2147483648 → o.dataLength < 2147483648 → i.buf ≠ o.buf → ¬own i.buf → ¬own o.buf → i.Shows h1 f →
      ∃ o' h2, process i o h1 = .ok o' h2 ∧ (o' = o ∧ Painted h1 h2 o (fun x y => some (F x y)))) :
    Op2 h own w ht f (· = F) (fun i o => process i o >>= fun o => pure ((), o)) (fun _ _ => True) := by
  intro h1 i o a1 a2 a3 a4 a5 a6 a7 a8 a9 a10 a11 a12 a13 a14 a15 a16
  obtain ⟨o', h2, e, rfl, pt⟩ := hop h1 i o a1 a2 a3 a4 a5 a6 a7 a8 a9 a10 a11 a12 a13 a14 a15 a16
  refine ⟨(), h2, F, rfl, (M.bind_ok e).trans rfl, ?_, Nat.le_of_eq pt.next.symm, ?_, fun b _ _ => pt.alive b, fun _ _ => trivial⟩
  · intro x y hx hy
    rw [pt.pix x y hx hy]; rfl
  · intro b k _ _ hpx
    exact pt.frame b k (fun x y hx hy => hpx x y (by omega) (by omega))

/-- A convolution called from Java. -/
theorem nativeConvolve_run (z : V) {h : Heap V} {ji jo : JImage} (hji : ji.Ok h) (hjo : jo.Ok h) (hne : ji.data ≠ jo.data)
    (hw : jo.width = ji.width) (hh : jo.height = ji.height) {f F : Nat → Nat → V} (hf : ji.Shows h f)
    {process : Gray → Gray → M V Gray}
    (hop : Op2 h (fun _ => False) ji.width.toNat ji.height.toNat f (· = F) (fun i o => process i o >>= fun o => pure ((), o)) (fun _ _ => True))
    (outputFirst c1 c2 : Bool) (pins : List Pin) :
    ∃ s', nativeConvolve z process outputFirst ji jo c1 c2 ⟨h, pins⟩ = .ok () s' ∧ JavaEffect ⟨h, pins⟩ s' (fun _ => False) jo F := by
  obtain ⟨ai, li, hai, hli, -⟩ := hji.array
  obtain ⟨ao, lo, hao, hlo, -⟩ := hjo.array
  have hne' : ai ≠ ao := fun c => hne (by rw [hai, hao, c])
  have a1 := Heap.lt_next_of_get hli
  have a2 := Heap.lt_next_of_get hlo
  have w1 := hji.wrap z hai hli pins
  have hlo1 : (h.alloc []).get ao = some lo := by rw [Heap.get_alloc, if_neg (by omega), hlo]
  have w2 := (hjo.alloc []).wrap z hao hlo1 pins
  have f0 : ∀ b, b < h.next → ((h.alloc []).alloc []).get b = h.get b := fun b hb => by
    rw [Heap.get_alloc, if_neg (by rw [Heap.next_alloc]; omega), Heap.get_alloc, if_neg (by omega)]
  have n0 : h.next ≤ ((h.alloc []).alloc []).next := by rw [Heap.next_alloc, Heap.next_alloc]; omega
  obtain ⟨p, h2, e1, p1⟩ := pin_run c1 (h := (h.alloc []).alloc []) (a := ai) (by rw [f0 ai a1]; exact hli) pins
  obtain ⟨q, h3, e2, p2⟩ := pin_run c2 (h := h2) (a := ao)
    (by rw [p1.frame ao (by omega), f0 ao a2]; exact hlo) (⟨ai, p⟩ :: pins)
  obtain ⟨r, hB, _, rfl, e3, hv, l1, l2, l3, l4, -, hend⟩ := native_run2 z hji hjo hai hao hli hlo hne' hw hh (fun _ c => c.elim)
    (fun c => c) (fun c => c) hf hop n0 f0 p1 p2
  have e3 : process (ji.view li.length p) (jo.view lo.length q) h3 = .ok (jo.view lo.length q) hB := by
    cases e : process (ji.view li.length p) (jo.view lo.length q) h3 with
    | ok o' h' =>
      rw [M.bind_ok e] at e3
      cases e3
      rfl
    | throw h' => rw [M.bind_throw e] at e3; cases e3
    | ub => rw [M.bind_ub e] at e3; cases e3
    | timeout =>
      have : (process (ji.view li.length p) (jo.view lo.length q) >>= fun o => pure ((), o) : M V (Unit × Gray)) h3 = .timeout := by
        show M.bind _ _ _ = _
        unfold M.bind
        rw [e]
      rw [this] at e3; cases e3
  have e3' : J.lift (process { ji.view li.length 0 with buf := p } { jo.view lo.length 0 with buf := q })
      ⟨h3, ⟨ao, q⟩ :: ⟨ai, p⟩ :: pins⟩ = .ok (jo.view lo.length q) ⟨hB, ⟨ao, q⟩ :: ⟨ai, p⟩ :: pins⟩ := J.lift_ok e3
  have hrun : ∀ s', (if outputFirst then (do
        J.release ao (some q) .commit
        J.release ai (some p) .abort : J V Unit)
      else do
        J.release ai (some p) .abort
        J.release ao (some q) .commit) ⟨hB, ⟨ao, q⟩ :: ⟨ai, p⟩ :: pins⟩ = .ok () s' →
      nativeConvolve z process outputFirst ji jo c1 c2 ⟨h, pins⟩ = .ok () s' := by
    intro s' hs'
    unfold nativeConvolve
    refine (J.bind_ok w1).trans ((J.bind_ok w2).trans ?_)
    simp only [hai, hao, Option.getD_some]
    exact (J.bind_ok e1).trans ((J.bind_ok e2).trans ((J.bind_ok e3').trans hs'))
  cases outputFirst with
  | true =>
    obtain ⟨hM, hC, r1, r2, hfin⟩ := finish_outputFirst hv hli hlo hne' l1 l2 l3 l4 pins
    exact ⟨⟨hC, pins⟩, hrun _ ((J.bind_ok r1).trans r2), (hend hC hfin pins).1⟩
  | false =>
    obtain ⟨hM, hC, r1, r2, hfin⟩ := finish_inputFirst hv hli hlo hne' l1 l2 l3 l4 pins
    exact ⟨⟨hC, pins⟩, hrun _ ((J.bind_ok r1).trans r2), (hend hC hfin pins).1⟩

/-- A C++ operation on three wrapped images: `i` is read, `o` is written, `s` is storage. -/
def Op3 (h : Heap V) (w ht : Nat) (f : Nat → Nat → V) (P : (Nat → Nat → V) → Prop) (process : Gray → Gray → Gray → M V (Gray × Gray)) : Prop :=
  ∀ (h1 : Heap V) (i o s : Gray), h.next ≤ h1.next → (∀ b, b < h.next → h1.get b = h.get b) →
    i.Valid h1 → o.Valid h1 → s.Valid h1 → i.width = w → i.height = ht → o.width = w → o.height = ht →
    s.width = w → s.height = ht → i.subimage = true → o.subimage = true → s.subimage = true →
    i.dataLength < 2147483648 → o.dataLength < 2147483648 → s.dataLength < 2147483648 →
    i.buf ≠ o.buf → i.buf ≠ s.buf → s.buf ≠ o.buf → i.Shows h1 f →
    ∃ h2 F, P F ∧ process i o s h1 = .ok (o, s) h2 ∧ o.Shows h2 F ∧ h1.next ≤ h2.next ∧
      (∀ b k, b < h1.next → b ≠ s.buf → (∀ x y, x < w → y < ht → ¬(b = o.buf ∧ k = o.addr x y)) → h2.cell b k = h1.cell b k) ∧
      (∀ b, b < h1.next → (h2.get b).isSome = (h1.get b).isSome)

/-- Blurring called from Java. -/
theorem nativeBlur_run (z : V) {h : Heap V} {ji jo js : JImage} (hji : ji.Ok h) (hjo : jo.Ok h) (hjs : js.Ok h)
    (hne : ji.data ≠ jo.data) (hns : ji.data ≠ js.data) (hos : jo.data ≠ js.data)
    (hw : jo.width = ji.width) (hh : jo.height = ji.height) (hsw : js.width = ji.width) (hsh : js.height = ji.height)
    {f : Nat → Nat → V} {P : (Nat → Nat → V) → Prop} (hf : ji.Shows h f) {process : Gray → Gray → Gray → M V (Gray × Gray)}
    (hop : Op3 h ji.width.toNat ji.height.toNat f P process) (c1 c2 c3 : Bool) (pins : List Pin) :
    ∃ s' F, P F ∧ nativeBlur z process ji jo js c1 c2 c3 ⟨h, pins⟩ = .ok () s' ∧
      JavaEffect ⟨h, pins⟩ s' (fun b => js.data = some b) jo F ∧
      ∀ b, b < h.next → (s'.heap.get b).isSome = (h.get b).isSome := by
  obtain ⟨ai, li, hai, hli, -⟩ := hji.array
  obtain ⟨ao, lo, hao, hlo, -⟩ := hjo.array
  obtain ⟨as, ls, has, hls, hsl, hsf⟩ := hjs.array
  have hne' : ai ≠ ao := fun c => hne (by rw [hai, hao, c])
  have hns' : ai ≠ as := fun c => hns (by rw [hai, has, c])
  have hos' : ao ≠ as := fun c => hos (by rw [hao, has, c])
  have a1 := Heap.lt_next_of_get hli
  have a2 := Heap.lt_next_of_get hlo
  have a3 := Heap.lt_next_of_get hls
  have w1 := hji.wrap z hai hli pins
  have hlo1 : (h.alloc []).get ao = some lo := by rw [Heap.get_alloc, if_neg (by omega), hlo]
  have w2 := (hjo.alloc []).wrap z hao hlo1 pins
  have f1 : ∀ b, b < h.next → ((h.alloc []).alloc []).get b = h.get b := fun b hb => by
    rw [Heap.get_alloc, if_neg (by rw [Heap.next_alloc]; omega), Heap.get_alloc, if_neg (by omega)]
  have w3 := ((hjs.alloc []).alloc []).wrap z has (by rw [f1 as a3]; exact hls) pins
  have n1 : ((h.alloc []).alloc []).next = h.next + 2 := by rw [Heap.next_alloc, Heap.next_alloc]
  have f0 : ∀ b, b < h.next → (((h.alloc []).alloc []).alloc []).get b = h.get b := fun b hb => by
    rw [Heap.get_alloc, if_neg (by omega), f1 b hb]
  have n0 : (((h.alloc []).alloc []).alloc ([] : List V)).next = h.next + 3 := by rw [Heap.next_alloc, n1]
  obtain ⟨p, h2, e1, p1⟩ := pin_run c1 (h := ((h.alloc []).alloc []).alloc []) (a := ai) (by rw [f0 ai a1]; exact hli) pins
  obtain ⟨q, h3, e2, p2⟩ := pin_run c2 (h := h2) (a := ao)
    (by rw [p1.frame ao (by omega), f0 ao a2]; exact hlo) (⟨ai, p⟩ :: pins)
  have hv0 := views (ji := ji) (jo := jo) hli hlo hne' (by omega) f0 p1 p2
  have hn0 := hv0.next
  obtain ⟨r, h4, e3, p3⟩ := pin_run c3 (h := h3) (a := as) (by rw [hv0.frame as a3]; exact hls) (⟨ao, q⟩ :: ⟨ai, p⟩ :: pins)
  have hn4 : h3.next ≤ h4.next := by rcases p3.place with ⟨_, d⟩ | ⟨_, d⟩ <;> omega
  have hplt : p < h3.next := Heap.lt_next_of_get hv0.gi
  have hqlt : q < h3.next := Heap.lt_next_of_get hv0.go
  have hpi : p = ai ∨ h.next ≤ p := hv0.pi
  have hpo : q = ao ∨ h.next ≤ q := hv0.po
  have hpq : p ≠ q := hv0.ne
  have hrs : r = as ∨ h3.next ≤ r := by rcases p3.place with ⟨c, _⟩ | ⟨c, _⟩ <;> omega
  have hv : Views h h4 ji jo ai ao li lo (ji.view li.length p) (jo.view lo.length q) :=
    ⟨by omega, fun b hb => by rw [p3.frame b (by omega), hv0.frame b hb], rfl, rfl, by rw [← hv0.gi]; exact p3.frame p hplt,
      by rw [← hv0.go]; exact p3.frame q hqlt, hv0.pi, hv0.po, hv0.ne⟩
  have gr : h4.get r = some ls := by rw [p3.same, hv0.frame as a3, hls]
  have hrlt := Heap.lt_next_of_get gr
  obtain ⟨hB, F, hPF, e4, sh, nB, fr, al⟩ := hop h4 (ji.view li.length p) (jo.view lo.length q) (js.view ls.length r) hv.next hv.frame
    (hji.view_valid hai hli hv.gi) (hjo.view_valid hao hlo hv.go) (hjs.view_valid has hls gr) rfl rfl (by rw [← hw]; rfl)
    (by rw [← hh]; rfl) (by rw [← hsw]; rfl) (by rw [← hsh]; rfl) rfl rfl rfl (hji.length_lt hai hli) (hjo.length_lt hao hlo)
    (hjs.length_lt has hls) hpq (show p ≠ r by omega) (show r ≠ q by omega) (view_shows hai hli hv.gi hf)
  have al' : ∀ b l, h4.get b = some l → (hB.get b).isSome := fun b l e => by
    rw [al b (Heap.lt_next_of_get e), e]; rfl
  have k1 := al' ai li (by rw [hv.frame ai a1]; exact hli)
  have k2 := al' ao lo (by rw [hv.frame ao a2]; exact hlo)
  have k3 := al' p li hv.gi
  have k4 := al' q lo hv.go
  have e4' : J.lift (process { ji.view li.length 0 with buf := p } { jo.view lo.length 0 with buf := q }
      { js.view ls.length 0 with buf := r }) ⟨h4, ⟨as, r⟩ :: ⟨ao, q⟩ :: ⟨ai, p⟩ :: pins⟩ =
      .ok (jo.view lo.length q, js.view ls.length r) ⟨hB, ⟨as, r⟩ :: ⟨ao, q⟩ :: ⟨ai, p⟩ :: pins⟩ := J.lift_ok e4
  obtain ⟨m1, k1⟩ := isSome_get k1
  obtain ⟨m2, k2⟩ := isSome_get k2
  obtain ⟨m3, k3⟩ := isSome_get k3
  obtain ⟨m4, k4⟩ := isSome_get k4
  obtain ⟨m5, k5⟩ := isSome_get (al' as ls (by rw [hv.frame as a3]; exact hls))
  obtain ⟨m6, k6⟩ := isSome_get (al' r ls gr)
  obtain ⟨hM, x1, r1⟩ := release_run k1 k3 (pins := ⟨as, r⟩ :: ⟨ao, q⟩ :: ⟨ai, p⟩ :: pins) (by simp) .abort
  have q1 : (⟨as, r⟩ :: ⟨ao, q⟩ :: ⟨ai, p⟩ :: pins : List Pin).erase ⟨ai, p⟩ = ⟨as, r⟩ :: ⟨ao, q⟩ :: pins := by
    simp [List.erase_cons, Ne.symm hns', Ne.symm hne']
  rw [q1] at x1
  have g1 : hM.get ao = some m2 := by rw [r1.frame ao (by omega) (by omega)]; exact k2
  have g2 : hM.get q = some m4 := by rw [r1.frame q (by omega) (by omega)]; exact k4
  obtain ⟨hC, x2, r2⟩ := release_run g1 g2 (pins := ⟨as, r⟩ :: ⟨ao, q⟩ :: pins) (by simp) .commit
  rw [erase_second _ (by intro c; injection c with c1; exact hos' c1.symm)] at x2
  have g3 : hC.get as = some m5 := by
    rw [r2.frame as (by omega) (by omega), r1.frame as (by omega) (by omega)]; exact k5
  have g4 : hC.get r = some m6 := by
    rw [r2.frame r (by omega) (by omega), r1.frame r (by omega) (by omega)]; exact k6
  obtain ⟨hD, x3, r3⟩ := release_run g3 g4 (pins := ⟨as, r⟩ :: pins) (by simp) .abort
  rw [erase_first] at x3
  have hfin : Finished h h4 hB hC ao q := by
    refine ⟨?_, ?_, ?_, by rw [r2.next, r1.next]⟩
    · intro b hb hbo
      rw [r2.frame b (by omega) hbo]
      by_cases c : b = ai
      · rw [c]; exact r1.abort rfl
      · exact r1.frame b (by omega) c
    · rw [r2.commit rfl]; exact r1.frame _ (by omega) (by omega)
    · intro b hb
      rw [r2.frame b (by omega) (by omega), r1.frame b (by omega) (by omega)]
  have hJ := javaEffect (own := fun b => b = as ∨ b = r) (F := F) hv hlo hao (by omega) (show ¬(q = as ∨ q = r) by omega) sh
    (fun b k hb hnb hpx => fr b k hb (fun c => hnb (Or.inr c)) (fun x y hx hy => hpx x y (by omega) (by omega)))
    (fun b hb _ => al b hb) hfin pins
  have hD' : ∀ b, b < h.next → b ≠ as → hD.get b = hC.get b := fun b hb hbs => r3.frame b (by omega) hbs
  refine ⟨⟨hD, pins⟩, F, hPF, ?_, ⟨rfl, ?_, ?_, ?_⟩, ?_⟩
  · unfold nativeBlur
    refine (J.bind_ok w1).trans ((J.bind_ok w2).trans ((J.bind_ok w3).trans ?_))
    simp only [hai, hao, has, Option.getD_some]
    exact (J.bind_ok e1).trans ((J.bind_ok e2).trans ((J.bind_ok e3).trans ((J.bind_ok e4').trans
      ((J.bind_ok x1).trans ((J.bind_ok x2).trans x3)))))
  · intro x y hx hy
    obtain ⟨a, ea, ec⟩ := hJ.shows x y hx hy
    rw [hao] at ea
    cases ea
    refine ⟨ao, hao, ?_⟩
    rw [← ec]
    exact cell_congr (hD' ao a2 hos') _
  · intro b k hb hnb hpx
    have hb : b < h.next := hb
    have hbs : b ≠ as := fun c => hnb (by rw [c]; exact has)
    rw [← hJ.frame b k hb (by omega) hpx]
    exact cell_congr (hD' b hb hbs) k
  · intro b hb hnb
    have hb : b < h.next := hb
    have hbs : b ≠ as := fun c => hnb (by rw [c]; exact has)
    rw [← hJ.alive b hb (by omega)]
    exact congrArg Option.isSome (hD' b hb hbs)
  · intro b hb
    show (hD.get b).isSome = _
    by_cases c : b = as
    · rw [c, r3.abort rfl, g3, hls]; rfl
    · rw [hD' b hb c]
      by_cases d : b = ao
      · rw [d, hfin.out, k4, hlo]; rfl
      · rw [hfin.keep b hb d, al b (by have := hv.next; omega), hv.frame b hb]

end Boof
