import Verif.Spec.Morphology
import Verif.Props.BinaryOps
/-
Erosion and dilation of sets, and of images by sequences of calls.
-/
namespace Boof
open M

/-! ### Sets -/

theorem steps_tri (x y i j k l : Int) : steps x y k l ≤ steps x y i j + steps i j k l := by
  unfold steps; omega

theorem steps_comm (x y i j : Int) : steps x y i j = steps i j x y := by
  unfold steps; omega

theorem steps_split {x y k l : Int} {n : Nat} (h : steps x y k l ≤ n + 1) : ∃ i j, steps x y i j ≤ n ∧ steps i j k l ≤ 1 := by
  unfold steps at *
  rcases Int.lt_trichotomy x k with c | c | c
  · exact ⟨k - 1, l, by omega, by omega⟩
  · rcases Int.lt_trichotomy y l with d | d | d
    · exact ⟨k, l - 1, by omega, by omega⟩
    · exact ⟨k, l, by omega, by omega⟩
    · exact ⟨k, l + 1, by omega, by omega⟩
  · exact ⟨k + 1, l, by omega, by omega⟩

theorem morphed_append (ms ns : List Morph) (A : Int → Int → Prop) : morphed (ms ++ ns) A = morphed ns (morphed ms A) := by
  induction ms generalizing A with
  | nil => rfl
  | cons m ms ih => exact ih _

theorem Morph.on_mono (m : Morph) {A B : Int → Int → Prop} (h : ∀ i j, A i j → B i j) {x y : Int} (ha : m.on A x y) : m.on B x y := by
  cases m with
  | erode => exact fun i j hs => h _ _ (ha i j hs)
  | dilate => obtain ⟨i, j, hs, ha⟩ := ha; exact ⟨i, j, hs, h _ _ ha⟩

theorem morphed_mono (ms : List Morph) {A B : Int → Int → Prop} (h : ∀ i j, A i j → B i j) {x y : Int} (ha : morphed ms A x y) :
    morphed ms B x y := by
  induction ms generalizing A B with
  | nil => exact h _ _ ha
  | cons m ms ih => exact ih (fun i j => m.on_mono h) ha

theorem morphed_erode (n : Nat) (A : Int → Int → Prop) (x y : Int) :
    morphed (List.replicate n .erode) A x y ↔ ∀ i j, steps x y i j ≤ n → A i j := by
  induction n generalizing A with
  | zero =>
    refine ⟨fun h i j hs => ?_, fun h => h x y (by unfold steps; omega)⟩
    have e1 : i = x := by unfold steps at hs; omega
    have e2 : j = y := by unfold steps at hs; omega
    subst e1; subst e2; exact h
  | succ n ih =>
    refine Iff.trans (ih _) ⟨fun h k l hs => ?_, fun h i j hs k l hs' => h k l ?_⟩
    · obtain ⟨i, j, h1, h2⟩ := steps_split hs
      exact h i j h1 k l h2
    · have := steps_tri x y i j k l
      omega

theorem morphed_dilate (n : Nat) (A : Int → Int → Prop) (x y : Int) :
    morphed (List.replicate n .dilate) A x y ↔ ∃ i j, steps x y i j ≤ n ∧ A i j := by
  induction n generalizing A with
  | zero =>
    refine ⟨fun h => ⟨x, y, by unfold steps; omega, h⟩, fun ⟨i, j, hs, h⟩ => ?_⟩
    have e1 : i = x := by unfold steps at hs; omega
    have e2 : j = y := by unfold steps at hs; omega
    subst e1; subst e2; exact h
  | succ n ih =>
    refine Iff.trans (ih _) ⟨fun ⟨i, j, hs, k, l, hs', h⟩ => ⟨k, l, ?_, h⟩, fun ⟨k, l, hs, h⟩ => ?_⟩
    · have := steps_tri x y i j k l
      omega
    · obtain ⟨i, j, h1, h2⟩ := steps_split hs
      exact ⟨i, j, h1, k, l, h2, h⟩

theorem opening_iff (n : Nat) (A : Int → Int → Prop) (x y : Int) :
    morphed (opening n) A x y ↔ ∃ i j, steps x y i j ≤ n ∧ ∀ k l, steps i j k l ≤ n → A k l := by
  unfold opening
  rw [morphed_append, morphed_dilate]
  simp only [morphed_erode]

theorem closing_iff (n : Nat) (A : Int → Int → Prop) (x y : Int) :
    morphed (closing n) A x y ↔ ∀ i j, steps x y i j ≤ n → ∃ k l, steps i j k l ≤ n ∧ A k l := by
  unfold closing
  rw [morphed_append, morphed_erode]
  simp only [morphed_dilate]

theorem opening_sub {n : Nat} {A : Int → Int → Prop} {x y : Int} (h : morphed (opening n) A x y) : A x y := by
  obtain ⟨i, j, hs, ha⟩ := (opening_iff n A x y).mp h
  exact ha x y (by rw [steps_comm]; exact hs)

theorem sub_closing {n : Nat} {A : Int → Int → Prop} {x y : Int} (h : A x y) : morphed (closing n) A x y :=
  (closing_iff n A x y).mpr (fun i j hs => ⟨x, y, by rw [steps_comm]; exact hs, h⟩)

theorem opening_twice (n : Nat) (A : Int → Int → Prop) (x y : Int) :
    morphed (opening n ++ opening n) A x y ↔ morphed (opening n) A x y := by
  rw [morphed_append]
  refine ⟨opening_sub, fun h => ?_⟩
  obtain ⟨i, j, hs, ha⟩ := (opening_iff n A x y).mp h
  exact (opening_iff _ _ _ _).mpr ⟨i, j, hs, fun k l hs' => (opening_iff _ _ _ _).mpr ⟨i, j, by rw [steps_comm]; exact hs', ha⟩⟩

theorem closing_twice (n : Nat) (A : Int → Int → Prop) (x y : Int) :
    morphed (closing n ++ closing n) A x y ↔ morphed (closing n) A x y := by
  rw [morphed_append]
  refine ⟨fun h => ?_, sub_closing⟩
  refine (closing_iff _ _ _ _).mpr (fun i j hs => ?_)
  obtain ⟨k, l, hs', h'⟩ := (closing_iff _ _ _ _).mp h i j hs
  exact (closing_iff _ _ _ _).mp h' i j (by rw [steps_comm]; exact hs')

/-! ### Images -/

theorem shows_of_valid {h : Heap Int} {g : Gray} (hv : g.Valid h) : ∃ f, g.Shows h f := by
  refine ⟨fun x y => (h.px g x y).getD 0, fun x y hx hy => ?_⟩
  have := hv.fits y hy
  obtain ⟨v, e⟩ := hv.cells (g.addr x y) (by unfold Gray.addr; omega)
  show h.px g x y = some ((h.px g x y).getD 0)
  rw [show h.px g x y = some v from e]; rfl

/-- Below depth `d` the picture shows the set. -/
def Agrees (d w ht : Nat) (f : Nat → Nat → Int) (A : Int → Int → Prop) : Prop :=
  ∀ x y : Nat, Deep d w ht x y → (f x y = 0 ∨ f x y = 1) ∧ (f x y = 1 ↔ A x y)

theorem Agrees.cross {d w ht x y : Nat} {f : Nat → Nat → Int} {A : Int → Int → Prop} (ha : Agrees d w ht f A) (hd : Deep (d + 1) w ht x y) :
    (f x y + f (x-1) y + f (x+1) y + f x (y-1) + f x (y+1) = 5 ↔ eroded A x y) ∧
    (0 < f x y + f (x-1) y + f (x+1) y + f x (y-1) + f x (y+1) ↔ dilated A x y) := by
  obtain ⟨d1, d2, d3, d4⟩ := hd
  obtain ⟨a0, b0⟩ := ha x y ⟨by omega, by omega, by omega, by omega⟩
  obtain ⟨a1, b1⟩ := ha (x-1) y ⟨by omega, by omega, by omega, by omega⟩
  obtain ⟨a2, b2⟩ := ha (x+1) y ⟨by omega, by omega, by omega, by omega⟩
  obtain ⟨a3, b3⟩ := ha x (y-1) ⟨by omega, by omega, by omega, by omega⟩
  obtain ⟨a4, b4⟩ := ha x (y+1) ⟨by omega, by omega, by omega, by omega⟩
  rw [show ((x - 1 : Nat) : Int) = (x : Int) - 1 by omega] at b1
  rw [show ((x + 1 : Nat) : Int) = (x : Int) + 1 by omega] at b2
  rw [show ((y - 1 : Nat) : Int) = (y : Int) - 1 by omega] at b3
  rw [show ((y + 1 : Nat) : Int) = (y : Int) + 1 by omega] at b4
  have key : ∀ i j : Int, steps x y i j ≤ 1 ↔ (i = x ∧ j = y) ∨ (i = x - 1 ∧ j = y) ∨ (i = x + 1 ∧ j = y) ∨ (i = x ∧ j = y - 1) ∨
      (i = x ∧ j = y + 1) := by
    intro i j; unfold steps; omega
  constructor
  · have : eroded A x y ↔ A x y ∧ A (x - 1) y ∧ A (x + 1) y ∧ A x (y - 1) ∧ A x (y + 1) := by
      unfold eroded
      simp only [key]
      constructor
      · exact fun h => ⟨h _ _ (by simp), h _ _ (by simp), h _ _ (by simp), h _ _ (by simp), h _ _ (by simp)⟩
      · rintro ⟨h0, h1, h2, h3, h4⟩ i j (⟨rfl, rfl⟩ | ⟨rfl, rfl⟩ | ⟨rfl, rfl⟩ | ⟨rfl, rfl⟩ | ⟨rfl, rfl⟩) <;> assumption
    rw [this, ← b0, ← b1, ← b2, ← b3, ← b4]
    omega
  · have : dilated A x y ↔ A x y ∨ A (x - 1) y ∨ A (x + 1) y ∨ A x (y - 1) ∨ A x (y + 1) := by
      unfold dilated
      simp only [key]
      constructor
      · rintro ⟨i, j, (⟨rfl, rfl⟩ | ⟨rfl, rfl⟩ | ⟨rfl, rfl⟩ | ⟨rfl, rfl⟩ | ⟨rfl, rfl⟩), h⟩ <;> simp [h]
      · rintro (h | h | h | h | h)
        · exact ⟨x, y, by simp, h⟩
        · exact ⟨x - 1, y, by simp, h⟩
        · exact ⟨x + 1, y, by simp, h⟩
        · exact ⟨x, y - 1, by simp, h⟩
        · exact ⟨x, y + 1, by simp, h⟩
    rw [this, ← b0, ← b1, ← b2, ← b3, ← b4]
    omega

/-- One call. -/
theorem Morph.call_spec (m : Morph) {h h₁ : Heap Int} {i u j : Gray} {f : Nat → Nat → Int} {A : Int → Int → Prop} {d : Nat} (hv : i.Valid h)
    (hf : i.Shows h f) (h0 : 0 < i.width) (h1 : 0 < i.height) (ha : Agrees d i.width i.height f A)
    (valid : u.Valid h) (shape : u.CanBe i.width i.height) (apart : i.Sep u i.width i.height) (run : m.call i u h = .ok j h₁) :
    j.width = i.width ∧ j.height = i.height ∧ j.Valid h₁ ∧ ∃ g, j.Shows h₁ g ∧ Agrees (d + 1) i.width i.height g (m.on A) := by
  have main : ∀ (test : Int → Bool) (_ : ∀ x y, Deep (d + 1) i.width i.height x y →
      (test (f x y + f (x-1) y + f (x+1) y + f x (y-1) + f x (y+1)) = true ↔ m.on A x y)),
      BinaryImageOps.cross4 test i u h = .ok j h₁ →
      j.width = i.width ∧ j.height = i.height ∧ j.Valid h₁ ∧ ∃ g, j.Shows h₁ g ∧ Agrees (d + 1) i.width i.height g (m.on A) := by
    intro test htest hr
    obtain ⟨o, hm, h', e, r, p, -⟩ := cross_run test hv valid hf shape apart h0 h1
    rw [hr] at e; cases e
    have hv' := p.valid r.valid r.valid
    obtain ⟨g, hg⟩ := shows_of_valid hv'
    refine ⟨r.width, r.height, hv', g, hg, fun x y hd => ?_⟩
    have hd' := hd
    obtain ⟨d1, d2, d3, d4⟩ := hd'
    have := p.pix x y (by rw [r.width]; omega) (by rw [r.height]; omega)
    rw [hg x y (by rw [r.width]; omega) (by rw [r.height]; omega), if_pos ⟨by omega, by omega, by omega, by omega⟩] at this
    have e : g x y = b2i (test (f x y + f (x-1) y + f (x+1) y + f x (y-1) + f x (y+1))) := Option.some.inj this
    rw [e, ← htest x y hd]
    unfold b2i
    split <;> simp_all
  cases m with
  | erode => exact main (fun s => decide (s = 5)) (fun x y hd => decide_eq_true_iff.trans (ha.cross hd).1) run
  | dilate => exact main (fun s => decide (s > 0)) (fun x y hd => decide_eq_true_iff.trans (ha.cross hd).2) run

/-- All calls. -/
theorem Calls.spec {ms : List Morph} {h h' : Heap Int} {i o : Gray} (c : Calls ms h i h' o) : ∀ {f : Nat → Nat → Int} {A : Int → Int → Prop} {d : Nat},
    i.Valid h → i.Shows h f → 0 < i.width → 0 < i.height → Agrees d i.width i.height f A →
    o.width = i.width ∧ o.height = i.height ∧ o.Valid h' ∧ ∃ g, o.Shows h' g ∧ Agrees (d + ms.length) i.width i.height g (morphed ms A) := by
  induction c with
  | done h i => intro f A d hv hf _ _ ha; exact ⟨rfl, rfl, hv, f, hf, ha⟩
  | @call m ms h h₁ h' i u j o valid shape apart run rest ih =>
    intro f A d hv hf h0 h1 ha
    obtain ⟨ew, eh, hv', g, hg, hag⟩ := m.call_spec hv hf h0 h1 ha valid shape apart run
    obtain ⟨ew', eh', hv'', g', hg', hag'⟩ := ih hv' hg (by omega) (by omega) (by rw [ew, eh]; exact hag)
    refine ⟨by omega, by omega, hv'', g', hg', ?_⟩
    rw [ew, eh, Nat.add_assoc, Nat.add_comm 1] at hag'
    exact hag'

end Boof
