import Verif.Proofs.Crack
import Mathlib.Tactic.Ring
import Mathlib.Tactic.Linarith
/-
The winding number of a set of boundaries around a pixel.
-/
namespace Boof
variable {e : Bool} {B : Pix → Bool} {w h : Nat}

/-! ### Orbits -/

/-- `t` lies on the cycle of `s`. -/
def Orb (e : Bool) (B : Pix → Bool) (s t : St) : Prop := ∃ k, (mu e B)^[k] s = t

theorem Orb.refl (s : St) : Orb e B s s := ⟨0, rfl⟩

theorem Orb.trans {s t u : St} (h1 : Orb e B s t) (h2 : Orb e B t u) : Orb e B s u := by
  obtain ⟨a, rfl⟩ := h1
  obtain ⟨b, rfl⟩ := h2
  exact ⟨b + a, Function.iterate_add_apply _ _ _ _⟩

theorem Orb.next (s : St) : Orb e B s (mu e B s) := ⟨1, rfl⟩

theorem Orb.good {s t : St} (hs : Good e B s) (h1 : Orb e B s t) : Good e B t := by
  obtain ⟨a, rfl⟩ := h1; exact iter_good hs a

theorem Orb.prev {s : St} (hB : InFrame w h B) (hs : Good e B s) : Orb e B (mu e B s) s := by
  obtain ⟨n, hn, hp⟩ := exists_period hB hs
  refine ⟨n - 1, ?_⟩
  rw [← Function.iterate_succ_apply, show (n - 1).succ = n by omega]
  exact hp

theorem Orb.symm {s t : St} (hB : InFrame w h B) (hs : Good e B s) (h1 : Orb e B s t) : Orb e B t s := by
  obtain ⟨a, rfl⟩ := h1
  induction a with
  | zero => exact Orb.refl _
  | succ a ih =>
    rw [Function.iterate_succ_apply']
    exact (Orb.prev hB (iter_good hs a)).trans ih

/-- A set of states closed under `mu` in both directions. -/
def Inv (e : Bool) (B : Pix → Bool) (S : St → Prop) : Prop := ∀ t, Good e B t → (S t ↔ S (mu e B t))

theorem Orb.inv {s : St} (hB : InFrame w h B) : Inv e B (Orb e B s) :=
  fun _ ht => ⟨fun h => h.trans (Orb.next _), fun h => h.trans (Orb.prev hB ht)⟩

/-! ### Cracks -/

/-- Direction number of the `a`-th of the four axis directions: right, down, left, up. -/
def ax (e : Bool) (a : Nat) : Nat := if e then 2 * a else a

/-- Neighbour in the `a`-th axis direction. -/
def nbA (p : Pix) (a : Nat) : Pix := nb8 p (2 * a)

theorem nb_ax (p : Pix) (a : Nat) : nb e p (ax e a) = nbA p a := by cases e <;> rfl

theorem ax_lt {a : Nat} (ha : a < 4) : ax e a < cnt e := by cases e <;> simp [ax, cnt] <;> omega

/-- The side of black pixel `p` towards its white `a`-th neighbour belongs to `S`. -/
def Crack (e : Bool) (B : Pix → Bool) (S : St → Prop) (p : Pix) (a : Nat) : Prop :=
  B p = true ∧ B (nbA p a) = false ∧ S (p, ax e a)

section
variable {S : St → Prop}

theorem Inv.white (hi : Inv e B S) {p : Pix} {j : Nat} (hp : B p = true) (hj : j < cnt e) (hn : B (nb e p j) = false) :
    S (p, j) ↔ S (p, (j + 1) % cnt e) := by
  have := hi (p, j) ⟨hp, hj⟩
  unfold mu at this
  simpa [hn] using this

theorem Inv.black (hi : Inv e B S) {p : Pix} {j : Nat} (hp : B p = true) (hj : j < cnt e) (hn : B (nb e p j) = true) :
    S (p, j) ↔ S (nb e p j, (j + cnt e / 2 + 1) % cnt e) := by
  have := hi (p, j) ⟨hp, hj⟩
  unfold mu at this
  simpa [hn] using this

end

/-! The four corners meeting at the corner point between the pixels `(x,y)`, `(x+1,y)`, `(x,y+1)` and `(x+1,y+1)`: the two
cracks ending there on the way around a black pixel belong together. -/
section
variable {S : St → Prop} {x y : Nat}

/-- Rule 4: the crack in direction `a` of `p`, its neighbour `q` in direction `a+1` and the pixel `r` next to `q` in
direction `a`. -/
theorem link4 (hi : Inv false B S) {p q r : Pix} {a : Nat} (ha : a < 4) (hp : B p = true) (hw : B (nbA p a) = false)
    (hq : nbA p ((a + 1) % 4) = q) (hr : nbA q a = r) :
    (B q = false → (S (p, a) ↔ S (p, (a + 1) % 4))) ∧
    (B q = true → B r = false → (S (p, a) ↔ S (q, a))) ∧
    (B q = true → B r = true → (S (p, a) ↔ S (r, (a + 3) % 4))) := by
  have c4 : cnt false = 4 := rfl
  have n4 : ∀ p j, nb false p j = nbA p j := fun _ _ => rfl
  have h1 : S (p, a) ↔ S (p, (a + 1) % 4) := hi.white hp (by rw [c4]; exact ha) (by rw [n4]; exact hw)
  have h2 : B q = true → (S (p, (a + 1) % 4) ↔ S (q, a)) := by
    intro hbq
    have := hi.black (p := p) (j := (a + 1) % 4) hp (by rw [c4]; omega) (by rw [n4, hq]; exact hbq)
    rw [n4, hq, c4, show ((a + 1) % 4 + 4 / 2 + 1) % 4 = a by omega] at this
    exact this
  refine ⟨fun _ => h1, fun hbq _ => h1.trans (h2 hbq), fun hbq hbr => (h1.trans (h2 hbq)).trans ?_⟩
  have := hi.black (p := q) (j := a) hbq (by rw [c4]; exact ha) (by rw [n4, hr]; exact hbr)
  rw [n4, hr, c4, show (a + 4 / 2 + 1) % 4 = (a + 3) % 4 by omega] at this
  exact this

/-- Rule 8. -/
theorem link8 (hi : Inv true B S) {p q r : Pix} {a : Nat} (ha : a < 4) (hp : B p = true) (hw : B (nbA p a) = false)
    (hd : nb8 p (2 * a + 1) = r) (hq : nbA p ((a + 1) % 4) = q) (hb : nb8 q ((2 * a + 7) % 8) = nbA p a) :
    (B r = true → (S (p, 2 * a) ↔ S (r, (2 * a + 6) % 8))) ∧
    (B r = false → B q = true → (S (p, 2 * a) ↔ S (q, 2 * a))) ∧
    (B r = false → B q = false → (S (p, 2 * a) ↔ S (p, (2 * a + 2) % 8))) := by
  have c8 : cnt true = 8 := rfl
  have n8 : ∀ p j, nb true p j = nb8 p j := fun _ _ => rfl
  have h1 : S (p, 2 * a) ↔ S (p, 2 * a + 1) := by
    have := hi.white (p := p) (j := 2 * a) hp (by rw [c8]; omega) hw
    rw [c8, Nat.mod_eq_of_lt (show 2 * a + 1 < 8 by omega)] at this; exact this
  have h2 : B r = false → (S (p, 2 * a + 1) ↔ S (p, (2 * a + 2) % 8)) := by
    intro hbr
    have := hi.white (p := p) (j := 2 * a + 1) hp (by rw [c8]; omega) (by rw [n8, hd]; exact hbr)
    rw [c8] at this; exact this
  refine ⟨fun hbr => h1.trans ?_, fun hbr hbq => (h1.trans (h2 hbr)).trans ?_, fun hbr _ => h1.trans (h2 hbr)⟩
  · have := hi.black (p := p) (j := 2 * a + 1) hp (by rw [c8]; omega) (by rw [n8, hd]; exact hbr)
    rw [n8, hd, c8, show (2 * a + 1 + 8 / 2 + 1) % 8 = (2 * a + 6) % 8 by omega] at this
    exact this
  · have e1 : nb8 p ((2 * a + 2) % 8) = q := by
      rw [← hq]; unfold nbA; congr 1; omega
    have k1 := hi.black (p := p) (j := (2 * a + 2) % 8) hp (by rw [c8]; omega) (by rw [n8, e1]; exact hbq)
    rw [n8, e1, c8, show ((2 * a + 2) % 8 + 8 / 2 + 1) % 8 = (2 * a + 7) % 8 by omega] at k1
    have k2 := hi.white (p := q) (j := (2 * a + 7) % 8) hbq (by rw [c8]; omega) (by rw [n8, hb]; exact hw)
    rw [c8, show ((2 * a + 7) % 8 + 1) % 8 = 2 * a by omega] at k2
    exact k1.trans k2

end

/-! ### The winding number -/

open Classical in
noncomputable def ind (P : Prop) : Int := if P then 1 else 0

theorem ind_pos {P : Prop} (hp : P) : ind P = 1 := if_pos hp
theorem ind_neg {P : Prop} (hp : ¬P) : ind P = 0 := if_neg hp
theorem ind_false : ind False = 0 := ind_neg id
theorem ind_congr {P Q : Prop} (hp : P ↔ Q) : ind P = ind Q := by rw [propext hp]

/-- Change from `(x,y)` to `(x+1,y)` -/
noncomputable def hstep (e : Bool) (B : Pix → Bool) (S : St → Prop) (x y : Nat) : Int :=
  ind (Crack e B S (x + 1, y) 2) - ind (Crack e B S (x, y) 0)

/-- Change from `(x,y)` to `(x,y+1)` -/
noncomputable def vstep (e : Bool) (B : Pix → Bool) (S : St → Prop) (x y : Nat) : Int :=
  ind (Crack e B S (x, y + 1) 3) - ind (Crack e B S (x, y) 1)

theorem crack_false {S : St → Prop} {p : Pix} {a : Nat} (hp : B p = false) : ¬Crack e B S p a := by
  rintro ⟨h1, -⟩; rw [hp] at h1; cases h1

theorem crack_false' {S : St → Prop} {p : Pix} {a : Nat} (hp : B (nbA p a) = true) : ¬Crack e B S p a := by
  rintro ⟨-, h1, -⟩; rw [hp] at h1; cases h1

theorem crack_iff {S : St → Prop} {p : Pix} {a : Nat} (hp : B p = true) (hq : B (nbA p a) = false) :
    Crack e B S p a ↔ S (p, ax e a) := ⟨fun h => h.2.2, fun h => ⟨hp, hq, h⟩⟩

theorem curl {S : St → Prop} (hi : Inv e B S) (x y : Nat) :
    hstep e B S x y + vstep e B S (x + 1) y = vstep e B S x y + hstep e B S x (y + 1) := by
  unfold hstep vstep
  have t1 : nbA (x, y) 0 = (x + 1, y) := rfl
  have t2 : nbA (x, y) 1 = (x, y + 1) := rfl
  have t3 : nbA (x + 1, y) 2 = (x, y) := rfl
  have t4 : nbA (x + 1, y) 1 = (x + 1, y + 1) := rfl
  have t5 : nbA (x, y + 1) 0 = (x + 1, y + 1) := rfl
  have t6 : nbA (x, y + 1) 3 = (x, y) := rfl
  have t7 : nbA (x + 1, y + 1) 2 = (x, y + 1) := rfl
  have t8 : nbA (x + 1, y + 1) 3 = (x + 1, y) := rfl
  cases e
  · have L0 := fun hp hw => link4 hi (p := (x, y)) (q := (x, y + 1)) (r := (x + 1, y + 1)) (a := 0) (by omega) hp hw rfl rfl
    have L1 := fun hp hw => link4 hi (p := (x + 1, y)) (q := (x, y)) (r := (x, y + 1)) (a := 1) (by omega) hp hw rfl rfl
    have L2 := fun hp hw => link4 hi (p := (x + 1, y + 1)) (q := (x + 1, y)) (r := (x, y)) (a := 2) (by omega) hp hw rfl rfl
    have L3 := fun hp hw => link4 hi (p := (x, y + 1)) (q := (x + 1, y + 1)) (r := (x + 1, y)) (a := 3) (by omega) hp hw rfl rfl
    rw [t1] at L0; rw [t4] at L1; rw [t7] at L2; rw [t6] at L3
    cases ha : B (x, y) <;> cases hb : B (x + 1, y) <;> cases hc : B (x, y + 1) <;> cases hd : B (x + 1, y + 1) <;>
      simp [Crack, t1, t2, t3, t4, t5, t6, t7, t8, ha, hb, hc, hd, ind_false, ax] at L0 L1 L2 L3 ⊢ <;>
      simp [*]
  · have L0 := fun hp hw => link8 hi (p := (x, y)) (q := (x, y + 1)) (r := (x + 1, y + 1)) (a := 0) (by omega) hp hw rfl rfl rfl
    have L1 := fun hp hw => link8 hi (p := (x + 1, y)) (q := (x, y)) (r := (x, y + 1)) (a := 1) (by omega) hp hw rfl rfl rfl
    have L2 := fun hp hw => link8 hi (p := (x + 1, y + 1)) (q := (x + 1, y)) (r := (x, y)) (a := 2) (by omega) hp hw rfl rfl rfl
    have L3 := fun hp hw => link8 hi (p := (x, y + 1)) (q := (x + 1, y + 1)) (r := (x + 1, y)) (a := 3) (by omega) hp hw rfl rfl rfl
    rw [t1] at L0; rw [t4] at L1; rw [t7] at L2; rw [t6] at L3
    cases ha : B (x, y) <;> cases hb : B (x + 1, y) <;> cases hc : B (x, y + 1) <;> cases hd : B (x + 1, y + 1) <;>
      simp [Crack, t1, t2, t3, t4, t5, t6, t7, t8, ha, hb, hc, hd, ind_false, ax] at L0 L1 L2 L3 ⊢ <;>
      simp [*]

/-- The winding number. -/
noncomputable def wind (e : Bool) (B : Pix → Bool) (S : St → Prop) : Nat → Nat → Int
  | 0, _ => 0
  | x + 1, y => wind e B S x y + hstep e B S x y

section
variable {S : St → Prop}

theorem frame_col (hB : InFrame w h B) (y : Nat) : B (0, y) = false := by
  cases hb : B (0, y) with
  | false => rfl
  | true => have := (hB _ hb).1; simp at this

theorem frame_row (hB : InFrame w h B) (x : Nat) : B (x, 0) = false := by
  cases hb : B (x, 0) with
  | false => rfl
  | true => have := (hB _ hb).2.1; simp at this

theorem frame_bottom (hB : InFrame w h B) (x : Nat) {y : Nat} (hy : h < y) : B (x, y) = false := by
  cases hb : B (x, y) with
  | false => rfl
  | true => have := (hB _ hb).2.2.2; simp at this; omega

theorem wind_down (hB : InFrame w h B) (hi : Inv e B S) (x y : Nat) :
    wind e B S x (y + 1) = wind e B S x y + vstep e B S x y := by
  induction x with
  | zero =>
    unfold wind vstep
    rw [ind_neg (crack_false (frame_col hB _)), ind_neg (crack_false (frame_col hB _))]
    rfl
  | succ x ih =>
    have := curl hi x y
    unfold wind
    rw [ih]; linarith

theorem wind_row (e : Bool) (S : St → Prop) {y : Nat} (hy : ∀ x, B (x, y) = false) (x : Nat) : wind e B S x y = 0 := by
  induction x with
  | zero => rfl
  | succ x ih =>
    unfold wind hstep
    rw [ih, ind_neg (crack_false (hy _)), ind_neg (crack_false (hy _))]
    rfl

theorem wind_same (hB : InFrame w h B) (hi : Inv e B S) {p : Pix} {a : Nat} (ha : a < 4) (h1 : 1 ≤ p.1) (h2 : 1 ≤ p.2)
    (hc : B (nbA p a) = B p) : wind e B S (nbA p a).1 (nbA p a).2 = wind e B S p.1 p.2 := by
  obtain ⟨x, y⟩ := p
  obtain ⟨x, rfl⟩ : ∃ x', x = x' + 1 := ⟨x - 1, by simp at h1; omega⟩
  obtain ⟨y, rfl⟩ : ∃ y', y = y' + 1 := ⟨y - 1, by simp at h2; omega⟩
  have key : ∀ {p : Pix} {a b : Nat} {q : Pix}, nbA p a = q → nbA q b = p → B q = B p →
      ind (Crack e B S p a) = 0 ∧ ind (Crack e B S q b) = 0 := by
    intro p a b q e1 e2 ec
    cases hp : B p with
    | false => exact ⟨ind_neg (crack_false hp), ind_neg (crack_false (by rw [ec, hp]))⟩
    | true => exact ⟨ind_neg (crack_false' (by rw [e1, ec, hp])), ind_neg (crack_false' (by rw [e2, hp]))⟩
  rcases lt4_cases ha with rfl | rfl | rfl | rfl
  · show wind e B S (x + 1 + 1) (y + 1) = wind e B S (x + 1) (y + 1)
    rw [wind, hstep]
    obtain ⟨k1, k2⟩ := key (p := (x + 1, y + 1)) (a := 0) (b := 2) rfl rfl hc
    have : nbA (x + 1, y + 1) 0 = (x + 1 + 1, y + 1) := rfl
    rw [this] at k2; rw [k1, k2]; omega
  · show wind e B S (x + 1) (y + 1 + 1) = wind e B S (x + 1) (y + 1)
    rw [wind_down hB hi, vstep]
    obtain ⟨k1, k2⟩ := key (p := (x + 1, y + 1)) (a := 1) (b := 3) rfl rfl hc
    have : nbA (x + 1, y + 1) 1 = (x + 1, y + 1 + 1) := rfl
    rw [this] at k2; rw [k1, k2]; omega
  · show wind e B S x (y + 1) = wind e B S (x + 1) (y + 1)
    rw [wind, hstep]
    obtain ⟨k1, k2⟩ := key (p := (x + 1, y + 1)) (a := 2) (b := 0) rfl rfl hc
    have : nbA (x + 1, y + 1) 2 = (x, y + 1) := rfl
    rw [this] at k2; rw [k1, k2]; omega
  · show wind e B S (x + 1) y = wind e B S (x + 1) (y + 1)
    rw [wind_down hB hi, vstep]
    obtain ⟨k1, k2⟩ := key (p := (x + 1, y + 1)) (a := 3) (b := 1) rfl rfl hc
    have : nbA (x + 1, y + 1) 3 = (x + 1, y) := rfl
    rw [this] at k2; rw [k1, k2]; omega

/-- Crossing a side of a black pixel towards a white one. -/
theorem wind_cross (hB : InFrame w h B) (hi : Inv e B S) {p : Pix} {a : Nat} (ha : a < 4) (hp : B p = true)
    (hc : B (nbA p a) = false) :
    wind e B S p.1 p.2 = wind e B S (nbA p a).1 (nbA p a).2 + ind (S (p, ax e a)) := by
  obtain ⟨h1, h2, -⟩ := hB p hp
  obtain ⟨x, y⟩ := p
  obtain ⟨x, rfl⟩ : ∃ x', x = x' + 1 := ⟨x - 1, by simp at h1; omega⟩
  obtain ⟨y, rfl⟩ : ∃ y', y = y' + 1 := ⟨y - 1, by simp at h2; omega⟩
  rw [← ind_congr (crack_iff hp hc)]
  rcases lt4_cases ha with rfl | rfl | rfl | rfl
  · show wind e B S (x + 1) (y + 1) = wind e B S (x + 1 + 1) (y + 1) + _
    rw [show wind e B S (x + 1 + 1) (y + 1) = wind e B S (x + 1) (y + 1) + hstep e B S (x + 1) (y + 1) from rfl, hstep, ind_neg (crack_false (p := (x + 1 + 1, y + 1)) (a := 2) hc)]; omega
  · show wind e B S (x + 1) (y + 1) = wind e B S (x + 1) (y + 1 + 1) + _
    rw [wind_down hB hi (x + 1) (y + 1), vstep, ind_neg (crack_false (p := (x + 1, y + 1 + 1)) (a := 3) hc)]; omega
  · show wind e B S (x + 1) (y + 1) = wind e B S x (y + 1) + _
    rw [wind, hstep, ind_neg (crack_false (p := (x, y + 1)) (a := 0) hc)]; omega
  · show wind e B S (x + 1) (y + 1) = wind e B S (x + 1) y + _
    rw [wind_down hB hi, vstep, ind_neg (crack_false (p := (x + 1, y)) (a := 1) hc)]; omega

/-- The winding number is the same on neighbouring black pixels. -/
theorem wind_black (hB : InFrame w h B) (hi : Inv e B S) {p : Pix} {j : Nat} (hj : j < cnt e) (hp : B p = true)
    (hq : B (nb e p j) = true) : wind e B S (nb e p j).1 (nb e p j).2 = wind e B S p.1 p.2 := by
  obtain ⟨h1, h2, -⟩ := hB p hp
  obtain ⟨h3, h4, -⟩ := hB _ hq
  cases e with
  | false => exact wind_same hB hi hj h1 h2 (by rw [hp]; exact hq)
  | true =>
    rcases Nat.even_or_odd' j with ⟨a, rfl | rfl⟩
    · exact wind_same hB hi (show a < 4 by simp [cnt] at hj; omega) h1 h2 (by rw [hp]; exact hq)
    · have ha : a < 4 := by simp [cnt] at hj; omega
      -- the two pixels next to both
      have hr : ∀ a < 4, nbA (nbA p a) ((a + 1) % 4) = nb8 p (2 * a + 1) ∧ nbA (nbA p ((a + 1) % 4)) a = nb8 p (2 * a + 1)
          ∧ nb8 (nbA p ((a + 1) % 4)) ((2 * a + 7) % 8) = nbA p a ∧ nbA (nb8 p (2 * a + 1)) ((a + 3) % 4) = nbA p a ∧
          nbA (nb8 p (2 * a + 1)) ((a + 2) % 4) = nbA p ((a + 1) % 4) := by
        obtain ⟨x, y⟩ := p
        simp only at h1 h2
        intro a ha
        rcases lt4_cases ha with rfl | rfl | rfl | rfl <;> simp [nbA, nb8] <;> omega
      obtain ⟨r1, r2, r3, r4, r5⟩ := hr a ha
      show wind true B S (nb8 p (2 * a + 1)).1 (nb8 p (2 * a + 1)).2 = _
      have hq' : B (nb8 p (2 * a + 1)) = true := hq
      cases hn : B (nbA p a) with
      | true =>
        have k1 := wind_same hB hi ha h1 h2 (by rw [hn, hp])
        obtain ⟨g1, g2, -⟩ := hB _ hn
        have k2 := wind_same hB hi (p := nbA p a) (a := (a + 1) % 4) (by omega) g1 g2 (by rw [r1, hn, hq'])
        rw [r1] at k2; rw [k2, k1]
      | false =>
        have l := (link8 hi ha hp hn rfl rfl r3).1 hq'
        have k1 := wind_cross hB hi ha hp hn
        have k2 := wind_cross hB hi (p := nb8 p (2 * a + 1)) (a := (a + 3) % 4) (by omega) hq' (by rw [r4]; exact hn)
        rw [r4] at k2
        rw [k1, k2]
        have e1 : ax true ((a + 3) % 4) = (2 * a + 6) % 8 := by simp [ax]; omega
        have e2 : ax true a = 2 * a := rfl
        rw [e1, e2, ind_congr l]

/-- A negative winding number is due to the lower side of a pixel above. -/
theorem wind_neg (hB : InFrame w h B) (hi : Inv e B S) {x y : Nat} (hn : wind e B S x y < 0) :
    ∃ y' < y, Crack e B S (x, y') 1 := by
  induction y with
  | zero => rw [wind_row e S (frame_row hB) x] at hn; omega
  | succ y ih =>
    by_cases hy : wind e B S x y < 0
    · obtain ⟨y', h1, h2⟩ := ih hy
      exact ⟨y', by omega, h2⟩
    · refine ⟨y, by omega, ?_⟩
      rw [wind_down hB hi, vstep] at hn
      by_contra hc
      rw [ind_neg hc] at hn
      have : 0 ≤ ind (Crack e B S (x, y + 1) 3) := by unfold ind; split <;> omega
      omega

/-- Without cracks in the column above it is zero. -/
theorem wind_zero (hB : InFrame w h B) (hi : Inv e B S) {x y : Nat}
    (hn : ∀ y', y' < y → ¬Crack e B S (x, y') 1 ∧ ¬Crack e B S (x, y' + 1) 3) : wind e B S x y = 0 := by
  induction y with
  | zero => exact wind_row e S (frame_row hB) x
  | succ y ih =>
    rw [wind_down hB hi, vstep, ih (fun y' hy => hn y' (by omega)), ind_neg (hn y (by omega)).1, ind_neg (hn y (by omega)).2]
    rfl

end

end Boof
