import Mathlib.Dynamics.PeriodicPts.Defs
import Mathlib.Data.Fintype.Prod
import Mathlib.Data.Fintype.Pigeonhole
/-
Boundaries of regions of a binary picture, as orbits of a permutation.

A state is a black pixel together with a direction.  `mu` looks at the neighbour in that direction: if it is white the
direction is advanced clockwise, otherwise the state moves to that neighbour and looks next at the direction after the one
it came from.  `mu` is a permutation of the states of a finite picture.
-/
namespace Boof

abbrev Pix := Nat × Nat
abbrev St := Pix × Nat

/-- Neighbour number 0..7, clockwise (the y axis points down) from the right one. -/
def nb8 (p : Pix) : Nat → Pix
  | 0 => (p.1 + 1, p.2)
  | 1 => (p.1 + 1, p.2 + 1)
  | 2 => (p.1, p.2 + 1)
  | 3 => (p.1 - 1, p.2 + 1)
  | 4 => (p.1 - 1, p.2)
  | 5 => (p.1 - 1, p.2 - 1)
  | 6 => (p.1, p.2 - 1)
  | _ => (p.1 + 1, p.2 - 1)

/-- Number of directions; `e` says whether the rule is the 8-connect rule. -/
def cnt (e : Bool) : Nat := if e then 8 else 4

/-- Neighbour number 0..7 or 0..3. -/
def nb (e : Bool) (p : Pix) (j : Nat) : Pix := nb8 p (if e then j else 2 * j)

def mu (e : Bool) (B : Pix → Bool) (s : St) : St :=
  if B (nb e s.1 s.2) then (nb e s.1 s.2, (s.2 + cnt e / 2 + 1) % cnt e) else (s.1, (s.2 + 1) % cnt e)

def nu (e : Bool) (B : Pix → Bool) (s : St) : St :=
  let j := (s.2 + (cnt e - 1)) % cnt e
  if B (nb e s.1 j) then (nb e s.1 j, (j + cnt e / 2) % cnt e) else (s.1, j)

/-- The picture has black pixels only at positive coordinates up to `(w,h)`. -/
def InFrame (w h : Nat) (B : Pix → Bool) : Prop := ∀ p, B p = true → 1 ≤ p.1 ∧ 1 ≤ p.2 ∧ p.1 ≤ w ∧ p.2 ≤ h

/-- A proper state. -/
def Good (e : Bool) (B : Pix → Bool) (s : St) : Prop := B s.1 = true ∧ s.2 < cnt e

variable {e : Bool} {B : Pix → Bool} {w h : Nat}

theorem lt4_cases {j : Nat} (h : j < 4) : j = 0 ∨ j = 1 ∨ j = 2 ∨ j = 3 := by omega
theorem lt8_cases {j : Nat} (h : j < 8) : j = 0 ∨ j = 1 ∨ j = 2 ∨ j = 3 ∨ j = 4 ∨ j = 5 ∨ j = 6 ∨ j = 7 := by omega

theorem nb_back {p : Pix} {j : Nat} (h1 : 1 ≤ p.1) (h2 : 1 ≤ p.2) (hj : j < cnt e) :
    nb e (nb e p j) ((j + cnt e / 2) % cnt e) = p := by
  obtain ⟨x, y⟩ := p
  simp only at h1 h2
  cases e
  · rcases lt4_cases hj with rfl | rfl | rfl | rfl <;> simp [nb, nb8, cnt] <;> omega
  · rcases lt8_cases hj with rfl | rfl | rfl | rfl | rfl | rfl | rfl | rfl <;> simp [nb, nb8, cnt] <;> omega

theorem cnt_pos : 0 < cnt e := by cases e <;> decide

theorem mu_good {s : St} (hs : Good e B s) : Good e B (mu e B s) := by
  unfold mu
  split
  · next hb => exact ⟨hb, Nat.mod_lt _ cnt_pos⟩
  · exact ⟨hs.1, Nat.mod_lt _ cnt_pos⟩

theorem dir_arith {j : Nat} (hj : j < cnt e) :
    ((j + cnt e / 2 + 1) % cnt e + (cnt e - 1)) % cnt e = (j + cnt e / 2) % cnt e ∧
    ((j + 1) % cnt e + (cnt e - 1)) % cnt e = j ∧ ((j + cnt e / 2) % cnt e + cnt e / 2) % cnt e = j := by
  cases e <;> simp only [cnt] at * <;> simp at * <;> omega

theorem nu_mu {s : St} (hB : InFrame w h B) (hs : Good e B s) : nu e B (mu e B s) = s := by
  obtain ⟨p, j⟩ := s
  obtain ⟨hp, hj⟩ := hs
  obtain ⟨h1, h2, -⟩ := hB p hp
  obtain ⟨a1, a2, a3⟩ := dir_arith hj
  unfold mu
  by_cases hb : B (nb e p j) = true
  · simp only [hb, if_true]
    unfold nu
    simp only [a1, nb_back h1 h2 hj, show B p = true from hp, if_true, a3]
  · simp only [hb]
    unfold nu
    simp [a2, hb]

theorem mu_inj {s t : St} (hB : InFrame w h B) (hs : Good e B s) (ht : Good e B t) (hst : mu e B s = mu e B t) : s = t := by
  rw [← nu_mu hB hs, ← nu_mu hB ht, hst]

theorem iter_good {s : St} (hs : Good e B s) (k : Nat) : Good e B ((mu e B)^[k] s) := by
  induction k with
  | zero => exact hs
  | succ k ih => rw [Function.iterate_succ_apply']; exact mu_good ih

theorem good_bound {s : St} (hB : InFrame w h B) (hs : Good e B s) : s.1.1 < w + 1 ∧ s.1.2 < h + 1 ∧ s.2 < 8 := by
  obtain ⟨h1, h2, h3, h4⟩ := hB _ hs.1
  have : cnt e ≤ 8 := by cases e <;> decide
  have := hs.2
  omega

/-- Every state lies on a cycle. -/
theorem exists_period {s : St} (hB : InFrame w h B) (hs : Good e B s) : ∃ n, 0 < n ∧ (mu e B)^[n] s = s := by
  let T := {s : St // Good e B s}
  have : Finite T := by
    let f : T → Fin (w + 1) × Fin (h + 1) × Fin 8 := fun t =>
      (⟨t.1.1.1, (good_bound hB t.2).1⟩, ⟨t.1.1.2, (good_bound hB t.2).2.1⟩, ⟨t.1.2, (good_bound hB t.2).2.2⟩)
    refine Finite.of_injective f ?_
    rintro ⟨⟨⟨a, b⟩, c⟩, ha⟩ ⟨⟨⟨a', b'⟩, c'⟩, ha'⟩ he
    simp only [f, Prod.mk.injEq, Fin.mk.injEq] at he
    obtain ⟨rfl, rfl, rfl⟩ := he
    rfl
  let g : T → T := fun t => ⟨mu e B t.1, mu_good t.2⟩
  have hg : Function.Injective g := by
    intro a b hab
    exact Subtype.ext (mu_inj hB a.2 b.2 (congrArg Subtype.val hab))
  have hm : ∃ n, 0 < n ∧ g^[n] ⟨s, hs⟩ = ⟨s, hs⟩ := by
    obtain ⟨a, b, hab, heq⟩ := Finite.exists_ne_map_eq_of_infinite (fun k : Nat => g^[k] (⟨s, hs⟩ : T))
    have key : ∀ a b : Nat, a < b → g^[a] (⟨s, hs⟩ : T) = g^[b] ⟨s, hs⟩ → ∃ n, 0 < n ∧ g^[n] ⟨s, hs⟩ = ⟨s, hs⟩ := by
      intro a b hlt hEq
      refine ⟨b - a, by omega, (hg.iterate a) ?_⟩
      rw [← Function.iterate_add_apply, show a + (b - a) = b by omega]
      exact hEq.symm
    rcases Nat.lt_or_gt_of_ne hab with hlt | hlt
    · exact key a b hlt heq
    · exact key b a hlt heq.symm
  obtain ⟨n, hn, hp⟩ := hm
  refine ⟨n, hn, ?_⟩
  have : ∀ k, ((g^[k]) ⟨s, hs⟩).1 = (mu e B)^[k] s := by
    intro k
    induction k with
    | zero => rfl
    | succ k ih => rw [Function.iterate_succ_apply', Function.iterate_succ_apply', ← ih]
  rw [← this n]
  exact congrArg Subtype.val hp

end Boof
