import Verif.Spec.Counts
import Verif.Proofs.Brightness
import Mathlib.Data.List.Count
import Mathlib.Algebra.BigOperators.Group.List.Basic
/-
Pictures in which every value occurs equally often have equal sums.
-/
namespace Boof

/-- The pixels, row by row. -/
def pixList (w h : Nat) (f : Nat → Nat → Int) : List Int := (List.range h).flatMap (fun y => (List.range w).map (fun x => f x y))

theorem sumN_list (n : Nat) (f : Nat → Int) : sumN n f = ((List.range n).map f).sum := by
  induction n with
  | zero => rfl
  | succ n ih => rw [List.range_succ, List.map_append, List.sum_append, ← ih]; simp [sumN]

theorem pixelSum_list (w h : Nat) (f : Nat → Nat → Int) (φ : Int → Int) :
    pixelSum w h (fun x y => φ (f x y)) = ((pixList w h f).map φ).sum := by
  unfold pixelSum pixList
  induction h with
  | zero => rfl
  | succ h ih =>
    rw [List.range_succ, List.flatMap_append, List.map_append, List.sum_append, ← ih]
    simp [sumN, sumN_list, Function.comp_def]

theorem pixelCount_list (w h : Nat) (f : Nat → Nat → Int) (v : Int) : pixelCount w h f v = ((pixList w h f).count v : Int) := by
  unfold pixelCount
  rw [pixelSum_list w h f (fun a => if a = v then 1 else 0)]
  generalize pixList w h f = l
  induction l with
  | nil => rfl
  | cons a l ih =>
    rw [List.map_cons, List.sum_cons, ih, List.count_cons]
    by_cases c : a = v
    · simp [c, Int.add_comm]
    · simp [c]

theorem SamePixels.perm {w h w' h' : Nat} {f g : Nat → Nat → Int} (s : SamePixels w h f w' h' g) : (pixList w h f).Perm (pixList w' h' g) := by
  rw [List.perm_iff_count]
  intro v
  have := s v
  rw [pixelCount_list, pixelCount_list] at this
  exact_mod_cast this

theorem SamePixels.sum {w h w' h' : Nat} {f g : Nat → Nat → Int} (s : SamePixels w h f w' h' g) (φ : Int → Int) :
    pixelSum w h (fun x y => φ (f x y)) = pixelSum w' h' (fun x y => φ (g x y)) := by
  rw [pixelSum_list, pixelSum_list]
  exact (s.perm.map φ).sum_eq

theorem SamePixels.symm {w h w' h' : Nat} {f g : Nat → Nat → Int} (s : SamePixels w h f w' h' g) : SamePixels w' h' g w h f := fun v => (s v).symm

theorem SamePixels.area {w h w' h' : Nat} {f g : Nat → Nat → Int} (s : SamePixels w h f w' h' g) : w * h = w' * h' := by
  have := s.sum (fun _ => 1)
  unfold pixelSum at this
  simp only [sumN_const] at this
  have e : ((w * h : Nat) : Int) = ((w' * h' : Nat) : Int) := by
    push_cast
    nlinarith [this]
  exact_mod_cast e

theorem pixelCount_zero {w h : Nat} {f : Nat → Nat → Int} {v : Int} (hv : ∀ x y, x < w → y < h → f x y ≠ v) : pixelCount w h f v = 0 := by
  unfold pixelCount
  rw [pixelSum_congr (g := fun _ _ => 0) (fun a b ha hb => if_neg (hv a b ha hb))]
  unfold pixelSum
  simp only [sumN_zero]

/-- Every pixel of one occurs in the other. -/
theorem SamePixels.occurs {w h w' h' : Nat} {f g : Nat → Nat → Int} (s : SamePixels w h f w' h' g) {x y : Nat} (hx : x < w) (hy : y < h) :
    ∃ x' y', x' < w' ∧ y' < h' ∧ g x' y' = f x y := by
  by_contra c
  have hp := pixelCount_pos f hx hy
  rw [s, pixelCount_zero (fun a b ha hb e => c ⟨a, b, ha, hb, e⟩)] at hp
  omega

theorem SamePixels.all {w h w' h' : Nat} {f g : Nat → Nat → Int} (s : SamePixels w h f w' h' g) {P : Int → Prop}
    (hp : ∀ x y, x < w → y < h → P (f x y)) {x y : Nat} (hx : x < w') (hy : y < h') : P (g x y) := by
  obtain ⟨a, b, ha, hb, e⟩ := s.symm.occurs hx hy
  rw [← e]
  exact hp a b ha hb

theorem pixelSum_columns {w h c : Nat} (hc : c ≤ w) (f : Nat → Nat → Int) :
    pixelSum w h f = pixelSum c h f + pixelSum (w - c) h (fun x y => f (c + x) y) := by
  unfold pixelSum
  rw [← sumN_add]
  exact sumN_congr (fun y _ => sumN_split _ hc)

theorem pixelSum_rows {w h c : Nat} (hc : c ≤ h) (f : Nat → Nat → Int) :
    pixelSum w h f = pixelSum w c f + pixelSum w (h - c) (fun x y => f x (c + y)) := by
  unfold pixelSum
  exact sumN_split _ hc

end Boof
