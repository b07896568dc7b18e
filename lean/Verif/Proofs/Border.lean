import Verif.Model.Border
import Verif.Spec.Border
import Verif.Proofs.Image
namespace Boof
variable {V : Type}

theorem toU32_toS32 {n : Nat} (h : n < P32) : toU32 (toS32 n) = n := by
  unfold toU32 toS32 P32 at *
  simp only []
  split <;> omega

theorem toU32_nn {x : Int} (h0 : 0 ≤ x) (h : IsS32 x) : (toU32 x : Int) = x := by
  unfold toU32 IsS32 P32 at *; omega

/-- Reading through an index border, given what its `adjust` does to the two coordinates. -/
theorem Border.get_of_adjust {h : Heap V} {g : Gray} {b : Border V} (hb : ∀ v, b ≠ .value v) (hv : g.Valid h)
    {x y : Int} {mx my : Nat} (hx : IsS32 x) (hy : IsS32 y)
    (ax : ∃ x', b.adjust x g.width h = .ok x' h ∧ toU32 x' = mx) (hmx : mx < g.width)
    (ay : ∃ y', b.adjust y g.height h = .ok y' h ∧ toU32 y' = my) (hmy : my < g.height)
    (ix : 0 ≤ x → x < g.width → mx = x.toNat) (iy : 0 ≤ y → y < g.height → my = y.toNat) :
    ∃ v, b.get g x y h = .ok v h ∧ h.px g mx my = some v := by
  obtain ⟨v, e⟩ := hv.px_some hmx hmy
  refine ⟨v, ?_, e⟩
  unfold Border.get
  by_cases hc : x ≥ 0 ∧ y ≥ 0 ∧ toU32 x < g.width ∧ toU32 y < g.height
  · rw [if_pos hc]
    obtain ⟨h1, h2, h3, h4⟩ := hc
    have ux := toU32_nn h1 hx
    have uy := toU32_nn h2 hy
    have e1 : toU32 x = mx := by rw [ix h1 (by omega)]; omega
    have e2 : toU32 y = my := by rw [iy h2 (by omega)]; omega
    rw [e1, e2]
    unfold Gray.at'
    rw [if_neg (by omega), hv.index_eq hmx hmy]
    exact M.rd_run e
  · rw [if_neg hc]
    obtain ⟨x', a1, a2⟩ := ax
    obtain ⟨y', b1, b2⟩ := ay
    have hout : b.outsideGet g x y = (do
        let x ← b.adjust x g.width
        let y ← b.adjust y g.height
        g.unsafeAt (toU32 x) (toU32 y)) := by
      cases b with
      | value v => exact absurd rfl (hb v)
      | _ => rfl
    rw [hout, M.bind_ok a1, M.bind_ok b1, a2, b2]
    unfold Gray.unsafeAt
    rw [hv.index_eq hmx hmy]
    exact M.rd_run e

theorem adjust_extend {h : Heap V} {x : Int} (hx : IsS32 x) {n : Nat} (h0 : 0 < n) (hn : n < P32) :
    (∃ x', (Border.extend : Border V).adjust x n h = .ok x' h ∧ toU32 x' = clampTo n x) ∧ clampTo n x < n := by
  refine ⟨?_, by unfold clampTo; omega⟩
  unfold Border.adjust
  simp only []
  by_cases c1 : x < 0
  · rw [if_pos c1]
    exact ⟨0, rfl, by unfold clampTo toU32 P32; omega⟩
  · have ux := toU32_nn (by omega) hx
    rw [if_neg c1]
    by_cases c2 : toU32 x ≥ n
    · rw [if_pos c2, sub32_of_le (by omega) hn]
      refine ⟨_, rfl, ?_⟩
      rw [toU32_toS32 (by omega)]
      unfold clampTo; omega
    · rw [if_neg c2]
      refine ⟨_, rfl, ?_⟩
      unfold clampTo; omega

theorem mirror_in {n : Nat} {x : Int} (h0 : 0 ≤ x) (h1 : x < n) : mirrorTo n x = x.toNat := by
  unfold mirrorTo
  simp only []
  by_cases hn : n ≤ 1
  · rw [if_pos hn]; omega
  · rw [if_neg hn]
    have : x % (2 * ((n:Int) - 1)) = x := Int.emod_eq_of_lt h0 (by omega)
    rw [this, if_pos (by omega)]

theorem adjust_reflect {h : Heap V} {x : Int} (hx : IsS32 x) {n : Nat} (h0 : 0 < n) (hn : n < P32)
    (lo : -((n:Int) - 1) ≤ x) (hi : x ≤ 2 * (n:Int) - 2) (hx0 : x ≠ -2147483648) :
    (∃ x', (Border.reflect : Border V).adjust x n h = .ok x' h ∧ toU32 x' = mirrorTo n x) ∧ mirrorTo n x < n := by
  unfold Border.adjust IsS32 at *
  simp only []
  by_cases c1 : x < 0
  · rw [if_pos c1]
    have hm : mirrorTo n x = (-x).toNat := by
      unfold mirrorTo
      simp only []
      rw [if_neg (by omega)]
      have e : x % (2 * ((n:Int) - 1)) = x + 2 * ((n:Int) - 1) := by
        rw [← Int.add_emod_right]
        exact Int.emod_eq_of_lt (by omega) (by omega)
      rw [e]
      split
      · omega
      · omega
    refine ⟨⟨-x, ?_, ?_⟩, by rw [hm]; omega⟩
    · unfold IntTy.arith S32 IntTy.InRange IntTy.lo IntTy.hi
      simp only [if_true]
      rw [if_pos (by omega)]
      rfl
    · rw [hm]; unfold toU32 P32; omega
  · have ux := toU32_nn (by omega) hx
    rw [if_neg c1]
    by_cases c2 : toU32 x ≥ n
    · rw [if_pos c2]
      have hm : mirrorTo n x = 2 * n - 2 - x.toNat := by
        unfold mirrorTo
        simp only []
        rw [if_neg (by omega)]
        by_cases hx2 : x = 2 * ((n:Int) - 1)
        · rw [hx2, Int.emod_self, if_pos (by omega)]; omega
        · have e : x % (2 * ((n:Int) - 1)) = x := Int.emod_eq_of_lt (by omega) (by omega)
          rw [e, if_neg (by omega)]; omega
      refine ⟨⟨_, rfl, ?_⟩, by rw [hm]; omega⟩
      rw [hm]
      have e1 : sub32 (toU32 x) n = toU32 x - n := sub32_of_le c2 (by unfold toU32 P32 at *; omega)
      have e2 : sub32 n 2 = n - 2 := sub32_of_le (by omega) hn
      rw [e1, e2, sub32_of_le (by omega) (by omega), toU32_toS32 (by omega)]
      omega
    · rw [if_neg c2]
      have := mirror_in (n := n) (x := x) (by omega) (by omega)
      exact ⟨⟨x, rfl, by rw [this]; omega⟩, by rw [this]; omega⟩

theorem adjust_wrap {h : Heap V} {x : Int} (hx : IsS32 x) {n : Nat} (hn : n < P32)
    (lo : -(n:Int) ≤ x) (hi : x < 2 * (n:Int)) :
    (∃ x', (Border.wrap : Border V).adjust x n h = .ok x' h ∧ toU32 x' = wrapTo n x) ∧ wrapTo n x < n := by
  have hlt : wrapTo n x < n := by
    unfold wrapTo
    have h1 := Int.emod_lt_of_pos x (b := n) (by omega)
    have h2 := Int.emod_nonneg x (b := n) (by omega)
    omega
  refine ⟨?_, hlt⟩
  unfold Border.adjust IsS32 at *
  simp only []
  by_cases c1 : x < 0
  · rw [if_pos c1]
    refine ⟨_, rfl, ?_⟩
    have e : x % (n:Int) = x + n := by
      rw [← Int.add_emod_right]; exact Int.emod_eq_of_lt (by omega) (by omega)
    have e2 : wrap32 (n + toU32 x) = (x + n).toNat := by
      unfold wrap32 toU32 P32 at *; omega
    rw [e2, toU32_toS32 (by omega)]
    unfold wrapTo; rw [e]
  · have ux := toU32_nn (by omega) hx
    rw [if_neg c1]
    by_cases c2 : toU32 x ≥ n
    · rw [if_pos c2]
      refine ⟨_, rfl, ?_⟩
      have e : x % (n:Int) = x - n := by
        rw [← Int.sub_emod_right]; exact Int.emod_eq_of_lt (by omega) (by omega)
      have e2 : sub32 (toU32 x) n = (x - n).toNat := by
        rw [sub32_of_le c2 (by unfold toU32 P32 at *; omega)]; omega
      rw [e2, toU32_toS32 (by omega)]
      unfold wrapTo; rw [e]
    · rw [if_neg c2]
      refine ⟨_, rfl, ?_⟩
      have e : x % (n:Int) = x := Int.emod_eq_of_lt (by omega) (by omega)
      unfold wrapTo; rw [e]; omega

end Boof
