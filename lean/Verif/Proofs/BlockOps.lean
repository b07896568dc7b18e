import Verif.Proofs.Blocks
import Verif.Proofs.Sum
import Verif.Proofs.Arith
import Verif.Proofs.Statistics
import Mathlib.Tactic.Linarith
/-
Steps shared by the three block filters.
-/
namespace Boof
variable {V : Type}

namespace Grid

theorem first_le (u : Bool) (b : Nat) : first u b ≤ b := by unfold first; split <;> omega

theorem last_lt {u : Bool} {n req b : Nat} (hb : b < count n req) : last u n req b < count n req := by
  unfold last; split <;> omega

theorem le_last {u : Bool} {n req b : Nat} (hb : b < count n req) : b ≤ last u n req b := by
  unfold last; split <;> omega

theorem lo_mono {n req b b' : Nat} (h : b ≤ b') : lo n req b ≤ lo n req b' := Nat.mul_le_mul_right _ h

theorem hi_mono {n req b b' : Nat} (h1 : 1 ≤ req) (h2 : req ≤ n) (h : b ≤ b') (hb : b' < count n req) :
    hi n req b ≤ hi n req b' := by
  rcases Nat.eq_or_lt_of_le h with rfl | hlt
  · exact Nat.le_refl _
  · rw [hi_eq (by omega)]
    have := (lo_le h1 h2 hb).1
    have := lo_mono (n := n) (req := req) (show b + 1 ≤ b' from hlt)
    omega

/-- A pixel in the range of blocks `a .. c` belongs to one of them. -/
theorem has_between {n req a c x : Nat} (h1 : 1 ≤ req) (h2 : req ≤ n) (hac : a ≤ c) (hc : c < count n req)
    (hx : lo n req a ≤ x) (hx' : x < hi n req c) : ∃ b, a ≤ b ∧ b ≤ c ∧ Has n req b x := by
  have hxn : x < n := Nat.lt_of_lt_of_le hx' (lo_le h1 h2 hc).2
  obtain ⟨p, q⟩ := has_blockOf h1 h2 hxn
  refine ⟨_, ?_, ?_, q⟩
  · by_contra hlt
    have := lo_mono (n := n) (req := req) (show blockOf n req x + 1 ≤ a by omega)
    have h3 := q.2
    rw [hi_eq (by omega)] at h3
    omega
  · by_contra hlt
    have h3 : hi n req c = lo n req (c + 1) := hi_eq (by omega)
    have := lo_mono (n := n) (req := req) (show c + 1 ≤ blockOf n req x by omega)
    have := q.1
    omega

theorem has_sub {n req a b c x : Nat} (h1 : 1 ≤ req) (h2 : req ≤ n) (hab : a ≤ b) (hbc : b ≤ c) (hc : c < count n req)
    (hx : Has n req b x) : lo n req a ≤ x ∧ x < hi n req c := by
  have := lo_mono (n := n) (req := req) hab
  have := hi_mono h1 h2 hbc hc
  unfold Has at hx
  omega

end Grid

theorem bounds_eq {n req i : Nat} (h1 : 1 ≤ req) (h2 : req ≤ n) (hn : n < P32) (hi : i < Grid.count n req) :
    Blocks.bounds i (Grid.count n req) (Grid.size n req) n = (Grid.lo n req i, Grid.hi n req i) := by
  unfold Blocks.bounds
  obtain ⟨a1, a2⟩ := Grid.lo_le h1 h2 hi
  have hs := Grid.le_size h1 h2
  have hc : Grid.count n req < P32 := Nat.lt_of_le_of_lt (Nat.div_le_self _ _) hn
  rw [sub32_of_le (by omega) hc]
  have e1 : wrap32 (i * Grid.size n req) = Grid.lo n req i := wrap32_of_lt (by unfold Grid.lo at a1; omega)
  rw [e1]
  congr 1
  by_cases e : i + 1 = Grid.count n req
  · rw [if_pos (by omega), Grid.hi, if_pos e]
  · have : Grid.hi n req i = (i + 1) * Grid.size n req := by unfold Grid.hi; rw [if_neg e]
    rw [if_neg (by omega), ← this, wrap32_of_lt (by omega)]

theorem localRange_eq {u : Bool} {n req i : Nat} (hn : n < P32) (hi : i < Grid.count n req) :
    Blocks.localRange u i (Grid.count n req) = (Grid.first u i, Grid.last u n req i) := by
  unfold Blocks.localRange Grid.first Grid.last
  have hc : Grid.count n req < P32 := Nat.lt_of_le_of_lt (Nat.div_le_self _ _) hn
  cases u
  · rfl
  · simp only [if_true]
    rw [sub32_of_le (by omega) hc, wrap32_of_lt (by omega), Nat.min_comm]
    congr 1
    split <;> omega

/-- Painting a rectangle row by row. -/
theorem rect_paint {h1 h2 : Heap V} {g : Gray} {P : Nat → Nat → Prop} {F : Nat → Nat → V} {x0 x1 y0 y1 : Nat}
    {body : Nat → Nat → M V Unit} (hp : Painted h1 h2 g (sel P F))
    (hP : ∀ x y, x0 ≤ x → x < x1 → y0 ≤ y → y < y1 → ¬P x y)
    (hbody : ∀ y k h3 P', y0 ≤ y → y < y1 → k < x1 - x0 → Painted h1 h3 g (sel P' F) → ¬P' (x0 + k) y →
      Spec (body y k) h3 (fun _ h4 => Painted h1 h4 g (sel (fun x' y' => P' x' y' ∨ (x' = x0 + k ∧ y' = y)) F))) :
    Spec (M.forRange y0 y1 (fun y => M.loop (x1 - x0) (body y))) h2
      (fun _ h3 => Painted h1 h3 g (sel (fun x y => P x y ∨ (x0 ≤ x ∧ x < x1 ∧ y0 ≤ y ∧ y < y1)) F)) := by
  by_cases hle : y1 ≤ y0
  · refine Spec.of_eq (M.forRange_empty h2 hle) (hp.sel_iff (fun x y _ _ => ?_))
    constructor
    · exact Or.inl
    · rintro (h | ⟨_, _, a, b⟩)
      · exact h
      · omega
  refine Spec.conseq (Spec.forRange (fun y h3 => Painted h1 h3 g
    (sel (fun x y' => P x y' ∨ (x0 ≤ x ∧ x < x1 ∧ y0 ≤ y' ∧ y' < y)) F)) ?_ (by omega) ?_) (fun _ _ p => p)
  · exact hp.sel_iff (fun x y _ _ => ⟨Or.inl, fun h => h.elim id (fun ⟨_, _, a, b⟩ => by omega)⟩)
  · intro y h3 hy0 hy1 hp3
    refine Spec.conseq (Spec.loop (fun k h4 => Painted h1 h4 g
      (sel (fun x y' => (P x y' ∨ (x0 ≤ x ∧ x < x1 ∧ y0 ≤ y' ∧ y' < y)) ∨ (x0 ≤ x ∧ x < x0 + k ∧ y' = y)) F)) ?_ ?_) ?_
    · exact hp3.sel_iff (fun x y _ _ => ⟨Or.inl, fun h => h.elim id (fun ⟨_, _, a⟩ => by omega)⟩)
    · intro k h4 hk hp4
      refine Spec.conseq (hbody y k h4 _ hy0 hy1 hk hp4 ?_) ?_
      · rintro ((h | h) | h)
        · exact hP _ _ (by omega) (by omega) hy0 hy1 h
        · omega
        · omega
      · intro _ h5 hp5
        refine hp5.sel_iff (fun x' y' _ _ => ?_)
        constructor
        · rintro (h | ⟨rfl, rfl⟩)
          · rcases h with h | h
            · exact Or.inl h
            · exact Or.inr (by omega)
          · exact Or.inr (by omega)
        · rintro (h | h)
          · exact Or.inl (Or.inl h)
          · by_cases e : x' = x0 + k
            · exact Or.inr (by omega)
            · exact Or.inl (Or.inr (by omega))
    · intro _ h4 hp4
      refine hp4.sel_iff (fun x' y' _ _ => ?_)
      constructor
      · rintro ((h | h) | h)
        · exact Or.inl h
        · exact Or.inr (by omega)
        · exact Or.inr (by omega)
      · rintro (h | h)
        · exact Or.inl (Or.inl h)
        · by_cases e : y' = y
          · exact Or.inr (by omega)
          · exact Or.inl (Or.inr (by omega))

/-- Address of a pixel of a row that starts at column `x0`. -/
theorem Gray.Valid.addr_from {h : Heap V} {g : Gray} (hv : g.Valid h) {x0 k y : Nat} (hx : x0 + k < g.width)
    (hy : y < g.height) : wrap32 (g.offset + y * g.stride + x0) + k = g.addr (x0 + k) y ∧
      wrap32 (wrap32 (g.offset + y * g.stride + x0) + k) = g.addr (x0 + k) y := by
  have a := hv.addr_lt32 hx hy
  unfold Gray.addr at a ⊢
  rw [wrap32_of_lt (by omega), wrap32_of_lt (by omega)]
  omega

/-- A double loop that adds up values, exact because the terms are not negative and the total fits. -/
theorem loop_sum {t : IntTy} (hb : 0 < t.bits) {h : Heap Int} {n m : Nat} {g : Nat → Nat → Int}
    {read : Nat → Nat → M Int Int} (hread : ∀ y k, y < n → k < m → read y k h = .ok (g k y) h)
    (h0 : ∀ y k, y < n → k < m → 0 ≤ g k y) (hr : pixelSum m n g ≤ t.hi) :
    M.loopS n (0 : Int) (fun y s => M.loopS m s (fun k s => read y k >>= fun v => t.arith (s + v))) h =
      .ok (pixelSum m n g) h := by
  suffices Spec (M.loopS n (0 : Int) (fun y s => M.loopS m s (fun k s => read y k >>= fun v => t.arith (s + v)))) h
      (fun s h' => s = pixelSum m n g ∧ h' = h) by
    obtain ⟨_, _, e, rfl, rfl⟩ := this; exact e
  have hlo : t.lo ≤ 0 := IntTy.inRange_zero.1
  have hrow : ∀ y, y < n → 0 ≤ sumN m (fun k => g k y) := fun y hy => sumN_nonneg (fun k hk => h0 y k hy hk)
  refine Spec.conseq (Spec.loopS (fun y s h' => s = sumN y (fun y' => sumN m (fun k => g k y')) ∧ h' = h) ⟨rfl, rfl⟩ ?_)
    (fun _ _ p => p)
  rintro y s h' hy ⟨rfl, rfl⟩
  refine Spec.conseq (Spec.loopS (fun k s h1 => s = sumN y (fun y' => sumN m (fun k => g k y')) +
    sumN k (fun k => g k y) ∧ h1 = h') ⟨by simp [sumN], rfl⟩ ?_) ?_
  · rintro k s h1 hk ⟨rfl, rfl⟩
    refine Spec.bind_eq (hread y k hy hk) ?_
    have e : sumN y (fun y' => sumN m (fun k => g k y')) + sumN k (fun k => g k y) + g k y =
        sumN y (fun y' => sumN m (fun k => g k y')) + sumN (k+1) (fun k => g k y) := by simp only [sumN]; omega
    have b1 : sumN (k+1) (fun k => g k y) ≤ sumN m (fun k => g k y) :=
      sumN_mono_n hk (fun i hi => h0 y i hy hi)
    have b2 : sumN (y+1) (fun y' => sumN m (fun k => g k y')) ≤ pixelSum m n g :=
      sumN_mono_n hy (fun i hi => hrow i hi)
    have b3 : 0 ≤ sumN y (fun y' => sumN m (fun k => g k y')) := sumN_nonneg (fun i hi => hrow i (by omega))
    have b4 : 0 ≤ sumN (k+1) (fun k => g k y) := sumN_nonneg (fun i hi => h0 y i hy (by omega))
    have b5 : sumN (y+1) (fun y' => sumN m (fun k => g k y')) =
      sumN y (fun y' => sumN m (fun k => g k y')) + sumN m (fun k => g k y) := rfl
    rw [e]
    exact Spec.of_eq (IntTy.arith_run hb ⟨by omega, by omega⟩ _) ⟨rfl, rfl⟩
  · rintro _ _ ⟨rfl, rfl⟩
    exact ⟨rfl, rfl⟩

/-- The painting step of the threshold functions: pixel `(x,y)` of the block gets `dec (f x y)`. -/
theorem thresh_paint {h h1 h2 : Heap V} {input output : Gray} {f F : Nat → Nat → V} {P : Nat → Nat → Prop}
    {x0 x1 y0 y1 : Nat} {dec : V → V} (hov : output.Valid h1) (hr : Readable h h1 input output f)
    (hp : Painted h1 h2 output (sel P F)) (ew : output.width = input.width) (eh : output.height = input.height)
    (hx1 : x1 ≤ input.width) (hy1 : y1 ≤ input.height)
    (hP : ∀ x y, x0 ≤ x → x < x1 → y0 ≤ y → y < y1 → ¬P x y)
    (hF : ∀ x y, x0 ≤ x → x < x1 → y0 ≤ y → y < y1 → F x y = dec (f x y))
    {body : Nat → Nat → M V Unit}
    (hbody : ∀ y k h3, y0 ≤ y → y < y1 → k < x1 - x0 → M.rd input.buf (input.addr (x0 + k) y) h3 = .ok (f (x0 + k) y) h3 →
      body y k h3 = M.wr output.buf (output.addr (x0 + k) y) (dec (f (x0 + k) y)) h3) :
    Spec (M.forRange y0 y1 (fun y => M.loop (x1 - x0) (body y))) h2
      (fun _ h3 => Painted h1 h3 output (sel (fun x y => P x y ∨ (x0 ≤ x ∧ x < x1 ∧ y0 ≤ y ∧ y < y1)) F)) := by
  refine rect_paint hp hP ?_
  intro y k h3 P' hy0 hy1 hk hp3 hn
  have hrd := hr.read h3 P' F (x0 + k) y hp3 (by omega) (by omega) hn
  have e := hbody y k h3 hy0 hy1 hk (M.rd_run hrd)
  have := hp3.sel_wr hov (x := x0 + k) (y := y) (v := dec (f (x0 + k) y)) (by omega) (by omega) rfl
    (hF _ _ (by omega) (by omega) hy0 (by omega)).symm (fun _ _ _ _ => Iff.rfl)
  unfold Spec at this ⊢
  rw [e]; exact this

end Boof
