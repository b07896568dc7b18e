import Verif.Spec.Nearby
import Verif.Proofs.Blocks
import Verif.Proofs.Brightness
import Verif.Proofs.Symmetry
import Verif.Proofs.Sum
/-
Block statistics: which pixels they depend on, and mirrored pictures.
-/
namespace Boof

theorem rectSum_near {f g : Nat → Nat → Int} {x0 x1 y0 y1 : Nat} (e : ∀ x y, x0 ≤ x → x < x1 → y0 ≤ y → y < y1 → f x y = g x y) :
    rectSum f x0 x1 y0 y1 = rectSum g x0 x1 y0 y1 := by
  unfold rectSum
  exact pixelSum_congr (fun x y hx hy => e _ _ (by omega) (by omega) (by omega) (by omega))

theorem localMean_near {u : Bool} {w ht req : Nat} {S S' : Nat → Nat → Int} {i j : Nat}
    (e : ∀ i' j', Grid.first u i ≤ i' → i' ≤ Grid.last u w req i → Grid.first u j ≤ j' → j' ≤ Grid.last u ht req j → S i' j' = S' i' j') :
    localMean u w ht req S i j = localMean u w ht req S' i j := by
  unfold localMean
  rw [rectSum_near (fun x y h1 h2 h3 h4 => e x y h1 (by omega) h3 (by omega))]

theorem block_inside {u : Bool} {n req i i' : Nat} (r1 : 1 ≤ req) (r2 : req ≤ n) (hi : i < Grid.count n req) (h1 : Grid.first u i ≤ i') (h2 : i' ≤ Grid.last u n req i) :
    localLo u n req i ≤ Grid.lo n req i' ∧ Grid.hi n req i' ≤ localHi u n req i :=
  ⟨Grid.lo_mono h1, Grid.hi_mono r1 r2 h2 (Grid.last_lt hi)⟩

theorem IsRectMin.near {f g : Nat → Nat → Int} {x0 x1 y0 y1 : Nat} (e : ∀ x y, x0 ≤ x → x < x1 → y0 ≤ y → y < y1 → f x y = g x y) {m m' : Int}
    (a : IsRectMin f x0 x1 y0 y1 m) (b : IsRectMin g x0 x1 y0 y1 m') : m' = m := by
  obtain ⟨a1, x, y, p1, p2, p3, p4, q⟩ := a
  obtain ⟨b1, x', y', r1, r2, r3, r4, s⟩ := b
  have := a1 x' y' r1 r2 r3 r4
  have := b1 x y p1 p2 p3 p4
  rw [← e x y p1 p2 p3 p4] at this
  rw [← e x' y' r1 r2 r3 r4] at s
  omega

theorem IsRectMax.near {f g : Nat → Nat → Int} {x0 x1 y0 y1 : Nat} (e : ∀ x y, x0 ≤ x → x < x1 → y0 ≤ y → y < y1 → f x y = g x y) {m m' : Int}
    (a : IsRectMax f x0 x1 y0 y1 m) (b : IsRectMax g x0 x1 y0 y1 m') : m' = m := by
  obtain ⟨a1, x, y, p1, p2, p3, p4, q⟩ := a
  obtain ⟨b1, x', y', r1, r2, r3, r4, s⟩ := b
  have := a1 x' y' r1 r2 r3 r4
  have := b1 x y p1 p2 p3 p4
  rw [← e x y p1 p2 p3 p4] at this
  rw [← e x' y' r1 r2 r3 r4] at s
  omega

/-! ### Mirrored pictures -/

theorem sumN_mirror (n : Nat) (f : Nat → Int) : sumN n (fun i => f (n - 1 - i)) = sumN n f := by
  have key : ∀ n, ∀ f : Nat → Int, sumN (n + 1) f = f 0 + sumN n (fun i => f (i + 1)) := by
    intro n
    induction n with
    | zero => intro f; show 0 + f 0 = f 0 + 0; omega
    | succ n ih =>
      intro f
      show sumN (n + 1) f + f (n + 1) = f 0 + (sumN n (fun i => f (i + 1)) + f (n + 1))
      rw [ih]; omega
  induction n generalizing f with
  | zero => rfl
  | succ n ih =>
    rw [key]
    show f (n + 1 - 1 - 0) + sumN n (fun i => f (n + 1 - 1 - (i + 1))) = sumN n f + f n
    rw [← ih f, sumN_congr (g := fun i => f (n - 1 - i)) (fun i hi => by congr 1; omega)]
    rw [show n + 1 - 1 - 0 = n by omega]
    omega

/-- The interval `[lo, hi)` of a line of `n`, from the other end if `a`. -/
def mirLo (a : Bool) (n lo hi : Nat) : Nat := if a then n - hi else lo
def mirHi (a : Bool) (n lo hi : Nat) : Nat := if a then n - lo else hi

theorem sumN_mirrorIf {a : Bool} {n lo hi : Nat} (h1 : hi ≤ n) (f : Nat → Int) :
    sumN (mirHi a n lo hi - mirLo a n lo hi) (fun i => f (mirrorIf a n (mirLo a n lo hi + i))) = sumN (hi - lo) (fun i => f (lo + i)) := by
  cases a with
  | false => rfl
  | true =>
    show sumN (n - lo - (n - hi)) (fun i => f (n - 1 - (n - hi + i))) = _
    by_cases h : lo ≤ hi
    · rw [← sumN_mirror (hi - lo), show n - lo - (n - hi) = hi - lo by omega]
      exact sumN_congr (fun i hi' => by congr 1; omega)
    · rw [show n - lo - (n - hi) = 0 by omega, show hi - lo = 0 by omega]; rfl

theorem rectSum_mirror {a b : Bool} {w ht x0 x1 y0 y1 : Nat} (hx : x1 ≤ w) (hy : y1 ≤ ht) (f : Nat → Nat → Int) :
    rectSum (mirrored a b w ht f) (mirLo a w x0 x1) (mirHi a w x0 x1) (mirLo b ht y0 y1) (mirHi b ht y0 y1) = rectSum f x0 x1 y0 y1 := by
  unfold rectSum pixelSum
  rw [← sumN_mirrorIf (a := b) hy (fun y => sumN (x1 - x0) (fun x => f (x0 + x) y))]
  exact sumN_congr (fun y _ => sumN_mirrorIf (a := a) hx (fun x => f x (mirrorIf b ht (mirLo b ht y0 y1 + y))))

theorem mir_mem {a : Bool} {n lo hi x : Nat} (h : hi ≤ n) (h1 : lo ≤ x) (h2 : x < hi) :
    mirLo a n lo hi ≤ mirrorIf a n x ∧ mirrorIf a n x < mirHi a n lo hi := by
  unfold mirLo mirHi mirrorIf
  cases a <;> simp only [Bool.false_eq_true, if_false, if_true] <;> omega

theorem mir_mem' {a : Bool} {n lo hi x : Nat} (h : hi ≤ n) (h1 : mirLo a n lo hi ≤ x) (h2 : x < mirHi a n lo hi) :
    lo ≤ mirrorIf a n x ∧ mirrorIf a n x < hi := by
  unfold mirLo at h1
  unfold mirHi at h2
  unfold mirrorIf
  cases a <;> simp only [Bool.false_eq_true, if_false, if_true] at * <;> omega

theorem IsRectMin.mirror {a b : Bool} {w ht x0 x1 y0 y1 : Nat} (hx : x1 ≤ w) (hy : y1 ≤ ht) {f : Nat → Nat → Int} {m : Int}
    (h : IsRectMin f x0 x1 y0 y1 m) :
    IsRectMin (mirrored a b w ht f) (mirLo a w x0 x1) (mirHi a w x0 x1) (mirLo b ht y0 y1) (mirHi b ht y0 y1) m := by
  obtain ⟨h1, x, y, p1, p2, p3, p4, e⟩ := h
  refine ⟨fun x y q1 q2 q3 q4 => h1 _ _ (mir_mem' hx q1 q2).1 (mir_mem' hx q1 q2).2 (mir_mem' hy q3 q4).1 (mir_mem' hy q3 q4).2,
    mirrorIf a w x, mirrorIf b ht y, (mir_mem hx p1 p2).1, (mir_mem hx p1 p2).2, (mir_mem hy p3 p4).1, (mir_mem hy p3 p4).2, ?_⟩
  unfold mirrored
  rw [mirrorIf_twice (by omega), mirrorIf_twice (by omega), e]

theorem IsRectMax.mirror {a b : Bool} {w ht x0 x1 y0 y1 : Nat} (hx : x1 ≤ w) (hy : y1 ≤ ht) {f : Nat → Nat → Int} {m : Int}
    (h : IsRectMax f x0 x1 y0 y1 m) :
    IsRectMax (mirrored a b w ht f) (mirLo a w x0 x1) (mirHi a w x0 x1) (mirLo b ht y0 y1) (mirHi b ht y0 y1) m := by
  obtain ⟨h1, x, y, p1, p2, p3, p4, e⟩ := h
  refine ⟨fun x y q1 q2 q3 q4 => h1 _ _ (mir_mem' hx q1 q2).1 (mir_mem' hx q1 q2).2 (mir_mem' hy q3 q4).1 (mir_mem' hy q3 q4).2,
    mirrorIf a w x, mirrorIf b ht y, (mir_mem hx p1 p2).1, (mir_mem hx p1 p2).2, (mir_mem hy p3 p4).1, (mir_mem hy p3 p4).2, ?_⟩
  unfold mirrored
  rw [mirrorIf_twice (by omega), mirrorIf_twice (by omega), e]

namespace Grid
variable {n req : Nat}

theorem Even.hi_eq (he : Even n req) {b : Nat} : hi n req b = (b + 1) * size n req := by
  unfold Grid.hi
  split
  · rename_i h; rw [h]; exact he.symm
  · rfl

theorem Even.lo_mirror (he : Even n req) {a : Bool} {b : Nat} (hb : b < count n req) :
    lo n req (mirrorIf a (count n req) b) = mirLo a n (lo n req b) (hi n req b) := by
  cases a with
  | false => rfl
  | true =>
    show (count n req - 1 - b) * size n req = n - hi n req b
    rw [he.hi_eq, show count n req - 1 - b = count n req - (b + 1) by omega, Nat.sub_mul, he]

theorem Even.hi_mirror (he : Even n req) {a : Bool} {b : Nat} (hb : b < count n req) :
    hi n req (mirrorIf a (count n req) b) = mirHi a n (lo n req b) (hi n req b) := by
  cases a with
  | false => rfl
  | true =>
    show hi n req (count n req - 1 - b) = n - lo n req b
    rw [he.hi_eq, show count n req - 1 - b + 1 = count n req - b by omega, Nat.sub_mul, he]
    rfl

theorem first_mirror {u a : Bool} {b : Nat} (hb : b < count n req) :
    first u (mirrorIf a (count n req) b) = mirLo a (count n req) (first u b) (last u n req b + 1) := by
  unfold first last mirrorIf mirLo
  generalize count n req = c at *
  cases a <;> cases u <;> simp only [Bool.false_eq_true, if_false, if_true] <;> omega

theorem last_mirror {u a : Bool} {b : Nat} (hb : b < count n req) :
    last u n req (mirrorIf a (count n req) b) + 1 = mirHi a (count n req) (first u b) (last u n req b + 1) := by
  unfold first last mirrorIf mirHi
  generalize count n req = c at *
  cases a <;> cases u <;> simp only [Bool.false_eq_true, if_false, if_true] <;> omega

theorem Even.localLo_mirror (he : Even n req) {u a : Bool} {b : Nat} (hb : b < count n req) :
    localLo u n req (mirrorIf a (count n req) b) = mirLo a n (localLo u n req b) (localHi u n req b) := by
  unfold localLo localHi
  rw [first_mirror hb]
  cases a with
  | false => rfl
  | true =>
    have := he.lo_mirror (a := true) (Grid.last_lt (u := u) hb)
    show lo n req (count n req - (last u n req b + 1)) = n - hi n req (last u n req b)
    rw [show count n req - (last u n req b + 1) = mirrorIf true (count n req) (last u n req b) by
      show _ = count n req - 1 - last u n req b; omega, this]
    rfl

theorem Even.localHi_mirror (he : Even n req) {u a : Bool} {b : Nat} (hb : b < count n req) :
    localHi u n req (mirrorIf a (count n req) b) = mirHi a n (localLo u n req b) (localHi u n req b) := by
  unfold localLo localHi
  have e := last_mirror (u := u) (a := a) hb
  cases a with
  | false => rfl
  | true =>
    have hf := Grid.first_le u b
    have := he.hi_mirror (a := true) (show first u b < count n req by omega)
    change last u n req (mirrorIf true (count n req) b) + 1 = count n req - first u b at e
    rw [show last u n req (mirrorIf true (count n req) b) = mirrorIf true (count n req) (first u b) by
      show _ = count n req - 1 - first u b; omega, this]
    rfl

theorem Even.blockOf_mirror (he : Even n req) (h1 : 1 ≤ req) (hn : req ≤ n) {a : Bool} {x : Nat} (hx : x < n) :
    blockOf n req (mirrorIf a n x) = mirrorIf a (count n req) (blockOf n req x) := by
  obtain ⟨hb, hh⟩ := has_blockOf h1 hn hx
  obtain ⟨hb', hh'⟩ := has_blockOf h1 hn (mirrorIf_lt (b := a) hx)
  refine has_unique h1 hn hb' (mirrorIf_lt hb) hh' ?_
  have hle := (lo_le h1 hn hb).2
  unfold Has
  rw [he.lo_mirror hb, he.hi_mirror hb]
  exact mir_mem hle hh.1 hh.2

end Grid

theorem mirHi_sub {a : Bool} {n lo hi : Nat} (h : hi ≤ n) (h2 : lo ≤ hi) : mirHi a n lo hi - mirLo a n lo hi = hi - lo := by
  unfold mirHi mirLo
  cases a <;> simp only [Bool.false_eq_true, if_false, if_true] <;> omega

section
variable {K : Type} [Field K] [LinearOrder K] [IsStrictOrderedRing K] [FloorRing K]

theorem meanStat_mirror {w ht req : Nat} (ew : Grid.Even w req) (eh : Grid.Even ht req) (h1 : 1 ≤ req) (hw : req ≤ w) (hh : req ≤ ht)
    {scaled : Int → Nat → K} {f : Nat → Nat → Int} {a b : Bool} {i j : Nat} (hi : i < Grid.count w req) (hj : j < Grid.count ht req) :
    meanStat scaled w ht req (mirrored a b w ht f) (mirrorIf a (Grid.count w req) i) (mirrorIf b (Grid.count ht req) j) =
      meanStat scaled w ht req f i j := by
  unfold meanStat
  have lx := Grid.lo_le h1 hw hi
  have ly := Grid.lo_le h1 hh hj
  have sx := Grid.le_size h1 hw
  have sy := Grid.le_size h1 hh
  rw [ew.lo_mirror hi, ew.hi_mirror hi, eh.lo_mirror hj, eh.hi_mirror hj, rectSum_mirror lx.2 ly.2,
    mirHi_sub lx.2 (by omega), mirHi_sub ly.2 (by omega)]

theorem localMean_mirror {w ht req : Nat} {S : Nat → Nat → Int} {u a b : Bool} {i j : Nat}
    (hi : i < Grid.count w req) (hj : j < Grid.count ht req) :
    localMean u w ht req (mirrored a b (Grid.count w req) (Grid.count ht req) S) (mirrorIf a (Grid.count w req) i) (mirrorIf b (Grid.count ht req) j) =
      localMean u w ht req S i j := by
  have lx := Grid.last_lt (u := u) hi
  have ly := Grid.last_lt (u := u) hj
  have fx := Nat.le_trans (Grid.first_le u i) (Grid.le_last (u := u) hi)
  have fy := Nat.le_trans (Grid.first_le u j) (Grid.le_last (u := u) hj)
  unfold localMean
  rw [Grid.first_mirror hi, Grid.last_mirror hi, Grid.first_mirror hj, Grid.last_mirror hj, rectSum_mirror (by omega) (by omega),
    mirHi_sub (by omega) (by omega), mirHi_sub (by omega) (by omega)]

end

theorem rectCount_mirror {a b : Bool} {w ht x0 x1 y0 y1 : Nat} (hx : x1 ≤ w) (hy : y1 ≤ ht) (f : Nat → Nat → Int) (v : Int) :
    rectCount (mirrored a b w ht f) v (mirLo a w x0 x1) (mirHi a w x0 x1) (mirLo b ht y0 y1) (mirHi b ht y0 y1) = rectCount f v x0 x1 y0 y1 :=
  rectSum_mirror hx hy (fun x y => if f x y = v then 1 else 0)

end Boof
