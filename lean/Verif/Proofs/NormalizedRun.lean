import Verif.Proofs.Normalized
import Verif.Proofs.TwoStage
namespace Boof
open M
variable {V S : Type}

theorem foldO_add {t r : IntTy} {n : Nat} {s0 : Int} {c : Nat → Int}
    (hb : |s0| + sumF n (fun k => |c k|) ≤ t.signedType.hi) :
    foldO n s0 (fun k s => (intArith t r).add s (c k)) = some (s0 + sumF n c) ∧
      |s0 + sumF n c| ≤ |s0| + sumF n (fun k => |c k|) := by
  induction n with
  | zero => exact ⟨by simp [foldO, sumF], by simp [sumF]⟩
  | succ n ih =>
    have hs : sumF (n+1) (fun k => |c k|) = sumF n (fun k => |c k|) + |c n| := rfl
    have hs' : sumF (n+1) c = sumF n c + c n := rfl
    have h0 := abs_nonneg (c n)
    rw [hs] at hb
    obtain ⟨e, e'⟩ := ih (by omega)
    have e2 := abs_add_le (s0 + sumF n c) (c n)
    have lo := lo_le_neg_hi (signedType_signed t)
    rw [hs, hs']
    refine ⟨?_, by rw [← add_assoc]; omega⟩
    unfold foldO
    rw [e, Option.bind_some]
    show (if _ then _ else _) = _
    have a2 := abs_le.mp (show |s0 + sumF n c + c n| ≤ t.signedType.hi by omega)
    rw [if_pos ⟨by omega, by omega⟩, add_assoc]

theorem abs_tdiv_le (a b : Int) : |a.tdiv b| ≤ |a| := by
  rw [Int.abs_eq_natAbs, Int.abs_eq_natAbs, Int.natAbs_tdiv]
  exact_mod_cast Nat.div_le_self _ _

theorem norm_int {t r : IntTy} {T W : Int} (hW : W ≠ 0) (hb : |T| + |W| ≤ t.signedType.hi) :
    (intArith t r).norm T W = some (t.cast ((T + W.tdiv 2).tdiv W)) := by
  have lo := lo_le_neg_hi (signedType_signed t)
  have h1 := abs_tdiv_le W 2
  have h2 := abs_add_le T (W.tdiv 2)
  have h3 := abs_tdiv_le (T + W.tdiv 2) W
  have a1 := abs_le.mp (show |T + W.tdiv 2| ≤ t.signedType.hi by omega)
  have a2 := abs_le.mp (show |(T + W.tdiv 2).tdiv W| ≤ t.signedType.hi by omega)
  show (if _ then _ else if _ then _ else _) = _
  rw [if_neg hW, if_pos ⟨⟨by omega, by omega⟩, ⟨by omega, by omega⟩⟩]

theorem avg_int {t r : IntTy} {kw o n x : Nat} {c v : Nat → Int}
    (hb : winSum kw o (fun i => |c i|) n (fun i => |v i|) x + winWeight kw o (fun i => |c i|) n x ≤ t.signedType.hi)
    (hW : winWeight kw o c n x ≠ 0) :
    avgAt (intArith t r) kw o c n v x =
      some (t.cast ((winSum kw o c n v x + (winWeight kw o c n x).tdiv 2).tdiv (winWeight kw o c n x))) ∧
    weightAt (intArith t r) kw o c n x = some (winWeight kw o c n x) := by
  have nn : ∀ (m : Nat) (f : Nat → Int), 0 ≤ sumF m (fun i => |f i|) := by
    intro m f
    induction m with
    | zero => exact Int.le_refl _
    | succ m ih => exact add_nonneg ih (abs_nonneg _)
  unfold winSum winWeight at *
  simp only [← abs_mul] at hb
  have n1 := nn (lastIn kw o n x - firstIn o x) (fun i => c (firstIn o x + i))
  have n2 := nn (lastIn kw o n x - firstIn o x) (fun i => c (firstIn o x + i) * v (x + (firstIn o x + i) - o))
  obtain ⟨e1, b1⟩ := foldO_mac (t := t) (r := r) (n := lastIn kw o n x - firstIn o x) (s0 := 0)
    (c := fun i => c (firstIn o x + i)) (v := fun i => v (x + (firstIn o x + i) - o))
    (by rw [abs_zero, zero_add]; omega)
  obtain ⟨e2, b2⟩ := foldO_add (t := t) (r := r) (n := lastIn kw o n x - firstIn o x) (s0 := 0)
    (c := fun i => c (firstIn o x + i)) (by rw [abs_zero, zero_add]; omega)
  simp only [abs_zero, zero_add] at e1 e2 b1 b2
  refine ⟨?_, e2⟩
  unfold avgAt
  simp only []
  rw [show (intArith t r).zero = (0:Int) from rfl, e1, e2]
  exact norm_int hW (by omega)

theorem avg_exact {K : Type} [Field K] [DecidableEq K] {kw o n x : Nat} {c v : Nat → K} (hW : winWeight kw o c n x ≠ 0) :
    avgAt (fieldArith K) kw o c n v x = some (winSum kw o c n v x / winWeight kw o c n x) := by
  have e1 : ∀ (m : Nat) (a b : Nat → K), foldO m (0 : K) (fun i t => (fieldArith K).mac t (a i) (b i)) =
      some (sumF m (fun i => a i * b i)) := by
    intro m a b
    induction m with
    | zero => rfl
    | succ m ih => unfold foldO; rw [ih]; rfl
  have e2 : ∀ (m : Nat) (a : Nat → K), foldO m (0 : K) (fun i t => (fieldArith K).add t (a i)) = some (sumF m a) := by
    intro m a
    induction m with
    | zero => rfl
    | succ m ih => unfold foldO; rw [ih]; rfl
  unfold avgAt
  simp only []
  rw [show (fieldArith K).zero = (0:K) from rfl, e1, e2]
  show (if _ then _ else _) = _
  unfold winWeight at hW
  rw [if_neg hW]; rfl

theorem weight_exact {K : Type} [Field K] [DecidableEq K] {kw o n x : Nat} {c : Nat → K} :
    weightAt (fieldArith K) kw o c n x ≠ none := by
  have e2 : ∀ (m : Nat) (a : Nat → K), foldO m (0 : K) (fun i t => (fieldArith K).add t (a i)) = some (sumF m a) := by
    intro m a
    induction m with
    | zero => rfl
    | succ m ih => unfold foldO; rw [ih]; rfl
  unfold weightAt
  rw [show (fieldArith K).zero = (0:K) from rfl, e2]
  exact Option.some_ne_none _

theorem oneLaw_int (t r : IntTy) : (intArith t r).OneLaw := fun _ h => by cases h

theorem oneLaw_exact (K : Type) [Field K] [DecidableEq K] : (fieldArith K).OneLaw := by
  intro s h t
  have : s = 1 := of_decide_eq_true h
  subst this
  show (if _ then _ else _) = some t
  rw [if_neg one_ne_zero, div_one]

/-- Rounded quotient with a bound on its place. -/
theorem rounded_between {T W lo hi : Int} (hW : 0 < W) (h1 : W * lo ≤ T) (h2 : T ≤ W * hi) :
    lo ≤ (T + W.tdiv 2).tdiv W ∧ (T + W.tdiv 2).tdiv W ≤ max hi (min (hi + 1) 0) := by
  have hw2 : W.tdiv 2 = W / 2 := Int.tdiv_eq_ediv_of_nonneg (by omega)
  have e : W * (hi + 1) = W * hi + W := by rw [Int.mul_add, Int.mul_one]
  constructor
  · exact (tdiv_between hW (lo := lo) (hi := hi + 1) (by omega) (by omega)).1
  · by_cases hh : 0 ≤ hi
    · rcases Int.le_total 0 (T + W.tdiv 2) with h | h
      · rw [Int.tdiv_eq_ediv_of_nonneg h]
        have : (T + W.tdiv 2) / W < hi + 1 := by
          apply Int.ediv_lt_of_lt_mul hW
          rw [Int.mul_comm]; omega
        omega
      · have := (tdiv_between (s := T + W.tdiv 2) hW (lo := T + W.tdiv 2) (hi := 0)
          (by nlinarith) (by omega)).2
        omega
    · have h3 := (tdiv_between (s := T + W.tdiv 2) hW (lo := lo) (hi := hi + 1) (by omega) (by omega)).2
      omega

/-- Bounds of a weighted sum with non-negative weights. -/
theorem sumF_between {n : Nat} {c v : Nat → Int} {lo hi : Int} (hc : ∀ i, i < n → 0 ≤ c i)
    (hv : ∀ i, i < n → lo ≤ v i ∧ v i ≤ hi) :
    sumF n c * lo ≤ sumF n (fun i => c i * v i) ∧ sumF n (fun i => c i * v i) ≤ sumF n c * hi := by
  induction n with
  | zero => simp [sumF]
  | succ n ih =>
    obtain ⟨a, b⟩ := ih (fun i h => hc i (by omega)) (fun i h => hv i (by omega))
    obtain ⟨p, q⟩ := hv n (by omega)
    have h0 := hc n (by omega)
    have e1 := Int.mul_le_mul_of_nonneg_left p h0
    have e2 := Int.mul_le_mul_of_nonneg_left q h0
    simp only [sumF]
    constructor <;> nlinarith

/-- A part of a sum of non-negative terms. -/
theorem sumF_part {m k0 kw : Nat} {c : Nat → Int} (h : k0 + m ≤ kw) (hc : ∀ i, i < kw → 0 ≤ c i) :
    sumF m (fun i => c (k0 + i)) ≤ sumF kw c := by
  have nn : ∀ n (f : Nat → Int), (∀ i, i < n → 0 ≤ f i) → 0 ≤ sumF n f := by
    intro n f hf
    induction n with
    | zero => exact Int.le_refl _
    | succ n ih => exact add_nonneg (ih (fun i hi => hf i (by omega))) (hf n (by omega))
  have app : ∀ (a b : Nat) (f : Nat → Int), sumF (a + b) f = sumF a f + sumF b (fun i => f (a + i)) := by
    intro a b f
    induction b with
    | zero => simp [sumF]
    | succ b ih => rw [← Nat.add_assoc]; simp only [sumF]; rw [ih, add_assoc]
  obtain ⟨d, rfl⟩ : ∃ d, kw = k0 + m + d := ⟨kw - (k0 + m), by omega⟩
  rw [app, app]
  have a1 := nn k0 c (fun i hi => hc i (by omega))
  have a2 := nn d (fun i => c (k0 + m + i)) (fun i hi => hc _ (by omega))
  omega

/-- The average with non-negative coefficients, pixels of magnitude at most `P`. -/
theorem avg_nonneg {t r : IntTy} {kw o n x : Nat} {c v : Nat → Int} {P : Int} (hx : x < n) (ho : o < kw)
    (hc : ∀ i, i < kw → 0 ≤ c i) (hW : 0 < winWeight kw o c n x)
    (hv : ∀ i, i < n → |v i| ≤ P) (hb : sumF kw c * (P + 1) ≤ t.signedType.hi) :
    avgAt (intArith t r) kw o c n v x =
      some (t.cast ((winSum kw o c n v x + (winWeight kw o c n x).tdiv 2).tdiv (winWeight kw o c n x))) ∧
    weightAt (intArith t r) kw o c n x = some (winWeight kw o c n x) := by
  have hl : lastIn kw o n x ≤ kw ∧ firstIn o x = o - x ∧ lastIn kw o n x ≤ n + o - x ∧ firstIn o x < lastIn kw o n x := by
    unfold lastIn firstIn; omega
  have hP : 0 ≤ P := le_trans (abs_nonneg _) (hv x hx)
  have hwle : winWeight kw o c n x ≤ sumF kw c := by
    unfold winWeight
    exact sumF_part (by omega) hc
  have habs : winWeight kw o (fun i => |c i|) n x = winWeight kw o c n x := by
    unfold winWeight
    refine (?_ : ∀ m, m ≤ kw - firstIn o x → sumF m (fun i => |c (firstIn o x + i)|) = sumF m (fun i => c (firstIn o x + i)))
      _ (by omega)
    intro m hm
    induction m with
    | zero => rfl
    | succ m ih => simp only [sumF]; rw [ih (by omega), abs_of_nonneg (hc _ (by omega))]
  have hsum : winSum kw o (fun i => |c i|) n (fun i => |v i|) x ≤ winWeight kw o c n x * P := by
    rw [← habs]
    unfold winSum winWeight
    exact (sumF_between (lo := 0) (fun i hi => abs_nonneg _) (fun i hi => ⟨abs_nonneg _, hv _ (by omega)⟩)).2
  have hmul : winWeight kw o c n x * P + winWeight kw o c n x ≤ sumF kw c * (P + 1) := by
    have := Int.mul_le_mul_of_nonneg_right hwle (by omega : 0 ≤ P + 1)
    rwa [Int.mul_add, Int.mul_one] at this
  exact avg_int (by rw [habs]; omega) (by omega)

theorem avg_between {t r : IntTy} {kw o n x : Nat} {c v : Nat → Int} {P : Int} (hx : x < n) (ho : o < kw)
    (hc : ∀ i, i < kw → 0 ≤ c i) (hW : 0 < winWeight kw o c n x)
    (hv : ∀ i, i < n → |v i| ≤ P) (hb : sumF kw c * (P + 1) ≤ t.signedType.hi) :
    ∃ q, avgAt (intArith t r) kw o c n v x = some (t.cast q) ∧ weightAt (intArith t r) kw o c n x ≠ none ∧
      ∀ lo hi, (∀ i, Under kw o n x i → lo ≤ v i ∧ v i ≤ hi) → lo ≤ q ∧ q ≤ max hi (min (hi + 1) 0) := by
  have hl : lastIn kw o n x ≤ kw ∧ firstIn o x = o - x ∧ lastIn kw o n x ≤ n + o - x ∧ firstIn o x < lastIn kw o n x := by
    unfold lastIn firstIn; omega
  obtain ⟨e1, e2⟩ := avg_nonneg (t := t) (r := r) hx ho hc hW hv hb
  refine ⟨_, e1, by rw [e2]; exact Option.some_ne_none _, fun lo hi hu => ?_⟩
  have hb2 := sumF_between (n := lastIn kw o n x - firstIn o x) (c := fun i => c (firstIn o x + i))
    (v := fun i => v (x + (firstIn o x + i) - o)) (lo := lo) (hi := hi) (fun i hi => hc _ (by omega))
    (fun i hi => hu _ ⟨by omega, by omega, by omega⟩)
  exact rounded_between hW hb2.1 hb2.2

end Boof
