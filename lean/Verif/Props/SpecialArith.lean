import Verif.Spec.SpecialArith
import Mathlib.Data.EReal.Operations
/-
C124: the arithmetic used for infinities and not-a-number is that of the extended reals where those are defined, and the
comparisons are those of the extended reals, false as soon as one side is not-a-number.
-/
namespace Boof
open FP

/-- Sums. -/
theorem C124_add (x y : FP ℝ) (r : EReal) :
    (FP.add some x y).real? = some r ↔
      ∃ a b, x.real? = some a ∧ y.real? = some b ∧ SumDefined a b ∧ r = a + b := by
  rcases x with x | (_ | _) | _ <;> rcases y with y | (_ | _) | _ <;>
    simp [FP.add, FP.round, FP.real?, SumDefined, eq_comm (a := r)]

/-- Differences. -/
theorem C124_sub (x y : FP ℝ) (r : EReal) :
    (FP.sub some x y).real? = some r ↔
      ∃ a b, x.real? = some a ∧ y.real? = some b ∧ SumDefined a (-b) ∧ r = a - b := by
  rcases x with x | (_ | _) | _ <;> rcases y with y | (_ | _) | _ <;>
    simp [FP.sub, FP.round, FP.real?, SumDefined, eq_comm (a := r)]

/-- `5 - (+∞)` is `-∞`. -/
example : (FP.sub some (.num 5) (.inf false) : FP ℝ).real? = some ⊥ := by
  rw [C124_sub]
  refine ⟨((5 : ℝ) : EReal), ⊤, rfl, rfl, ?_, ?_⟩
  · simp [SumDefined]
  · simp

/-- Products. -/
theorem C124_mul (x y : FP ℝ) (r : EReal) :
    (FP.mul some x y).real? = some r ↔
      ∃ a b, x.real? = some a ∧ y.real? = some b ∧ ProductDefined a b ∧ r = a * b := by
  rcases x with x | (_ | _) | _ <;> rcases y with y | (_ | _) | _ <;>
    simp [FP.mul, FP.round, FP.real?, ProductDefined, eq_comm (a := r)]
  case num.inf.false =>
    rcases lt_trichotomy x 0 with h | h | h
    · simp [h.ne, h, EReal.coe_mul_top_of_neg h]
    · simp [h]
    · simp [h.ne', not_lt.2 h.le, EReal.coe_mul_top_of_pos h]
  case num.inf.true =>
    rcases lt_trichotomy x 0 with h | h | h
    · simp [h.ne, h, EReal.coe_mul_bot_of_neg h]
    · simp [h]
    · simp [h.ne', not_lt.2 h.le, EReal.coe_mul_bot_of_pos h]
  case inf.false.num =>
    rcases lt_trichotomy y 0 with h | h | h
    · simp [h.ne, h, EReal.top_mul_coe_of_neg h]
    · simp [h]
    · simp [h.ne', not_lt.2 h.le, EReal.top_mul_coe_of_pos h]
  case inf.true.num =>
    rcases lt_trichotomy y 0 with h | h | h
    · simp [h.ne, h, EReal.bot_mul_coe_of_neg h]
    · simp [h]
    · simp [h.ne', not_lt.2 h.le, EReal.bot_mul_coe_of_pos h]

/-- Quotients by zero. -/
theorem C124_div_zero (x : FP ℝ) : (∀ a, x.real? = some a →
    (FP.div some x (.num 0)).real? = if 0 < a then some ⊤ else if a < 0 then some ⊥ else none) ∧
      (x.real? = none → (FP.div some x (.num 0)).real? = none) := by
  rcases x with x | (_ | _) | _ <;> simp [FP.div, FP.round, FP.real?]
  rcases lt_trichotomy x 0 with h | h | h
  · simp [h.ne, h, h.le, not_lt.2 h.le, FP.real?]
  · simp [h, FP.real?]
  · simp [h.ne', h, not_lt.2 h.le, FP.real?]

example : (FP.div some (.num (-2)) (.num 0) : FP ℝ).real? = some ⊥ := by
  rw [(C124_div_zero (.num (-2))).1 ((-2 : ℝ) : EReal) rfl]
  have : ((-2 : ℝ) : EReal) < 0 := by exact_mod_cast (by norm_num : (-2 : ℝ) < 0)
  rw [if_neg (not_lt.2 this.le), if_pos this]

/-- Other quotients. -/
theorem C124_div (x y : FP ℝ) (hy : y ≠ .num 0) (r : EReal) :
    (FP.div some x y).real? = some r ↔
      ∃ a b, x.real? = some a ∧ y.real? = some b ∧ QuotientDefined a b ∧ r = a / b := by
  rcases x with x | (_ | _) | _ <;> rcases y with y | (_ | _) | _ <;>
    simp [FP.div, FP.round, FP.real?, QuotientDefined, eq_comm (a := r)] at hy ⊢
  case num.num => simp [hy, EReal.coe_div]
  case inf.false.num =>
    rcases lt_or_gt_of_ne hy with h | h
    · simp [h, EReal.top_div_of_neg_ne_bot (EReal.coe_neg'.2 h) (EReal.coe_ne_bot y)]
    · simp [not_lt.2 h.le, EReal.top_div_of_pos_ne_top (EReal.coe_pos.2 h) (EReal.coe_ne_top y)]
  case inf.true.num =>
    rcases lt_or_gt_of_ne hy with h | h
    · simp [h, EReal.bot_div_of_neg_ne_bot (EReal.coe_neg'.2 h) (EReal.coe_ne_bot y)]
    · simp [not_lt.2 h.le, EReal.bot_div_of_pos_ne_top (EReal.coe_pos.2 h) (EReal.coe_ne_top y)]

example : (.inf true : FP ℝ) ≠ .num 0 ∧ QuotientDefined (((3 : ℝ) : EReal)) ⊥ := by
  refine ⟨by simp, ?_⟩
  rintro ⟨h | h, -⟩
  · exact EReal.coe_ne_top _ h
  · exact EReal.coe_ne_bot _ h

/-- Comparisons. -/
theorem C124_compare (x y : FP ℝ) :
    (FP.lt x y = true ↔ ∃ a b, x.real? = some a ∧ y.real? = some b ∧ a < b) ∧
    (FP.le x y = true ↔ ∃ a b, x.real? = some a ∧ y.real? = some b ∧ a ≤ b) ∧
    (FP.gt x y = true ↔ ∃ a b, x.real? = some a ∧ y.real? = some b ∧ a > b) := by
  rcases x with x | (_ | _) | _ <;> rcases y with y | (_ | _) | _ <;>
    simp [FP.lt, FP.le, FP.gt, FP.real?, EReal.bot_lt_coe, EReal.coe_lt_top]

section
variable {K : Type} [Field K] [LinearOrder K] [IsStrictOrderedRing K] [FloorRing K]

/-- With a rounding the result is the exact one, rounded: an infinity of its sign where the rounding overflows. -/
theorem C124_rounded (rnd : K → Option K) (h0 : rnd 0 = some 0) (x y : FP K) :
    FP.add rnd x y = .again rnd (FP.add some x y) ∧ FP.sub rnd x y = .again rnd (FP.sub some x y) ∧
    FP.mul rnd x y = .again rnd (FP.mul some x y) ∧ FP.div rnd x y = .again rnd (FP.div some x y) := by
  rcases x with x | s | _ <;> rcases y with y | t | _ <;>
    simp only [FP.add, FP.sub, FP.mul, FP.div, FP.round, FP.again, h0, and_self, true_and, and_true] <;>
    (try split_ifs) <;> simp [FP.again, FP.round]

/-- Rounding: a finite value becomes the rounded one, or the infinity of its sign; infinities and not-a-number stay. -/
theorem C124_again (rnd : K → Option K) (v : K) (s : Bool) :
    (∀ w, rnd v = some w → FP.again rnd (.num v) = .num w) ∧
    (rnd v = none → 0 ≤ v → FP.again rnd (.num v) = .inf false) ∧
    (rnd v = none → v < 0 → FP.again rnd (.num v) = .inf true) ∧
    FP.again rnd (.inf s : FP K) = .inf s ∧ FP.again rnd (.nan : FP K) = .nan := by
  refine ⟨fun w h => by simp [FP.again, FP.round, h], fun h h1 => by simp [FP.again, FP.round, h, h1],
    fun h h1 => by simp [FP.again, FP.round, h, h1], rfl, rfl⟩
end
end Boof
