import Verif.Model.SpecialFloat
import Mathlib.Data.EReal.Inv
/-
What the operations on floating point numbers with infinities mean, in terms of the extended reals of Mathlib.
-/
namespace Boof
noncomputable section

/-- The extended real number a floating point value stands for; not-a-number stands for none. -/
def FP.real? : FP ℝ → Option EReal
  | .num x => some (x : EReal)
  | .inf false => some ⊤
  | .inf true => some ⊥
  | .nan => none

/-- Sums which are defined: not of opposite infinities. -/
def SumDefined (a b : EReal) : Prop := ¬(a = ⊤ ∧ b = ⊥) ∧ ¬(a = ⊥ ∧ b = ⊤)

/-- Products which are defined: not of zero and an infinity. -/
def ProductDefined (a b : EReal) : Prop := ¬(a = 0 ∧ (b = ⊤ ∨ b = ⊥)) ∧ ¬((a = ⊤ ∨ a = ⊥) ∧ b = 0)

/-- Quotients by something else than zero which are defined: not of two infinities. -/
def QuotientDefined (a b : EReal) : Prop := ¬((a = ⊤ ∨ a = ⊥) ∧ (b = ⊤ ∨ b = ⊥))

end
end Boof
