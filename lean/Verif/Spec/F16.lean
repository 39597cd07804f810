import Verif.Model.F16
import Mathlib.Algebra.Order.Field.Rat
import Mathlib.Algebra.Order.Field.Power
import Mathlib.Tactic.Linarith
/-!
# Specification of half-precision numbers (IEEE-754 binary16)
-/
namespace Verif.Spec

/-- The number denoted by a finite pattern with a clear sign bit: exponent field `b / 1024`,
fraction field `b % 1024`. -/
def halfValue (b : Nat) : Rat :=
  if b / 1024 = 0 then ((b % 1024 : Nat) : Rat) / 1024 * 2 ^ (-14 : Int)
  else (1 + ((b % 1024 : Nat) : Rat) / 1024) * 2 ^ ((b / 1024 : Nat) - 15 : Int)

/-- Finite and not negative: below the pattern of infinity. -/
def Finite16 (b : Nat) : Prop := b < 31744

/-- `b` is the half float nearest to `q`; of two equally near ones, the one with even fraction. -/
def NearestHalf (q : Rat) (b : Nat) : Prop :=
  Finite16 b ∧ ∀ b', Finite16 b' → b' ≠ b →
    |halfValue b - q| < |halfValue b' - q| ∨ |halfValue b - q| = |halfValue b' - q| ∧ b % 2 = 0

/-- The pattern of 1.0. -/
def half1 : Nat := 15360

example : halfValue half1 = 1 := by norm_num [halfValue, half1]
example : halfValue 1 = 1 / 2 ^ 24 := by norm_num [halfValue]
example : halfValue 31743 = 65504 := by norm_num [halfValue]

end Verif.Spec
