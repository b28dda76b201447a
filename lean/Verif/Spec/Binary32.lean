import Mathlib.Algebra.Order.Field.Rat
import Mathlib.Data.Rat.Floor

/-!
# Specification: the numbers of type `float32`

From IEEE 754: binary32 has 24 bits of significand, and exponents of the last bit from -149 to 104.
-/
namespace Jxl.Spec

/-- A finite number of type `float32`. -/
def Binary32 (q : ℚ) : Prop := ∃ m e : ℤ, |m| < 2 ^ 24 ∧ -149 ≤ e ∧ e ≤ 104 ∧ q = m * (2 : ℚ) ^ e

end Jxl.Spec
