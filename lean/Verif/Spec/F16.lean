import Verif.Spec.Decoder
import Mathlib.Algebra.Field.Rat
/-!
# Specification: half-precision floats
-/
namespace Jxl
open Spec

/-- The number denoted by a finite IEEE binary16 pattern. -/
def halfValue (b : Nat) : ℚ :=
  let s : ℚ := if b / 2 ^ 15 % 2 = 1 then -1 else 1
  let e : Nat := b / 2 ^ 10 % 32
  let m : Nat := b % 2 ^ 10
  if e = 0 then s * (m / 2 ^ 24) else s * (1 + m / 2 ^ 10) * (2 : ℚ) ^ ((e : ℤ) - 15)

/-- `F16()`: two bytes, no infinities or NaNs. -/
def decF16 : Dec ℚ := do
  let b ← decBits 16
  if b / 2 ^ 10 % 32 = 31 then Dec.fail else return halfValue b

end Jxl
