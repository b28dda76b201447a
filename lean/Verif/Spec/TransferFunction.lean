import Mathlib.Analysis.SpecialFunctions.Pow.Real

/-! # The curves of the standards (ISO/IEC 18181-1 refers to them by number) -/
namespace Jxl.Spec
noncomputable section

/-- IEC 61966-2-1 (sRGB): from encoded values to light. -/
def srgbToLinear (x : ℝ) : ℝ := if x ≤ 0.04045 then x / 12.92 else ((x + 0.055) / 1.055) ^ (2.4 : ℝ)

/-- Recommendation ITU-R BT.709: from light to encoded values. -/
def bt709FromLinear (x : ℝ) : ℝ := if x < 0.018 then 4.5 * x else 1.099 * x ^ (0.45 : ℝ) - 0.099

/-- SMPTE ST 2084 (PQ): from light, in units of 10000 cd/m², to encoded values. -/
def pqFromLinear (x : ℝ) : ℝ := ((0.8359375 + 18.8515625 * x ^ (2610 / 16384 : ℝ)) / (1 + 18.6875 * x ^ (2610 / 16384 : ℝ))) ^ (78.84375 : ℝ)

/-- SMPTE ST 2084 (PQ): from encoded values to light. -/
def pqToLinear (x : ℝ) : ℝ :=
  (max (x ^ (1 / 78.84375 : ℝ) - 0.8359375) 0 / (18.8515625 - 18.6875 * x ^ (1 / 78.84375 : ℝ))) ^ (16384 / 2610 : ℝ)

/-- SMPTE ST 428-1 (DCI): from light to encoded values. -/
def dciFromLinear (x : ℝ) : ℝ := x ^ (1 / 2.6 : ℝ)

end
end Jxl.Spec
