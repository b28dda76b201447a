import Verif.Spec.DCT
import Mathlib.Analysis.SpecialFunctions.Trigonometric.Bounds

/-!
# Specification: low frequencies and means (C67)
-/
namespace Jxl.Spec
open Finset

/-- The exact value of the constant `SCALE_F[i]`: 1 / (cos φ · cos 2φ · cos 4φ) with φ = πi/512. -/
noncomputable def lowScale (i : Nat) : ℝ := 1 / (Real.cos (Real.pi * i / 512) * Real.cos (2 * (Real.pi * i / 512)) * Real.cos (4 * (Real.pi * i / 512)))

/-- The mean of `h` rows and `w` columns from (`y0`, `x0`) on. -/
noncomputable def mean (y0 x0 h w : Nat) (f : Nat → Nat → ℝ) : ℝ := (∑ y ∈ range h, ∑ x ∈ range w, f (y0 + y) (x0 + x)) / (h * w)

end Jxl.Spec
