import Mathlib.Analysis.SpecialFunctions.Pow.Real
import Verif.Model.Go

/-!
# Transfer functions (colour/transfer_function.go, colour/colour_management.go)

Simplified: `float64` is modelled by the real numbers, and `math.Pow` by the real power. NaN is `none`.
-/
namespace Jxl
noncomputable section
open Classical

/-- `math.Pow`, which is NaN for a negative number and an exponent that is not an integer. Simplified: exact. -/
def goPow (x y : ℝ) : Option ℝ := if x < 0 ∧ ∀ n : ℤ, y ≠ n then none else some (x ^ y)

/-- colour/transfer_function.go:5-67: the curves. -/
inductive Curve where
  | linear
  | srgb
  | bt709
  | pq
  | gamma (gamma inverse : ℝ)

/-- colour/transfer_function.go:69-74 `NewGammaTransferFunction`. Simplified: for 0 the code has an infinite inverse. -/
def newGamma (transfer : ℤ) : Curve := .gamma (1e-7 * transfer) (1e7 / transfer)

/-- colour/transfer_function.go:8-10, 19-24, 36-42, 54-57, 76-78 `ToLinear`. -/
def Curve.toLinear : Curve → ℝ → Option ℝ
  | .linear, x => some x
  | .srgb, x => if x < 0.0404482362771082 then some (x * 0.07739938080495357) else goPow ((x + 0.055) * 0.9478672985781991) 2.4
  | .bt709, x =>
    if x < 0.081242858298635133011 then some (x * 0.22222222222222222222)
    else goPow ((x + 0.0992968268094429403) * 0.90967241568627260377) 2.2222222222222222222
  | .pq, x => do
    let d ← goPow x 0.012683313515655965121
    goPow ((d - 0.8359375) / (18.8515625 + 18.6875 * d)) 6.2725880551301684533
  | .gamma _ inverse, x => goPow x inverse

/-- colour/transfer_function.go:12-14, 26-31, 44-49, 59-62, 80-82 `FromLinear`. -/
def Curve.fromLinear : Curve → ℝ → Option ℝ
  | .linear, x => some x
  | .srgb, x =>
    if x < 0.00313066844250063 then some (x * 12.92)
    else do
      let p ← goPow x 0.4166666666666667
      some (1.055 * p - 0.055)
  | .bt709, x =>
    if x < 0.018053968510807807336 then some (4.5 * x)
    else do
      let p ← goPow x 0.45
      some (1.0992968268094429403 * p - 0.0992968268094429403)
  | .pq, x => do
    let d ← goPow x 0.159423828125
    goPow ((0.8359375 + 18.8515625 * d) / (1.0 + 18.6875 * d)) 78.84375
  | .gamma g _, x => goPow x g

/-- colour/colour_management.go:114-136 `GetTransferFunction`; colour/colour_flags.go:24-30 for the numbers. -/
def getTransferFunction (transfer : ℤ) : Res Curve :=
  if transfer = 8 + 2 ^ 24 then .ok .linear
  else if transfer = 13 + 2 ^ 24 then .ok .srgb
  else if transfer = 16 + 2 ^ 24 then .ok .pq
  else if transfer = 1 + 2 ^ 24 then .ok .bt709
  else if transfer = 17 + 2 ^ 24 then .ok (newGamma transfer)
  else if transfer = 18 + 2 ^ 24 then .err
  else if transfer < 2 ^ 24 then .ok (newGamma transfer)
  else .err

end
end Jxl
