import Mathlib.LinearAlgebra.Matrix.NonsingularInverse
import Mathlib.Analysis.SpecialFunctions.Pow.Real
import Verif.Model.Colour
import Verif.Spec.DCT
import Verif.Spec.Image

/-!
# Specification: colour conversion (C77, C78)

Colours are vectors of three numbers and conversions are matrices, in the sense of Mathlib.
-/
namespace Jxl

/-! ## XYB and YCbCr -/

/-- `SignedPow(a, 1/3)` for real numbers: the cube root. -/
noncomputable def signedCbrt (a : ℝ) : ℝ := if a < 0 then -((-a) ^ (1 / 3 : ℝ)) else a ^ (1 / 3 : ℝ)

/-- The linear sensor values that belong to a pixel of X, Y and B. -/
noncomputable def sensorOf (bias : Fin 3 → ℝ) (v : Fin 3 → ℝ) : Fin 3 → ℝ :=
  ![(v 1 + v 0 - signedCbrt (bias 0)) ^ 3 + bias 0, (v 1 - v 0 - signedCbrt (bias 1)) ^ 3 + bias 1, (v 2 - signedCbrt (bias 2)) ^ 3 + bias 2]

/-- What an encoder does: the colour is scaled to the intensity target, converted to sensor values by the inverse of the matrix of the header, and each
sensor value is compressed by a cube root; X and Y are half the difference and half the sum of the first two. -/
noncomputable def toXYB (M : Matrix (Fin 3) (Fin 3) ℝ) (bias : Fin 3 → ℝ) (target : ℝ) (rgb : Fin 3 → ℝ) : Fin 3 → ℝ :=
  let s := (M⁻¹).mulVec (fun i => rgb i * (target / 255))
  let g := fun i => signedCbrt (s i - bias i) + signedCbrt (bias i)
  ![(g 0 - g 1) / 2, (g 0 + g 1) / 2, g 2]

/-- The YCbCr of JPEG, as stored: blue difference, luma less 128/255, red difference. -/
noncomputable def toYCbCr (rgb : Fin 3 → ℝ) : Fin 3 → ℝ :=
  let y := 299 / 1000 * rgb 0 + 587 / 1000 * rgb 1 + 114 / 1000 * rgb 2
  ![(rgb 2 - y) / (1772 / 1000), y - 128 / 255, (rgb 0 - y) / (1402 / 1000)]

/-- Three planes of `H` rows and `W` columns hold an image. -/
def ShowsImage {α : Type} (H W : Nat) (f : Nat → Nat → Fin 3 → α) (s : RGBPlanes α) : Prop :=
  (Table H W s.p0 ∧ Table H W s.p1 ∧ Table H W s.p2) ∧
  ∀ y x, y < H → x < W → sample s.p0 y x = some (f y x 0) ∧ sample s.p1 y x = some (f y x 1) ∧ sample s.p2 y x = some (f y x 2)

/-! ## Matrices -/

/-- A table of rows holds a matrix. -/
def IsMatrix {n k : Nat} (m : List (List ℝ)) (M : Matrix (Fin n) (Fin k) ℝ) : Prop := m = List.ofFn fun i => List.ofFn fun j => M i j

/-- A header says: this matrix, these biases, these colours. -/
def IsOpsin (o : Opsin ℝ) (M : Matrix (Fin 3) (Fin 3) ℝ) (bias : Fin 3 → ℝ) : Prop :=
  IsMatrix o.matrix M ∧ o.bias = List.ofFn bias ∧ o.cbrtBias = List.ofFn fun i => signedCbrt (bias i)

/-! ## Colour spaces -/

/-- A chromaticity that is allowed. -/
def XY.Allowed (p : XY ℝ) : Prop := (0 ≤ p.x ∧ p.x ≤ 1) ∧ 0 < p.y ∧ p.y ≤ 1

/-- The CIE XYZ colour with a chromaticity, with luminance 1. -/
noncomputable def xyzOf (p : XY ℝ) : Fin 3 → ℝ := ![p.x / p.y, 1, (1 - p.x - p.y) / p.y]

/-- The primaries in order. -/
def Primaries.get {α : Type} (p : Primaries α) : Fin 3 → XY α := ![p.red, p.green, p.blue]

/-- The three primaries do not lie on a line. -/
def Primaries.Span (p : Primaries ℝ) : Prop := (Matrix.of fun i j => xyzOf (p.get j) i).det ≠ 0

/-- The matrix that converts linear RGB to CIE XYZ for a colour space: pure red, green and blue have the chromaticities of the primaries, and equal parts of
all three are white. -/
def IsRGBToXYZ (p : Primaries ℝ) (w : XY ℝ) (M : Matrix (Fin 3) (Fin 3) ℝ) : Prop :=
  (∃ s : Fin 3 → ℝ, ∀ i j, M i j = s j * xyzOf (p.get j) i) ∧ M.mulVec 1 = xyzOf w

/-- Bradford's matrix from XYZ to cone responses. -/
noncomputable def bradfordMatrix : Matrix (Fin 3) (Fin 3) ℝ :=
  !![0.8951, 0.2664, -0.1614; -0.7502, 1.7135, 0.0367; 0.0389, -0.0685, 1.0296]

/-- The conversion of XYZ colours under one white to another: the cone responses are scaled so that white becomes white. -/
def IsBradford (target current : XY ℝ) (A : Matrix (Fin 3) (Fin 3) ℝ) : Prop :=
  (∃ d : Fin 3 → ℝ, bradfordMatrix * A = Matrix.diagonal d * bradfordMatrix) ∧ A.mulVec (xyzOf current) = xyzOf target

end Jxl
