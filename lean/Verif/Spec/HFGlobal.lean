import Mathlib.Analysis.SpecialFunctions.Pow.Real
import Verif.Model.HFGlobal
import Verif.Spec.DCT
import Verif.Spec.ImageHeader
import Verif.Spec.F16

/-!
# Specification: quantization matrices (C74, C75)
-/
namespace Jxl

/-- Rows and columns of the seventeen quantization matrices of the format. -/
def Spec.matrixSize : List (Nat × Nat) := [(8, 8), (8, 8), (8, 8), (8, 8), (16, 16), (32, 32), (8, 16), (8, 32), (16, 32), (8, 8), (8, 8), (64, 64), (32, 64), (128, 128), (64, 128), (256, 256),
  (128, 256)]

/-- Three channels with `n` numbers each. -/
def Spec.Rows (n : Nat) (m : List (List ℚ)) : Prop := m.length = 3 ∧ ∀ r ∈ m, r.length = n

/-- Three channels with at least one number each, and at most sixteen. -/
def Spec.Curves (m : List (List ℚ)) : Prop := m.length = 3 ∧ ∀ r ∈ m, r ≠ [] ∧ r.length ≤ 16

/-- Numbers for the matrix `i`, as many as its mode needs; matrices that are not 8×8 are curves or written out. -/
def Spec.ParamShape (i : Nat) (p : DCTParam) : Prop :=
  ∃ h w, Spec.matrixSize[i]? = some (h, w) ∧
    (p.mode = 1 ∧ (h, w) = (8, 8) ∧ Spec.Rows 3 p.param ∨
     p.mode = 2 ∧ (h, w) = (8, 8) ∧ Spec.Rows 6 p.param ∨
     p.mode = 3 ∧ (h, w) = (8, 8) ∧ Spec.Rows 2 p.param ∧ Spec.Curves p.dct ∨
     p.mode = 4 ∧ (h, w) = (8, 8) ∧ Spec.Rows 1 p.param ∧ Spec.Curves p.dct ∨
     p.mode = 5 ∧ (h, w) = (8, 8) ∧ Spec.Rows 9 p.param ∧ Spec.Curves p.dct ∧ Spec.Curves p.p44 ∨
     p.mode = 6 ∧ Spec.Curves p.dct ∨
     p.mode = 7 ∧ Spec.Rows (h * w) p.param)

/-- Three matrices for every kind of block: as many rows as its shorter side, as many columns as its longer side. -/
def Spec.Fits {α : Type} (weights : List (List (List (List α)))) : Prop :=
  ∀ tt ∈ allDCT, ∃ ws, weights[tt.parameterIndex.toNat]? = some ws ∧ ws.length = 3 ∧ ∀ m ∈ ws, Table (min tt.pixelHeight.toNat tt.pixelWidth.toNat) (max tt.pixelHeight.toNat tt.pixelWidth.toNat) m

/-- All numbers that must be positive are. -/
def Spec.Positive (p : DCTParam) : Prop :=
  (∀ r ∈ p.dct, 0 < r.headD 0) ∧ (∀ r ∈ p.p44, 0 < r.headD 0) ∧ (∀ r ∈ p.param, ∀ v ∈ (if p.mode = 5 then r.take 6 else r), 0 < v) ∧ 0 < p.den

/-- Curves in a stream: a count, and per channel a first number in units of 64 and the others. -/
def Spec.decCurves : Dec (List (List ℚ)) := do
  let n ← decBits 4
  decList (do
    let v ← decF16
    let r ← decList decF16 n
    pure (64 * v :: r)) 3

/-- The numbers of the matrix `i` in a stream, for the modes default, Hornuss, DCT2, AFV and DCT. The modes Hornuss, DCT2 and AFV are for 8×8 matrices. -/
def Spec.decParam (i : Nat) : Dec DCTParam := do
  let mode ← decBits 3
  if mode = 0 then
    match defaultParams[i]? with
    | some p => pure p
    | none => Dec.fail
  else if mode = 6 then do
    let d ← Spec.decCurves
    pure ⟨d, [], 6, 1, []⟩
  else if Spec.matrixSize[i]? = some (8, 8) then
    if mode = 1 then do
      let m ← decList (do let r ← decList decF16 3; pure (r.map (64 * ·))) 3
      pure ⟨[], m, 1, 1, []⟩
    else if mode = 2 then do
      let m ← decList (do let r ← decList decF16 6; pure (r.map (64 * ·))) 3
      pure ⟨[], m, 2, 1, []⟩
    else if mode = 5 then do
      let m ← decList (do
        let a ← decList decF16 6
        let b ← decList decF16 3
        pure (a.map (64 * ·) ++ b)) 3
      let d ← Spec.decCurves
      let f ← Spec.decCurves
      pure ⟨d, m, 5, 1, f⟩
    else Dec.fail
  else Dec.fail

/-- Places of cells, and numbers between 0 and 1, are not below zero when truncated. -/
def Spec.Grounded {α : Type} [Arith α] (F : QuantFuncs α) : Prop :=
  (∀ n h w y x, 1 ≤ n → n ≤ 16 → 2 ≤ h → h ≤ 256 → 2 ≤ w → w ≤ 256 → y < h → x < w → 0 ≤ F.trunc (bandPos F n h w y x)) ∧ ∀ q : ℚ, 0 ≤ q → q ≤ 1 → 0 ≤ F.trunc (Arith.lit q)

/-- Exact arithmetic. -/
noncomputable def Spec.exactQuant : QuantFuncs ℝ where
  trunc x := if 0 ≤ x then ⌊x⌋ else ⌈x⌉
  pow x y := x ^ y
  sqrt := Real.sqrt
  isInf _ := false
  diag := Real.sqrt 2 + 1 / 10 ^ 6

/-- The step from one band to the next. -/
noncomputable def Spec.growth (v : ℝ) : ℝ := if v < 0 then 1 / (1 - v) else 1 + v

/-- The value of the band `i`. -/
noncomputable def Spec.band (ps : List ℚ) (i : Nat) : ℝ := (ps.getD 0 0 : ℚ) * ∏ k ∈ Finset.range i, Spec.growth (ps.getD (k + 1) 0 : ℚ)

/-- The curve through the bands: geometric between two bands, constant after the last. -/
noncomputable def Spec.curve (ps : List ℚ) (t : ℝ) : ℝ :=
  if ((ps.length - 1 : Nat) : ℝ) ≤ t then Spec.band ps (ps.length - 1)
  else Spec.band ps ⌊t⌋₊ * (Spec.band ps (⌊t⌋₊ + 1) / Spec.band ps ⌊t⌋₊) ^ (t - ⌊t⌋₊)

/-- The distance of a cell from the corner, in units of a little more than the diagonal. -/
noncomputable def Spec.distance (h w y x : Nat) : ℝ := Real.sqrt (((x : ℝ) / (w - 1)) ^ 2 + ((y : ℝ) / (h - 1)) ^ 2) / (Real.sqrt 2 + 1 / 10 ^ 6)

/-- A matrix given by a curve. -/
noncomputable def Spec.curveCell (ps : List ℚ) (h w y x : Nat) : ℝ := Spec.curve ps ((ps.length - 1 : Nat) * Spec.distance h w y x)

/-- The numbers of a channel. -/
def Spec.channel (m : List (List ℚ)) (c i : Nat) : ℚ := (m.getD c []).getD i 0

/-- The quantity whose inverse is the weight of the coefficient (`y`, `x`), in all modes but AFV and the written out one. -/
noncomputable def Spec.coarseness (p : DCTParam) (h w c y x : Nat) : ℝ :=
  if p.mode = 6 then Spec.curveCell (p.dct.getD c []) h w y x
  else if p.mode = 1 then
    if y = 0 ∧ x = 0 then 1
    else if y = 1 ∧ x = 1 then Spec.channel p.param c 2
    else if y ≤ 1 ∧ x ≤ 1 then Spec.channel p.param c 1
    else Spec.channel p.param c 0
  else if p.mode = 2 then
    if y = 0 ∧ x = 0 then 1
    else if max y x = 1 then Spec.channel p.param c (if y = x then 1 else 0)
    else if max y x ≤ 3 then Spec.channel p.param c (if 2 ≤ y ∧ 2 ≤ x then 3 else 2)
    else Spec.channel p.param c (if 4 ≤ y ∧ 4 ≤ x then 5 else 4)
  else if p.mode = 3 then
    Spec.curveCell (p.dct.getD c []) 4 4 (y / 2) (x / 2) / (if y = 1 ∧ x = 1 then Spec.channel p.param c 1 else if y + x = 1 then Spec.channel p.param c 0 else 1 : ℚ)
  else Spec.curveCell (p.dct.getD c []) 4 8 (y / 2) x / (if y = 1 ∧ x = 0 then Spec.channel p.param c 0 else 1 : ℚ)

end Jxl
