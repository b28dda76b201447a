import Verif.Model.LFCoefficients
import Verif.Spec.ImageHeader
import Verif.Spec.Image

/-!
# Specification: low-frequency samples (C71, C72)
-/
namespace Jxl.Spec

section
variable {α : Type} [Arith α]

/-- What the stream says about the low frequencies of an LF group: the quantized numbers, by channel (X, Y, B), the quantization steps and the factors of luma in X and B. -/
structure LFGroup (α : Type) where
  q : Nat → Nat → Nat → Int
  step : Nat → α
  extra : Nat
  kX : α
  kB : α

/-- A quantized number in units of the step, which may be made finer by `extra` bits. -/
def LFGroup.value (I : LFGroup α) (c y x : Nat) : α := Arith.lit (I.q c y x : Rat) * (I.step c / Arith.lit ((2 ^ I.extra : Nat) : Rat))

/-- The LF samples of a frame without subsampling: luma is added to the other channels. -/
def LFGroup.sample (I : LFGroup α) (c y x : Nat) : α :=
  if c = 0 then I.value 0 y x + I.kX * I.value 1 y x else if c = 2 then I.value 2 y x + I.kB * I.value 1 y x else I.value c y x

/-- The weighted mean of a sample and its eight neighbours. -/
def lfMean (f : Nat → Nat → α) (y x : Nat) : α :=
  Arith.lit (5226273532324128 / 10 ^ 17) * f y x + Arith.lit (20345139757231578 / 10 ^ 17) * (f y (x - 1) + f y (x + 1) + f (y - 1) x + f (y + 1) x) +
    Arith.lit (334829185968739 / 10 ^ 16) * (f (y - 1) (x - 1) + f (y - 1) (x + 1) + f (y + 1) (x - 1) + f (y + 1) (x + 1))

/-- Does the sample have eight neighbours? -/
def inner (h w y x : Nat) : Prop := (0 < y ∧ y + 1 < h) ∧ (0 < x ∧ x + 1 < w)

instance (h w y x : Nat) : Decidable (inner h w y x) := by unfold inner; infer_instance

end

/-- The largest difference between samples and means, in quantization steps, but at least 1/2. -/
def lfGap (f : Nat → Nat → Nat → ℚ) (step : Nat → ℚ) (y x : Nat) : ℚ :=
  max (1 / 2) (max (|f 0 y x - lfMean (f 0) y x| / step 0) (max (|f 1 y x - lfMean (f 1) y x| / step 1) (|f 2 y x - lfMean (f 2) y x| / step 2)))

/-- Smoothing in the format: samples that differ from the mean by half a step or less become the mean; if a channel differs by 3/4 of a step or more, the sample stays. -/
def lfSmoothed (h w : Nat) (f : Nat → Nat → Nat → ℚ) (step : Nat → ℚ) (c y x : Nat) : ℚ :=
  if inner h w y x then f c y x + (lfMean (f c) y x - f c y x) * max 0 (3 - 4 * lfGap f step y x) else f c y x

/-- `LfChannelCorrelation`. -/
def decLFCorrelation : Dec LFCorrelation := do
  let allDefault ← decBool
  if allDefault then pure ⟨84, 0, 1, 128, 128⟩
  else do
    let colorFactor ← decU32 fun k => match k with | 0 => (84, 0) | 1 => (256, 0) | 2 => (2, 8) | 3 => (258, 16)
    let baseX ← decF16
    let baseB ← decF16
    let x ← decBits 8
    let b ← decBits 8
    pure ⟨colorFactor, baseX, baseB, x, b⟩

/-- `LfChannelDequantization`: the factors for X, Y and B. -/
def decLFDequant : Dec (List ℚ) := do
  let allDefault ← decBool
  if allDefault then pure [1 / 4096, 1 / 512, 1 / 256]
  else do
    let a ← decF16
    let b ← decF16
    let c ← decF16
    pure [a / 128, b / 128, c / 128]

/-- `Quantizer`: the global scale and the quantizer of the low frequencies. -/
def decQuantizer : Dec (Int × Int) := do
  let globalScale ← decU32 fun k => match k with | 0 => (1, 11) | 1 => (2049, 11) | 2 => (4097, 12) | 3 => (8193, 16)
  let quantLF ← decU32 fun k => match k with | 0 => (16, 0) | 1 => (1, 5) | 2 => (1, 8) | 3 => (1, 16)
  pure ((globalScale : Int), (quantLF : Int))

section
variable {α : Type} [Arith α]

/-- The quantization steps. -/
def lfSteps (globalScale quantLF : Int) (dequant : List ℚ) : List α :=
  dequant.map fun d => Arith.lit 65536 * Arith.lit d / Arith.lit ((globalScale : ℚ) * (quantLF : ℚ))

/-- The factor of luma in a chroma channel. -/
def lfLuma (base : α) (factor colorFactor : Nat) : α := base + Arith.lit ((factor : ℚ) - 128) / Arith.lit (colorFactor : ℚ)

end

/-- The channel (X, Y, B) that the `k`-th channel of the stream holds. -/
def lfChannel : Nat → Nat
  | 0 => 1
  | 1 => 0
  | c => c

/-- `ps` are three planes; plane `c` has `H c` rows of `W c` samples and its sample at (`y`, `x`) is `f c y x`. -/
def Planes {β : Type} (H W : Nat → Nat) (f : Nat → Nat → Nat → β) (ps : List (List (List β))) : Prop :=
  ps.length = 3 ∧ ∀ (c : Nat) m, ps[c]? = some m → Table (H c) (W c) m ∧ ∀ y x, y < H c → x < W c → sample m y x = some (f c y x)

end Jxl.Spec

/-! ## What the code does instead of `lfSmoothed` (`C72_fails`)

Differences are multiplied by the steps instead of divided, and samples and means change places. -/
namespace Jxl

section
variable {α : Type} [Arith α]

/-- The largest difference so far, as the code computes it. -/
def gapStep (f : Nat → Nat → α) (sd : α) (y x : Nat) (old : α) : α :=
  if Arith.lt old (Arith.abs (f y x - Spec.lfMean f y x) * sd) then Arith.abs (f y x - Spec.lfMean f y x) * sd else old

/-- The largest difference of the three channels, as the code computes it. -/
def codeGap (f : Nat → Nat → Nat → α) (step : Nat → α) (y x : Nat) : α :=
  gapStep (f 2) (step 2) y x (gapStep (f 1) (step 1) y x (gapStep (f 0) (step 0) y x (Arith.lit (1 / 2))))

/-- How much of a difference stays, as the code computes it. -/
def codeStrength (g : α) : α := if Arith.lt (Arith.lit 0) (Arith.lit 3 - Arith.lit 4 * g) then Arith.lit 3 - Arith.lit 4 * g else Arith.lit 0

/-- A smoothed sample, as the code computes it. -/
def codeSmoothed (h w : Nat) (f : Nat → Nat → Nat → α) (step : Nat → α) (c y x : Nat) : α :=
  if Spec.inner h w y x then (f c y x - Spec.lfMean (f c) y x) * codeStrength (codeGap f step y x) + Spec.lfMean (f c) y x else f c y x

end

end Jxl
