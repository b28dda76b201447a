import Verif.Spec.Filters
import Verif.Spec.Blend

/-!
# What the planes of a frame hold
-/
namespace Jxl

/-- A buffer of floats of the given size that shows the given samples. -/
def ShowsFloats (H W : Nat) (f : Nat → Nat → F32) (b : ImageBuffer) : Prop := b.FloatPicture H W ∧ HoldsPlane H W f b.floats

/-! ## Subsampled planes

Every sample of a subsampled row covers two places of the full row. A place gets 3/4 of the sample that covers it and 1/4 of the next nearest one. -/

/-- Of `n` samples: the next nearest one for the place `i`. At the ends of the row the covering sample itself. -/
def secondNearest (n i : Nat) : Nat := if i % 2 = 0 then i / 2 - 1 else min (i / 2 + 1) (n - 1)

/-- A row of `w` samples, twice as long. -/
def wider {α : Type} [Arith α] (w : Nat) (f : Nat → Nat → α) (y x : Nat) : α :=
  Arith.lit (3 / 4) * f y (x / 2) + Arith.lit (1 / 4) * f y (secondNearest w x)

/-- A column of `h` samples, twice as long. -/
def higher {α : Type} [Arith α] (h : Nat) (f : Nat → Nat → α) (y x : Nat) : α :=
  Arith.lit (3 / 4) * f (y / 2) x + Arith.lit (1 / 4) * f (secondNearest h y) x

/-- Rows of `w` samples, `2 ^ n` times as long. -/
def widerBy {α : Type} [Arith α] : Nat → Nat → (Nat → Nat → α) → Nat → Nat → α
  | 0, _, f => f
  | n + 1, w, f => widerBy n (2 * w) (wider w f)

/-- Columns of `h` samples, `2 ^ n` times as long. -/
def higherBy {α : Type} [Arith α] : Nat → Nat → (Nat → Nat → α) → Nat → Nat → α
  | 0, _, f => f
  | n + 1, h, f => higherBy n (2 * h) (higher h f)

/-- A plane of `h` rows of `w` samples at full size: first the rows, then the columns. -/
def fullSize {α : Type} [Arith α] (xShift yShift h w : Nat) (f : Nat → Nat → α) : Nat → Nat → α := higherBy yShift h (widerBy xShift w f)

/-! ## Modular samples -/

/-- `m'` is `m` with the samples `g` in the upper left corner of the given size. -/
def Stores {α : Type} (d : Dim) (g : Nat → Nat → α) (m m' : List (List α)) : Prop :=
  ∀ y x, sample m' y x = if y < d.height ∧ x < d.width then some (g y x) else sample m y x

/-- A plane of at least the given size. -/
def AtLeast {α : Type} (d : Dim) (m : List (List α)) : Prop := ∃ h w, Table h w m ∧ d.height ≤ h ∧ d.width ≤ w

/-- The plane of the frame for channel `c` of the modular stream. In a modular XYB frame the stream has Y, X and B, the frame X, Y and B. In a frame that is not modular the
stream has extra channels only. -/
def planeFor (colours : Nat) (xyb modular : Bool) (c : Nat) : Nat :=
  if modular then (if xyb && c = 0 then 1 else if xyb && c = 1 then 0 else c) else c + colours

/-- The sample of a float image with the given numbers of bits for the exponent and the mantissa: the number whose binary representation the integer is. For numbers that
are not subnormal. -/
def patternValue (expBits mantissaBits v : Nat) : ℚ :=
  let sign : ℚ := if v / 2 ^ (expBits + mantissaBits) % 2 = 1 then -1 else 1
  let e : Int := (v / 2 ^ mantissaBits % 2 ^ expBits : Nat) - (2 ^ (expBits - 1) - 1 : Nat)
  sign * (1 + (v % 2 ^ mantissaBits : Nat) / 2 ^ mantissaBits) * (2 : ℚ) ^ e

/-- The size of an extra channel with the given factor, in a frame of the given size that is upsampled by another one: the upsampled frame, made smaller again. -/
def extraSize (d : Dim) (upsampling factor : Nat) : Dim := ⟨(d.width * upsampling + factor - 1) / factor, (d.height * upsampling + factor - 1) / factor⟩

/-! ## Weights of upsampling -/

/-- The place of the entry in row `a` and column `b ≥ a` in a list of the upper half of a matrix with `n` rows, row after row: before it come the rows above, of `n`, `n - 1`, …
entries. -/
def trianglePlace (n a b : Nat) : Nat := ((List.range a).map fun (r : Nat) => n - r).sum + (b - a)

/-- The entry of a symmetric matrix of which the list holds the upper half. -/
def symmetricEntry {α : Type} (n : Nat) (l : List α) (a b : Nat) : Option α := l[trianglePlace n (min a b) (max a b)]?

/-- The list of weights for the factor `k` is a symmetric matrix with 5k/2 rows. Its blocks of 5 × 5 entries are the weights for the upper left quarter of the `k` × `k`
places; the others are mirror images. -/
def kernelEntry {α : Type} (k : Nat) (l : List α) (ky kx iy ix : Nat) : Option α :=
  let row := if ky < k / 2 then 5 * ky + iy else 5 * (k - 1 - ky) + (4 - iy)
  let col := if kx < k / 2 then 5 * kx + ix else 5 * (k - 1 - kx) + (4 - ix)
  symmetricEntry (5 * k / 2) l row col

/-- The number of weights for a factor: one for each entry of the upper half of the matrix. -/
def weightCount (k : Nat) : Nat := (5 * k / 2) * (5 * k / 2 + 1) / 2

/-- The factor of a plane: one for the colours, and one for each extra channel. -/
def factorOf (f : FrameHeader) (colours c : Nat) : Option Nat := if c < colours then some f.upsampling else f.ecUpsampling[c - colours]?

/-- The plane `b` of `h` rows of `w` samples, made `k` times as large: the place `(ky, kx)` of the `k` × `k` places that come from a sample gets its value with the weights
for that place. The plane itself has samples of the given depth. -/
def UpsampledBy (k h w depth : Nat) (wt : Nat → Nat → Nat → Nat → F32) (b b' : ImageBuffer) : Prop :=
  b'.FloatPicture (h * k) (w * k) ∧ ∀ y x ky kx, y < h → x < w → ky < k → kx < k →
    sample b'.floats (y * k + ky) (x * k + kx) = some (upsampled h w (Spec.px depth b) (wt ky kx) y x)

end Jxl
