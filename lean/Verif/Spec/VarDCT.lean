import Verif.Model.TransformType
import Verif.Spec.DCT

/-!
# Specification: the samples of a block (C49, C68)

`f y x` is the coefficient at row `y` and column `x` of a block. `c l n k` is √2·cos(πn(k+½)/2^l), as the tables have it. The order in which sums are taken is part of the
specification, since rounding depends on it.
-/
namespace Jxl

section
variable {α : Type} [Arith α] (c : Nat → Nat → Nat → α)

/-- A cosine series of 2^a rows and 2^b columns. -/
def dctSamples (a b : Nat) (f : Nat → Nat → α) (y x : Nat) : α := idctVal (c b) (2 ^ b) (fun n => idctVal (c a) (2 ^ a) (fun m => f m n) y) x

/-- The same, summed over the columns first. -/
def dctSamples' (a b : Nat) (f : Nat → Nat → α) (y x : Nat) : α := idctVal (c a) (2 ^ a) (fun m => idctVal (c b) (2 ^ b) (fun n => f m n) x) y

/-- The coefficients of one of two halves: the two means are a sum and a difference, the other coefficients are interleaved by rows. -/
def halfCoeffs (f : Nat → Nat → α) (half m n : Nat) : α :=
  if m = 0 ∧ n = 0 then (if half = 0 then f 0 0 + f 1 0 else f 0 0 - f 1 0) else f (half + m * 2) n

/-- DCT 4×8: an upper and a lower half, of 4 rows and 8 columns each. -/
def dct48Samples (f : Nat → Nat → α) (y x : Nat) : α := dctSamples c 2 3 (halfCoeffs f (y / 4)) (y % 4) x

/-- DCT 8×4: a left and a right half, of 8 rows and 4 columns each. -/
def dct84Samples (f : Nat → Nat → α) (y x : Nat) : α := dctSamples' c 2 3 (halfCoeffs f (x / 4)) (x % 4) y

/-- A step of the 2×2 transform: the upper left square of 2·`num` rows and columns is replaced. -/
def haarStep (num : Nat) (f : Nat → Nat → α) (y x : Nat) : α :=
  if y < 2 * num ∧ x < 2 * num then
    let c00 := f (y / 2) (x / 2)
    let c01 := f (y / 2) (x / 2 + num)
    let c10 := f (y / 2 + num) (x / 2)
    let c11 := f (y / 2 + num) (x / 2 + num)
    if y % 2 = 0 then (if x % 2 = 0 then c00 + c01 + c10 + c11 else c00 + c01 - c10 - c11)
    else (if x % 2 = 0 then c00 - c01 + c10 - c11 else c00 - c01 - c10 + c11)
  else f y x

/-- DCT 2×2: three steps. -/
def dct2Samples (f : Nat → Nat → α) : Nat → Nat → α := haarStep 4 (haarStep 2 (haarStep 1 f))

/-- The sum of the fifteen coefficients of a quarter that are not its mean, by rows. -/
def hornussSum (f : Nat → Nat → α) (qy qx : Nat) : α :=
  (List.range 4).foldl (fun r iy => (List.range' (if iy = 0 then 1 else 0) (4 - if iy = 0 then 1 else 0)).foldl (fun r ix => r + f (qy + iy * 2) (qx + ix * 2)) r) (Arith.lit 0)

/-- The sample at (1, 1) of a quarter. -/
def hornussMid (f : Nat → Nat → α) (qy qx : Nat) : α := haarStep 1 f qy qx - hornussSum f qy qx * Arith.lit (1 / 16)

/-- Hornuss: in each quarter the sample at (1, 1) makes the mean right, the other samples are differences to it. -/
def hornussSamples (f : Nat → Nat → α) (y x : Nat) : α :=
  let mid := hornussMid f (y / 4) (x / 4)
  if y % 4 = 1 ∧ x % 4 = 1 then mid
  else if y % 4 = 0 ∧ x % 4 = 0 then f (y / 4 + 2) (x / 4 + 2) + mid
  else f (y / 4 + y % 4 * 2) (x / 4 + x % 4 * 2) + mid

/-- AFV: the coefficients of the corner: even rows and columns. -/
def afvCornerCoeffs (f : Nat → Nat → α) (m n : Nat) : α := if m = 0 ∧ n = 0 then (f 0 0 + f 1 0 + f 0 1) * Arith.lit 4 else f (m * 2) (n * 2)

/-- AFV: the coefficients of the square beside the corner: even rows, odd columns. -/
def afvSquareCoeffs (f : Nat → Nat → α) (m n : Nat) : α := if m = 0 ∧ n = 0 then f 0 0 + f 1 0 - f 0 1 else f (m * 2) (n * 2 + 1)

/-- AFV: the coefficients of the other half: odd rows. -/
def afvHalfCoeffs (f : Nat → Nat → α) (m n : Nat) : α := if m = 0 ∧ n = 0 then f 0 0 - f 1 0 else f (1 + m * 2) n

/-- AFV: the samples of the corner, seen from the corner of the block. -/
def afvCornerSamples (basis : Nat → Nat → α) (f : Nat → Nat → α) (iy ix : Nat) : α :=
  (List.range 16).foldl (fun s j => s + afvCornerCoeffs f (j / 4) (j % 4) * basis j (iy * 4 + ix)) (Arith.lit 0)

/-- AFV: the special 4×4 corner is at the top unless `bottom`, and at the left unless `right`, and is mirrored accordingly. The square beside it is a 4×4 cosine series
(transposed), the other half of the block a series of 4 rows and 8 columns. -/
def afvSamples (basis : Nat → Nat → α) (bottom right : Bool) (f : Nat → Nat → α) (y x : Nat) : α :=
  if y / 4 = (if bottom then 1 else 0) then
    if x / 4 = (if right then 1 else 0) then afvCornerSamples basis f (if bottom then 3 - y % 4 else y % 4) (if right then 3 - x % 4 else x % 4)
    else dctSamples c 2 2 (afvSquareCoeffs f) (x % 4) (y % 4)
  else dctSamples c 2 3 (afvHalfCoeffs f) (y % 4) x

/-- The samples of a block of any type but DCT 4×4. `bottom` and `right` say where the corner of an AFV block is. -/
def blockSamples (basis : Nat → Nat → α) (tt : TransformType) (bottom right : Bool) (f : Nat → Nat → α) : Nat → Nat → α :=
  if tt.method = 0 then dctSamples c (Nat.log2 tt.pixelHeight.toNat) (Nat.log2 tt.pixelWidth.toNat) f
  else if tt.method = 1 then dct2Samples f
  else if tt.method = 3 then hornussSamples f
  else if tt.method = 4 then dct84Samples c f
  else if tt.method = 5 then dct48Samples c f
  else afvSamples c basis bottom right f

end

end Jxl
