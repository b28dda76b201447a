import Verif.Model.Dequant
import Verif.Spec.VarDCT

/-!
# Specification: the coefficients of a block (C67, C69, C70)

The order of operations is part of the specification, since rounding depends on it.
-/
namespace Jxl

section
variable {α : Type} [Arith α]

/-- What a quantized coefficient stands for: 0 and ±`bias` for 0 and ±1, other numbers are moved towards 0 a little. -/
def quantValue (bias numerator : α) (q : Int) : α :=
  if q = 0 then Arith.lit 0 else if q = 1 then bias else if q = -1 then Arith.lit 0 - bias else Arith.lit (q : Rat) - numerator / Arith.lit (q : Rat)

/-- The weights of a type are stored for blocks that are wider than high; for DCT blocks that are higher than wide, or square, rows and columns change places. -/
def weightOf (W : Nat → Nat → α) (tt : TransformType) (y x : Nat) : α :=
  if tt.pixelHeight > tt.pixelWidth ∨ tt.method = 0 ∧ tt.pixelHeight = tt.pixelWidth then W x y else W y x

/-- A dequantized coefficient. `scale` is the factor of the channel, `mult` the multiplier of the block. -/
def hfValue (W : Nat → Nat → α) (scale bias numerator : α) (tt : TransformType) (mult : Int) (q : Nat → Nat → Int) (y x : Nat) : α :=
  quantValue bias numerator (q y x) * (scale / Arith.lit (mult : Rat)) * weightOf W tt y x

/-- The factor by which luma goes into a chroma channel: there is one for each tile of 64 by 64 pixels. -/
def tileFactor (base inv : α) (hf : Nat → Nat → Int) (y x : Nat) : α := base + Arith.lit (hf (y / 64) (x / 64) : Rat) * inv

/-- The low frequencies of a block of 8·2^a rows and 8·2^b columns: the transform of its LF samples, scaled. -/
def lowValue (c : Nat → Nat → Nat → α) (scale : Nat → Nat → α) (a b : Nat) (lf : Nat → Nat → α) (y x : Nat) : α :=
  fdctVal (c a) (2 ^ a) (fun i => fdctVal (c b) (2 ^ b) (fun j => lf i j) x) y * scale (y * 2 ^ (5 - a)) (x * 2 ^ (5 - b))

/-- The block covers the pixel at (`y`, `x`) of the LF group; `gp` is the place of its group in units of 8 pixels. -/
def QBlock.covers (gp : Nat × Nat) (b : QBlock) (y x : Nat) : Bool :=
  decide ((8 * (gp.1 + b.groupY) ≤ y ∧ y < 8 * (gp.1 + b.groupY) + b.tt.tt.pixelHeight.toNat) ∧ (8 * (gp.2 + b.groupX) ≤ x ∧ x < 8 * (gp.2 + b.groupX) + b.tt.tt.pixelWidth.toNat))

/-- The factor that the code uses at a pixel: the one of its tile, but 0 if no block so far covers the first pixel of the tile. -/
def usedFactor (gp : Nat × Nat) (seen : List QBlock) (base inv : α) (hf : Nat → Nat → Int) (y x : Nat) : α :=
  if seen.any (fun b => b.covers gp (y / 64 * 64) (x / 64 * 64)) then tileFactor base inv hf y x else Arith.lit 0

/-- What the stream says about a group: weights by parameter set and channel, scales of the channels, biases, quantized coefficients of the group, LF samples of the LF group,
factors of the tiles. -/
structure CodedGroup (α : Type) where
  weight : Nat → Nat → Nat → Nat → α
  factor : Nat → α
  bias : Nat → α
  numerator : α
  q : Nat → Nat → Nat → Int
  lf : Nat → Nat → Nat → α
  baseX : α
  baseB : α
  inv : α
  hfX : Nat → Nat → Int
  hfB : Nat → Nat → Int

/-- The high frequencies of channel `c` of a block that is at `pos` in the plane of its channel. -/
def CodedGroup.high (I : CodedGroup α) (c : Nat) (b : QBlock) (pos : Nat × Nat) (y x : Nat) : α :=
  hfValue (I.weight b.tt.tt.parameterIndex.toNat c) (I.factor c) (I.bias c) I.numerator b.tt.tt b.hfMult (fun y x => I.q c (pos.1 + y) (pos.2 + x)) y x

/-- The factor for channel 0 or 2 at a pixel, as the code has it after the blocks `seen`. -/
def CodedGroup.chroma (I : CodedGroup α) (gp : Nat × Nat) (seen : List QBlock) (c y x : Nat) : α :=
  if c = 0 then usedFactor gp seen I.baseX I.inv I.hfX y x else usedFactor gp seen I.baseB I.inv I.hfB y x

/-- The coefficients of channel `c` of a block: the low frequencies come from the LF samples; to the others luma is added, unless the channels are subsampled. `pos` and `src` are
the places of the block in the planes of coefficients and of LF samples, `seen` are the blocks up to and including this one. -/
def CodedGroup.coeff (I : CodedGroup α) (cos : Nat → Nat → Nat → α) (scale : Nat → Nat → α) (cfl : Bool) (gp : Nat × Nat) (seen : List QBlock) (c : Nat) (b : QBlock) (pos src : Nat × Nat) (y x : Nat) : α :=
  if y < b.tt.tt.pixelHeight.toNat / 8 ∧ x < b.tt.tt.pixelWidth.toNat / 8 then
    lowValue cos scale (Nat.log2 (b.tt.tt.pixelHeight.toNat / 8)) (Nat.log2 (b.tt.tt.pixelWidth.toNat / 8)) (fun y x => I.lf c (src.1 + y) (src.2 + x)) y x
  else if cfl ∧ c ≠ 1 then I.high c b pos y x + I.chroma gp seen c (8 * (gp.1 + b.groupY) + y) (8 * (gp.2 + b.groupX) + x) * I.high 1 b pos y x
  else I.high c b pos y x

/-- The factor for channel 0 or 2 at a pixel of the LF group in the format: the one of the tile. -/
def CodedGroup.tile (I : CodedGroup α) (c y x : Nat) : α := if c = 0 then tileFactor I.baseX I.inv I.hfX y x else tileFactor I.baseB I.inv I.hfB y x

/-- The coefficients of channel `c` of a block without subsampling in the format. `gp` and `pos` are the places of the group and of the block in the LF group in units of 8 pixels. -/
def CodedGroup.formatCoeff (I : CodedGroup α) (cos : Nat → Nat → Nat → α) (scale : Nat → Nat → α) (gp pos : Nat × Nat) (c : Nat) (tt : TransformType) (mul : Int) (y x : Nat) : α :=
  let high : Nat → α := fun c => hfValue (I.weight tt.parameterIndex.toNat c) (I.factor c) (I.bias c) I.numerator tt mul
    (fun y x => I.q c (8 * (pos.1 - gp.1) + y) (8 * (pos.2 - gp.2) + x)) y x
  if y < tt.pixelHeight.toNat / 8 ∧ x < tt.pixelWidth.toNat / 8 then
    lowValue cos scale (Nat.log2 (tt.pixelHeight.toNat / 8)) (Nat.log2 (tt.pixelWidth.toNat / 8)) (fun y x => I.lf c (pos.1 + y) (pos.2 + x)) y x
  else if c = 1 then high 1 else high c + I.tile c (8 * pos.1 + y) (8 * pos.2 + x) * high 1

end

end Jxl
