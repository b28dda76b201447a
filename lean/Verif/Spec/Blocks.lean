import Verif.Model.HFMetadata
import Verif.Spec.Image

/-!
# Specification: the transform blocks of an LF group

Cells are squares of 8 by 8 pixels. A stream gives the types and the multipliers of the blocks; where a block goes follows from the blocks before it.
-/
namespace Jxl.Spec

/-- The rows and columns of pixels of the 27 transform types, in the order of their numbers: DCT 8×8, Hornuss, DCT 2×2, 4×4, 16×16, 32×32, 16×8, 8×16, 32×8, 8×32,
32×16, 16×32, 4×8, 8×4, four kinds of AFV, 64×64, 64×32, 32×64, 128×128, 128×64, 64×128, 256×256, 256×128, 128×256. -/
def transformSizes : List (Nat × Nat) :=
  [(8, 8), (8, 8), (8, 8), (8, 8), (16, 16), (32, 32), (16, 8), (8, 16), (32, 8), (8, 32), (32, 16), (16, 32), (8, 8), (8, 8), (8, 8), (8, 8), (8, 8), (8, 8),
   (64, 64), (64, 32), (32, 64), (128, 128), (128, 64), (64, 128), (256, 256), (256, 128), (128, 256)]

/-- A block with its place: the row and the column of its upper left cell. -/
structure Block where
  type : Nat
  mul : Int
  y : Nat
  x : Nat

/-- The number of rows of cells of a block. -/
def Block.rows (b : Block) : Nat := (transformSizes[b.type]?.getD (0, 0)).1 / 8

/-- The number of columns of cells of a block. -/
def Block.cols (b : Block) : Nat := (transformSizes[b.type]?.getD (0, 0)).2 / 8

/-- The block covers the cell in row `y`, column `x`. -/
def Block.Covers (b : Block) (y x : Nat) : Prop := b.y ≤ y ∧ y < b.y + b.rows ∧ b.x ≤ x ∧ x < b.x + b.cols

/-- The block lies in a group of `h` by `w` cells. -/
def Block.Inside (b : Block) (h w : Nat) : Prop := b.type < 27 ∧ b.y + b.rows ≤ h ∧ b.x + b.cols ≤ w

/-- Two blocks have no cell in common. -/
def Block.Apart (a b : Block) : Prop := ∀ y x, ¬ (a.Covers y x ∧ b.Covers y x)

/-- The tables of a group say which block covers a cell. -/
structure CellMap (h w : Nat) (bs : List Block) (m : HFMetadata) : Prop where
  types : Table h w m.dctSelect
  muls : Table h w m.hfMultiplier
  covered : ∀ b ∈ bs, ∀ y x, b.Covers y x →
    (∃ tt : TransformType, sample m.dctSelect y x = some (some tt) ∧ tt.ttType = b.type) ∧ sample m.hfMultiplier y x = some b.mul
  free : ∀ y x, y < h → x < w → (∀ b ∈ bs, ¬ b.Covers y x) → sample m.dctSelect y x = some none

/-- The cell in row `y`, column `x` is the first one, row by row, that no block covers. -/
def FirstFree (w : Nat) (bs : List Block) (y x : Nat) : Prop :=
  x < w ∧ (∀ b ∈ bs, ¬ b.Covers y x) ∧ ∀ j k, k < w → (j < y ∨ j = y ∧ k < x) → ∃ b ∈ bs, b.Covers j k

/-- The rule of the format: a block begins at the first free cell; there must be room for it. Blocks are listed last one first. -/
inductive Laid (h w : Nat) : List Block → Prop
  | nil : Laid h w []
  | cons (b : Block) (bs : List Block) : Laid h w bs → FirstFree w bs b.y b.x → b.Inside h w → (∀ a ∈ bs, b.Apart a) → Laid h w (b :: bs)

end Jxl.Spec

namespace Jxl

/-- The number of thresholds below a value. -/
def below (ts : List Int) (v : Int) : Nat := (ts.filter (fun t => t < v)).length

end Jxl
