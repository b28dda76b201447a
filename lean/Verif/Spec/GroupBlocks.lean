import Verif.Spec.Blocks
import Verif.Spec.Dequant

/-!
# Specification: the blocks of an LF group that keep to tiles and groups (C70)
-/
namespace Jxl.Spec

/-- The block begins in the group in row `g.1` and column `g.2` of the groups of the LF group; a group has 32 by 32 cells. -/
def Block.inGroup (g : Nat × Nat) (b : Block) : Bool := decide (b.y / 32 = g.1 ∧ b.x / 32 = g.2)

/-- The type of a block. -/
def Block.tt (b : Block) : TransformType := (allDCT[b.type]?).getD ⟨0, 0, 0, 0, 8, 8⟩

/-- `a` comes before `b` in the order of the rows. -/
def Block.Before (a b : Block) : Prop := a.y < b.y ∨ a.y = b.y ∧ a.x < b.x

/-- The blocks of an LF group of `h` by `w` cells as encoders lay them, last one first: each at the first free cell, none left free, none across the border of a group, and none across
the border of a tile of 8 by 8 cells, unless it begins on one. -/
structure Tiled (h w : Nat) (l : List Block) : Prop where
  laid : Laid h w l
  all : ∀ y x, y < h → x < w → ∃ b ∈ l, b.Covers y x
  mul : ∀ b ∈ l, 1 ≤ b.mul ∧ b.mul ≤ 2147483647
  group : ∀ b ∈ l, b.y % 32 + b.rows ≤ 32 ∧ b.x % 32 + b.cols ≤ 32
  tile : ∀ b ∈ l, (b.y % 8 + b.rows ≤ 8 ∨ b.y % 8 = 0) ∧ (b.x % 8 + b.cols ≤ 8 ∨ b.x % 8 = 0)

end Jxl.Spec
