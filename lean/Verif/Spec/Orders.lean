import Verif.Model.HFPass

/-!
# Specification: the order of the coefficients of a block

A block has `H` rows and `W` columns. Its low frequencies are the `H/8` by `W/8` positions in its upper left corner. The natural order visits them first,
row by row, and then the others by diagonals of the block stretched to a square: the diagonals with an even number from the lower left to the upper right,
the others the other way round.
-/
namespace Jxl.Spec

/-- A position of the block. -/
def InBlock (H W : Nat) (p : Point) : Prop := 0 ≤ p.y ∧ p.y < H ∧ 0 ≤ p.x ∧ p.x < W

/-- A position in the upper left corner. -/
def LowFrequency (H W : Nat) (p : Point) : Prop := InBlock (H / 8) (W / 8) p

/-- The number of the diagonal of a position, in the square. -/
def diagonal (H W : Nat) (p : Point) : Int := p.y * (max H W / H : Nat) + p.x * (max H W / W : Nat)

/-- Position `p` comes before position `q`. -/
def Before (H W : Nat) (p q : Point) : Prop :=
  diagonal H W p < diagonal H W q ∨
    diagonal H W p = diagonal H W q ∧ if diagonal H W p % 2 = 0 then p.x < q.x else q.x < p.x

/-- All positions, each once. -/
def Visits (H W : Nat) (l : List Point) : Prop := l.Nodup ∧ ∀ p, p ∈ l ↔ InBlock H W p

/-- The low frequencies come first: row `y`, column `x` at `y * (W/8) + x`. -/
def CornerFirst (H W : Nat) (l : List Point) : Prop :=
  ∀ (y x : Nat), y < H / 8 → x < W / 8 → l[y * (W / 8) + x]? = some ⟨y, x⟩

/-- The natural order. -/
structure IsNatural (H W : Nat) (l : List Point) : Prop where
  visits : Visits H W l
  corner : CornerFirst H W l
  rest : (l.drop (H / 8 * (W / 8))).Pairwise (Before H W)

/-- The 13 classes of blocks that share their orders: the rows and columns of a block of the class. -/
def classSizes : List (Nat × Nat) :=
  [(8, 8), (8, 8), (16, 16), (32, 32), (8, 16), (8, 32), (16, 32), (64, 64), (32, 64), (128, 128), (64, 128), (256, 256), (128, 256)]

/-- The class of each of the 27 transform types, in the order of their numbers (`transformSizes`): all small blocks but the plain 8×8 transform are in class 1, and
a block and its transpose are in the same class. -/
def transformClasses : List Nat :=
  [0, 1, 1, 1, 2, 3, 4, 4, 5, 5, 6, 6, 1, 1, 1, 1, 1, 1, 7, 8, 8, 9, 10, 10, 11, 12, 12]

end Jxl.Spec
