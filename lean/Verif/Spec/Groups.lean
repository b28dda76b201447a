import Verif.Model.Groups
import Verif.Spec.Image

/-!
# Specification: tilings (C26)
-/
namespace Jxl
namespace Spec

/-- The pixel at row `y` and column `x` lies in the area. -/
def InArea (a : Area) (y x : Nat) : Prop := a.y ≤ y ∧ (y : Int) < a.y + a.height ∧ a.x ≤ x ∧ (x : Int) < a.x + a.width

/-- The areas numbered `0 … n-1` are not empty, at most `gh` high and `gw` wide, lie in a picture of the given size, and every pixel of the picture lies in exactly
one of them. -/
def Tiles (height width gh gw n : Nat) (area : Nat → Res Area) : Prop :=
  (∀ i, i < n → ∃ a, area i = .ok a ∧ 0 < a.height ∧ a.height ≤ gh ∧ 0 < a.width ∧ a.width ≤ gw ∧
    0 ≤ a.y ∧ a.y + a.height ≤ height ∧ 0 ≤ a.x ∧ a.x + a.width ≤ width) ∧
  ∀ y x, y < height → x < width → ∃ i, i < n ∧ (∃ a, area i = .ok a ∧ InArea a y x) ∧
    ∀ j, j < n → ∀ a, area j = .ok a → InArea a y x → j = i

/-- A frame header as the parser makes it: the dimensions of groups and LF groups, shifts of the colour channels of 0 or 1, a size that is neither 0 nor
absurd. -/
structure Framed (f : FrameHeader) : Prop where
  dim : ∃ k, k < 4 ∧ f.groupDim = 128 <<< k
  lfDim : f.lfGroupDim = f.groupDim <<< 3
  jpegX : ∀ v ∈ f.jpegX, v ≤ 1
  jpegY : ∀ v ∈ f.jpegY, v ≤ 1
  width : 0 < f.size.width ∧ f.size.width ≤ 2147481600
  height : 0 < f.size.height ∧ f.size.height ≤ 2147481600

/-- The rows are the part of the picture that lies in the area. -/
def CutFrom {α : Type} (pic : List (List α)) (a : Area) (rows : List (List α)) : Prop :=
  Table a.height a.width rows ∧ ∀ y x, y < a.height → x < a.width → sample rows y x = sample pic (a.y.toNat + y) (a.x.toNat + x)

end Spec
end Jxl
