import Verif.Model.Go

/-!
# Transform types (frame/transformtype.go, frame/HFPass.go:12-77)

The names, the sizes of the matrices and the scale factors of the low frequencies are left out.
-/
namespace Jxl

/-- frame/transformtype.go:45-58 `TransformType`. -/
structure TransformType where
  ttType : Int
  parameterIndex : Int
  orderID : Int
  method : Int
  pixelHeight : Int
  pixelWidth : Int
  deriving DecidableEq, Repr

/-- frame/transformtype.go:94-95: the height of a block in units of 8 pixels. -/
def TransformType.dctHeight (tt : TransformType) : Int := tt.pixelHeight / 8

/-- frame/transformtype.go:94-95: the width of a block in units of 8 pixels. -/
def TransformType.dctWidth (tt : TransformType) : Int := tt.pixelWidth / 8

/-- frame/transformtype.go:119-121 `isVertical`. -/
def TransformType.isVertical (tt : TransformType) : Bool := tt.pixelWidth < tt.pixelHeight

/-- frame/transformtype.go:123-125 `flip`. -/
def TransformType.flip (tt : TransformType) : Bool := decide (tt.pixelWidth < tt.pixelHeight) || (tt.method == 0 && tt.pixelHeight == tt.pixelWidth)

/-- frame/transformtype.go:60-90 `allDCT`. -/
def allDCT : List TransformType := [
  ⟨0, 0, 0, 0, 8, 8⟩,
  ⟨1, 1, 1, 3, 8, 8⟩,
  ⟨2, 2, 1, 1, 8, 8⟩,
  ⟨3, 3, 1, 2, 8, 8⟩,
  ⟨4, 4, 2, 0, 16, 16⟩,
  ⟨5, 5, 3, 0, 32, 32⟩,
  ⟨6, 6, 4, 0, 16, 8⟩,
  ⟨7, 6, 4, 0, 8, 16⟩,
  ⟨8, 7, 5, 0, 32, 8⟩,
  ⟨9, 7, 5, 0, 8, 32⟩,
  ⟨10, 8, 6, 0, 32, 16⟩,
  ⟨11, 8, 6, 0, 16, 32⟩,
  ⟨12, 9, 1, 5, 8, 8⟩,
  ⟨13, 9, 1, 4, 8, 8⟩,
  ⟨14, 10, 1, 6, 8, 8⟩,
  ⟨15, 10, 1, 6, 8, 8⟩,
  ⟨16, 10, 1, 6, 8, 8⟩,
  ⟨17, 10, 1, 6, 8, 8⟩,
  ⟨18, 11, 7, 0, 64, 64⟩,
  ⟨19, 12, 8, 0, 64, 32⟩,
  ⟨20, 12, 8, 0, 32, 64⟩,
  ⟨21, 13, 9, 0, 128, 128⟩,
  ⟨22, 14, 10, 0, 128, 64⟩,
  ⟨23, 14, 10, 0, 64, 128⟩,
  ⟨24, 15, 11, 0, 256, 256⟩,
  ⟨25, 16, 12, 0, 256, 128⟩,
  ⟨26, 16, 12, 0, 128, 256⟩]

/-- frame/HFPass.go:69-77 `filterByOrderID`, and the `init` function that panics when there is none. -/
def filterByOrderID (orderID : Int) : Res TransformType :=
  match allDCT.find? (fun tt => tt.orderID == orderID && !tt.isVertical) with
  | some tt => .ok tt
  | none => .panic

end Jxl
